import Mathlib.Data.List.Induction
import Mathlib.Data.List.Nodup
import Verif.Model.Keywords
import Verif.Spec.Keywords
import Verif.Proofs.Basic
/-!
# Lemmas about sorting and counting
-/

set_option linter.unusedSectionVars false

namespace Jieba.Analyse
open Jieba Jieba.Pos

/-! ## `sortBy` -/

section
variable {α β : Type _}

theorem insertBy_perm (le : α → α → Bool) (x : α) (l : List α) : (insertBy le x l).Perm (x :: l) := by
  induction l with
  | nil => exact List.Perm.refl _
  | cons y l ih =>
    unfold insertBy
    split
    · exact List.Perm.refl _
    · exact (List.Perm.cons y ih).trans (List.Perm.swap x y l)

theorem sortBy_perm (le : α → α → Bool) (l : List α) : (sortBy le l).Perm l := by
  induction l with
  | nil => exact List.Perm.refl _
  | cons x l ih => exact (insertBy_perm le x _).trans (List.Perm.cons x ih)

/-- Before: by decreasing key, and by `R` if keys are equal. -/
def Before {F : Type _} [LinearOrder F] (key : α → F) (R : α → α → Prop) (a b : α) : Prop := key b < key a ∨ (key a = key b ∧ R a b)

theorem insertBy_pairwise {F : Type _} [LinearOrder F] (key : α → F) (R : α → α → Prop) (x : α) (l : List α)
    (hl : l.Pairwise (Before key R)) (hx : ∀ y ∈ l, R x y) :
    (insertBy (fun a b => decide (key b ≤ key a)) x l).Pairwise (Before key R) := by
  induction l with
  | nil => simp [insertBy]
  | cons y l ih =>
    rw [List.pairwise_cons] at hl
    unfold insertBy
    split
    · next h =>
      rw [decide_eq_true_eq] at h
      refine List.pairwise_cons.mpr ⟨?_, List.pairwise_cons.mpr hl⟩
      intro z hz
      have hzx : key z ≤ key x := by
        rcases List.mem_cons.mp hz with rfl | hz
        · exact h
        · rcases hl.1 z hz with h1 | ⟨h1, -⟩
          · exact le_trans (le_of_lt h1) h
          · rw [← h1]; exact h
      rcases lt_or_eq_of_le hzx with h1 | h1
      · exact Or.inl h1
      · exact Or.inr ⟨h1.symm, hx z hz⟩
    · next h =>
      rw [decide_eq_true_eq] at h
      have h := lt_of_not_ge h
      refine List.pairwise_cons.mpr ⟨?_, ih hl.2 (fun z hz => hx z (List.mem_cons_of_mem _ hz))⟩
      intro z hz
      rcases List.mem_cons.mp ((insertBy_perm _ x l).mem_iff.mp hz) with rfl | hz
      · exact Or.inl h
      · exact hl.1 z hz

theorem sortBy_pairwise {F : Type _} [LinearOrder F] (key : α → F) (R : α → α → Prop) (l : List α) (hl : l.Pairwise R) :
    (sortBy (fun a b => decide (key b ≤ key a)) l).Pairwise (Before key R) := by
  induction l with
  | nil => exact List.Pairwise.nil
  | cons x l ih =>
    rw [List.pairwise_cons] at hl
    exact insertBy_pairwise key R x _ (ih hl.2) (fun y hy => hl.1 y ((sortBy_perm _ l).mem_iff.mp hy))

theorem insertBy_map (le : β → β → Bool) (f : α → β) (x : α) (l : List α) :
    insertBy le (f x) (l.map f) = (insertBy (fun a b => le (f a) (f b)) x l).map f := by
  induction l with
  | nil => rfl
  | cons y l ih =>
    simp only [List.map_cons, insertBy]
    split
    · rfl
    · rw [ih]; rfl

theorem sortBy_map (le : β → β → Bool) (f : α → β) (l : List α) :
    sortBy le (l.map f) = (sortBy (fun a b => le (f a) (f b)) l).map f := by
  induction l with
  | nil => rfl
  | cons x l ih =>
    simp only [List.map_cons, sortBy]
    rw [ih, insertBy_map]

theorem withKeys_ok {F : Type _} (key : α → Except PyErr F) (g : α → F) (l : List α) (h : ∀ x ∈ l, key x = .ok (g x)) :
    withKeys key l = .ok (l.map (fun x => (x, g x))) := by
  induction l with
  | nil => rfl
  | cons x l ih =>
    simp only [withKeys, h x List.mem_cons_self, ih (fun y hy => h y (List.mem_cons_of_mem _ hy)), List.map_cons]

theorem pySortedDesc_ok {F : Type _} [LinearOrder F] (key : α → Except PyErr F) (g : α → F) (l : List α) (h : ∀ x ∈ l, key x = .ok (g x)) :
    pySortedDesc key l = .ok (sortBy (fun a b => decide (g b ≤ g a)) l) := by
  unfold pySortedDesc
  rw [withKeys_ok key g l h]
  simp only []
  rw [sortBy_map, List.map_map]
  simp [Function.comp_def]

/-- Two elements in the same relation to everything else: the result of sorting is determined. -/
theorem sortBy_congr (le le' : α → α → Bool) (l : List α) (h : ∀ a ∈ l, ∀ b ∈ l, le a b = le' a b) : sortBy le l = sortBy le' l := by
  induction l with
  | nil => rfl
  | cons x l ih =>
    simp only [sortBy]
    rw [ih (fun a ha b hb => h a (List.mem_cons_of_mem _ ha) b (List.mem_cons_of_mem _ hb))]
    have : ∀ m : List α, (∀ y ∈ m, le x y = le' x y) → insertBy le x m = insertBy le' x m := by
      intro m hm
      induction m with
      | nil => rfl
      | cons y m ihm =>
        simp only [insertBy]
        rw [hm y List.mem_cons_self, ihm (fun z hz => hm z (List.mem_cons_of_mem _ hz))]
    apply this
    intro y hy
    exact h x List.mem_cons_self y (List.mem_cons_of_mem _ ((sortBy_perm le' l).mem_iff.mp hy))

end

variable {F : Type _} [LinearOrder F]

theorem rankTags_weights (d : PyDict Key F) :
    rankTags d true = .ok ((sortBy (fun a b => decide (b.2 ≤ a.2)) d).map (fun e => (e.1, some e.2))) := by
  simp only [rankTags, if_true]
  rw [pySortedDesc_ok _ (fun e => e.2) d (fun _ _ => rfl)]
  rfl

theorem rankTags_words (d : PyDict Key F) (hd : d.keys.Nodup) :
    rankTags d false = .ok ((sortBy (fun a b => decide (b.2 ≤ a.2)) d).map (fun e => (e.1, none))) := by
  simp only [rankTags, Bool.false_eq_true, if_false]
  by_cases h0 : d = []
  · subst h0; rfl
  · have hmem : ∀ k ∈ d.keys, ∃ v, d.get? k = some v := fun k hk => (PyDict.has_iff d k).mp ((PyDict.mem_keys_iff d k).mp hk)
    obtain ⟨e0, he0⟩ := List.exists_mem_of_ne_nil d h0
    rw [pySortedDesc_ok _ (fun k => (d.get? k).getD e0.2) d.keys (by
      intro k hk
      obtain ⟨v, hv⟩ := hmem k hk
      simp [getItem, hv])]
    simp only [Except.map, PyDict.keys]
    rw [sortBy_map, List.map_map, sortBy_congr _ (fun a b : Key × F => decide (b.2 ≤ a.2))]
    · rfl
    · intro a ha b hb
      have ha' := (PyDict.get?_eq_some_iff_mem d hd a.1 a.2).mpr ha
      have hb' := (PyDict.get?_eq_some_iff_mem d hd b.1 b.2).mpr hb
      simp [ha', hb']

/-! ## Counting -/

theorem countKeys_snoc (A : Arith F) (ks : List Key) (k : Key) :
    countKeys A (ks ++ [k]) = (countKeys A ks).set k (A.add (((countKeys A ks).get? k).getD A.zero) (A.ofInt 1)) := by
  simp [countKeys, List.foldl_append]

/-- `0.0 + 1.0 + ... + 1.0` -/
def ones (A : Arith F) : Nat → F
  | 0 => A.zero
  | n + 1 => A.add (ones A n) (A.ofInt 1)

theorem countKeys_get? (A : Arith F) (ks : List Key) (k : Key) :
    (countKeys A ks).get? k = if k ∈ ks then some (ones A (ks.count k)) else none := by
  induction ks using List.reverseRecOn with
  | nil => simp [countKeys]
  | append_singleton ks x ih =>
    rw [countKeys_snoc, PyDict.get?_set]
    by_cases hx : x = k
    · subst hx
      rw [if_pos rfl, if_pos (by simp), ih]
      simp only [List.count_append, List.count_singleton_self, ones]
      split
      · rfl
      · next h => simp [List.count_eq_zero_of_not_mem h, ones]
    · rw [if_neg hx, ih]
      have hc : (ks ++ [x]).count k = ks.count k := by
        rw [List.count_append, List.count_singleton]
        simp [hx]
      have hm : k ∈ ks ++ [x] ↔ k ∈ ks := by
        simp only [List.mem_append, List.mem_singleton]
        exact ⟨fun h => h.resolve_right (fun e => hx e.symm), Or.inl⟩
      simp only [hc, hm]

theorem countKeys_nodup (A : Arith F) (ks : List Key) : (countKeys A ks).keys.Nodup := by
  induction ks using List.reverseRecOn with
  | nil => exact List.nodup_nil
  | append_singleton ks x ih => rw [countKeys_snoc]; exact PyDict.nodup_keys_set _ _ _ ih

theorem countKeys_mem (A : Arith F) (ks : List Key) (k : Key) : k ∈ (countKeys A ks).keys ↔ k ∈ ks := by
  rw [PyDict.mem_keys_iff, PyDict.has_iff, countKeys_get?]
  by_cases h : k ∈ ks <;> simp [h]

/-- The keys are in order of first occurrence. -/
theorem countKeys_order (A : Arith F) (ks : List Key) :
    (countKeys A ks).keys.Pairwise (fun a b => ks.idxOf a < ks.idxOf b) := by
  induction ks using List.reverseRecOn with
  | nil => exact List.Pairwise.nil
  | append_singleton ks x ih =>
    rw [countKeys_snoc, PyDict.keys_set]
    have hmono : (countKeys A ks).keys.Pairwise (fun a b => (ks ++ [x]).idxOf a < (ks ++ [x]).idxOf b) := by
      refine List.Pairwise.imp_of_mem ?_ ih
      intro a b ha hb h
      rw [List.idxOf_append_of_mem ((countKeys_mem A ks a).mp ha), List.idxOf_append_of_mem ((countKeys_mem A ks b).mp hb)]
      exact h
    split
    · exact hmono
    · next hx =>
      refine List.pairwise_append.mpr ⟨hmono, List.pairwise_singleton _ _, ?_⟩
      intro a ha b hb
      rw [List.mem_singleton] at hb
      subst hb
      have ha' := (countKeys_mem A ks a).mp ha
      have hb' : b ∉ ks := fun h => hx ((PyDict.mem_keys_iff _ _).mp ((countKeys_mem A ks b).mpr h))
      rw [List.idxOf_append_of_mem ha', List.idxOf_append_of_notMem hb']
      have := List.idxOf_lt_length_of_mem ha'
      omega

theorem scaleBy_keys (A : Arith F) (idf : PyDict Str F) (m t : F) (d d' : PyDict Key F) (h : scaleBy A idf m t d = .ok d') :
    d'.keys = d.keys := by
  induction d generalizing d' with
  | nil => simp [scaleBy] at h; subst h; rfl
  | cons e d ih =>
    obtain ⟨k, v⟩ := e
    simp only [scaleBy] at h
    repeat' split at h
    all_goals simp only [reduceCtorEq, Except.ok.injEq] at h
    subst h
    next h1 => simp only [PyDict.keys, List.map_cons] at ih ⊢; rw [ih _ h1]

theorem scaleBy_ok (A : Arith F) (idf : PyDict Str F) (m t : F) (ht : t ≠ A.zero) (d : PyDict Key F) :
    scaleBy A idf m t d = .ok (d.map (fun e => (e.1, A.mul e.2 (A.div ((idf.get? e.1.text).getD m) t)))) := by
  induction d with
  | nil => rfl
  | cons e d ih =>
    obtain ⟨k, v⟩ := e
    simp only [scaleBy, pyDiv, if_neg ht, ih, List.map_cons]

/-! ## What is counted -/

theorem dropWhile_filter_not (p : Nat → Bool) (s : List Nat) : (s.dropWhile p).filter (fun c => !p c) = s.filter (fun c => !p c) := by
  induction s with
  | nil => rfl
  | cons c s ih =>
    rw [List.dropWhile_cons]
    split
    · next h => rw [ih, List.filter_cons_of_neg (by simp [h])]
    · rfl

theorem stripBy_filter_not (p : Nat → Bool) (s : List Nat) : (stripBy p s).filter (fun c => !p c) = s.filter (fun c => !p c) := by
  unfold stripBy
  rw [List.filter_reverse, dropWhile_filter_not, List.filter_reverse, List.reverse_reverse, dropWhile_filter_not]

theorem head_dropWhile_not (p : Nat → Bool) (s : List Nat) (c : Nat) (l : List Nat) (h : s.dropWhile p = c :: l) : p c = false := by
  induction s with
  | nil => cases h
  | cons d s ih =>
    rw [List.dropWhile_cons] at h
    split at h
    · exact ih h
    · next hd => cases h; simpa using hd

/-- A stripped string has two characters or more exactly if it has two that are not blank. -/
theorem two_le_strip (p : Nat → Bool) (s : List Nat) : 2 ≤ (stripBy p s).length ↔ 2 ≤ (s.filter (fun c => !p c)).length := by
  rw [← stripBy_filter_not p s]
  constructor
  · intro h
    -- the ends of the stripped string are not blank
    unfold stripBy at h ⊢
    rw [List.length_reverse] at h
    rw [List.filter_reverse, List.length_reverse]
    cases hl : ((s.dropWhile p).reverse).dropWhile p with
    | nil => rw [hl] at h; simp at h
    | cons c l =>
      rw [hl] at h
      have hc := head_dropWhile_not p _ c l hl
      have hsuf := List.dropWhile_suffix (l := (s.dropWhile p).reverse) p
      rw [hl] at hsuf
      cases hd : s.dropWhile p with
      | nil => rw [hd] at hsuf; simp at hsuf
      | cons d t =>
        have hd' := head_dropWhile_not p _ d t hd
        rw [hd] at hsuf
        have hne : l ≠ [] := by intro h0; subst h0; simp at h
        have hlast : l.getLast hne = d := by
          obtain ⟨u, hu⟩ := hsuf
          have := congrArg List.getLast? hu
          rw [List.getLast?_append, List.getLast?_cons, List.getLast?_eq_some_getLast hne] at this
          simpa using this
        rw [List.filter_cons_of_pos (by simp [hc]), List.length_cons]
        have : d ∈ l.filter (fun c => !p c) := List.mem_filter.mpr ⟨hlast ▸ List.getLast_mem hne, by simp [hd']⟩
        have := List.length_pos_of_mem this
        omega
  · intro h
    exact le_trans h (List.length_filter_le _ _)

theorem keeps_iff (K : KSys F) (stop : List Str) (k : Key) : keeps K stop k = true ↔ Spec.Accepts K.lower stop k.text := by
  unfold keeps Spec.Accepts
  rw [← two_le_strip isSpace]
  simp only [Bool.not_eq_true', Bool.or_eq_false_iff, decide_eq_false_iff_not, not_lt]

theorem mapOut_err {α β : Type _} (g : Gen α) (f : α → List β) : (g.mapOut f).err = g.err := rfl

theorem candidates_words (K : KSys F) (p : PWorld) (tok pos : Nat) (s : PyText) (withFlag io : Bool) (stop : List Str) :
    (candidates K p tok pos s [] withFlag io).2.out.filter (keeps K stop) =
      Spec.acceptedWords K.lower stop (cutW K.pos.sys p.w tok false true s io).2.out := by
  simp only [candidates, if_true, Gen.mapOut, Spec.acceptedWords]
  induction (cutW K.pos.sys p.w tok false true s io).2.out with
  | nil => rfl
  | cons w ws ih =>
    rw [List.flatMap_cons, List.filter_append, ih, List.filter_cons (xs := ws)]
    have : keeps K stop (.word w) = decide (Spec.Accepts K.lower stop w) := by
      rw [Bool.eq_iff_iff, keeps_iff]; simp [Key.text]
    by_cases h : Spec.Accepts K.lower stop w <;> simp [this, h]

theorem candidates_pairs (K : KSys F) (p : PWorld) (tok pos : Nat) (s : PyText) (allow : List Str) (ha : allow ≠ [])
    (withFlag io : Bool) (stop : List Str) :
    (candidates K p tok pos s allow withFlag io).2.out.filter (keeps K stop) =
      Spec.acceptedPairs K.lower stop allow withFlag (cutPW K.pos p pos true s io).2.out := by
  simp only [candidates, if_neg ha, Gen.mapOut, Spec.acceptedPairs]
  induction (cutPW K.pos p pos true s io).2.out with
  | nil => rfl
  | cons w ws ih =>
    rw [List.flatMap_cons, List.filter_append, ih, List.filter_cons (xs := ws)]
    have : keeps K stop (if withFlag then Key.pair w.1 w.2 else Key.word w.1) = decide (Spec.Accepts K.lower stop w.1) := by
      rw [Bool.eq_iff_iff, keeps_iff]; cases withFlag <;> simp [Key.text]
    by_cases h1 : w.2 ∈ allow <;> by_cases h : Spec.Accepts K.lower stop w.1 <;> simp [this, h, h1]

theorem countKeys_eq (A : Arith F) (ks : List Key) :
    countKeys A ks = (countKeys A ks).keys.map (fun k => (k, ones A (ks.count k))) := by
  unfold PyDict.keys
  rw [List.map_map]
  conv_lhs => rw [← List.map_id (countKeys A ks)]
  apply List.map_congr_left
  intro e he
  have h1 := (PyDict.get?_eq_some_iff_mem _ (countKeys_nodup A ks) e.1 e.2).mpr he
  rw [countKeys_get?] at h1
  split at h1
  · simp only [Option.some.injEq] at h1
    simp [h1]
  · cases h1

end Jieba.Analyse
