import Verif.Proofs.CutAll
/-!
# Full mode on texts with ASCII letters and digits
-/

set_option linter.unusedSectionVars false

namespace Jieba
open Jieba.Spec

variable {F : Type _} [LinearOrder F]

def joinG (g : List (Nat × Str)) : Str := (g.map Prod.snd).flatten

def engAt (s : Str) (k : Nat) : Bool := reEng.isMatch (slice s k (k + 1))

/-- One iteration of `__cut_all` with the start offsets of the pieces of a token. -/
def gStep (s : Str) (oldJ : Int) (buf : Option (List (Nat × Str))) (k : Nat) (L : List Nat) :
    List (List (Nat × Str)) × Option (List (Nat × Str)) :=
  let out1 := if engAt s k then [] else buf.toList
  let buf := if engAt s k then buf else none
  if L.length = 1 ∧ oldJ < (k : Int) ∧ engAt s k = true then (out1, some (buf.getD [] ++ (plainStep s oldJ k L).1))
  else (out1 ++ (plainStep s oldJ k L).1.map (fun p => [p]), buf)

def gLoop (s : Str) : Int → Option (List (Nat × Str)) → Nat → List (List Nat) → List (List (Nat × Str))
  | _, buf, _, [] => buf.toList
  | oldJ, buf, k, L :: dag =>
    (gStep s oldJ buf k L).1 ++ gLoop s (plainStep s oldJ k L).2 (gStep s oldJ buf k L).2 (k + 1) dag

theorem engAt_iff (s : Str) (k : Nat) (hk : k < s.length) : engAt s k = isAlnum s[k] := by
  unfold engAt reEng
  rw [isMatch_cls]
  have : slice s k (k + 1) = [s[k]] := by
    unfold slice
    rw [List.take_add_one, List.getElem?_eq_getElem hk]
    simp only [Option.toList_some]
    rw [List.drop_append, List.drop_eq_nil_of_le (by rw [List.length_take]; omega), List.length_take, show k - min k s.length = 0 by omega]
    rfl
  rw [this]

theorem slice_head (s : Str) (k j : Nat) (hk : k < s.length) (hj : k ≤ j) : ∃ l, slice s k (j + 1) = s[k] :: l := by
  have h : (slice s k (j + 1))[0]? = some s[k] := by
    unfold slice
    rw [List.getElem?_drop, List.getElem?_take, if_pos (by omega)]
    simp [hk]
  cases h' : slice s k (j + 1) with
  | nil => rw [h'] at h; simp at h
  | cons c l => rw [h'] at h; simp at h; exact ⟨l, by rw [h]⟩

theorem reEng_slice (s : Str) (k j : Nat) (hk : k < s.length) (hj : k ≤ j) : reEng.isMatch (slice s k (j + 1)) = engAt s k := by
  rw [engAt_iff s k hk]
  unfold reEng
  rw [isMatch_cls]
  obtain ⟨l, hl⟩ := slice_head s k j hk hj
  rw [hl]

theorem singles_join (l : List (Nat × Str)) : (l.map (fun p => [p])).map joinG = l.map Prod.snd := by
  induction l with
  | nil => rfl
  | cons p l ih =>
    rw [List.map_cons, List.map_cons, ih, List.map_cons]
    simp [joinG]

theorem cutAllStep_groups (s : Str) (oldJ : Int) (b : Str) (buf : Option (List (Nat × Str))) (k : Nat) (L : List Nat)
    (hk : k < s.length) (hL : ∀ j ∈ L, k ≤ j) (hb : ∀ g, buf = some g → b = joinG g) :
    ∃ b', cutAllStep s ⟨oldJ, buf.isSome, b⟩ k L =
        ((gStep s oldJ buf k L).1.map joinG, ⟨(plainStep s oldJ k L).2, (gStep s oldJ buf k L).2.isSome, b'⟩) ∧
      ∀ g, (gStep s oldJ buf k L).2 = some g → b' = joinG g := by
  have e : reEng.isMatch (slice s k (k + 1)) = engAt s k := rfl
  by_cases hc : L.length = 1 ∧ oldJ < (k : Int)
  · obtain ⟨j, rfl⟩ := List.length_eq_one_iff.mp hc.1
    have hw : reEng.isMatch (slice s k (j + 1)) = engAt s k := reEng_slice s k j hk (hL j (by simp))
    have hp : plainStep s oldJ k [j] = ([(k, slice s k (j + 1))], (j : Int)) := by
      unfold plainStep; rw [if_pos hc]; simp
    unfold cutAllStep gStep
    rw [hp]
    simp only [e, hw]
    cases he : engAt s k with
    | true =>
      cases hbuf : buf with
      | none =>
        refine ⟨slice s k (j + 1), ?_, ?_⟩
        · simp [hc.2]
        · intro g hg; simp [hc.2] at hg; rw [← hg]; simp [joinG]
      | some g0 =>
        refine ⟨b ++ slice s k (j + 1), ?_, ?_⟩
        · simp [hc.2]
        · intro g hg; simp [hc.2] at hg; rw [← hg, hb g0 hbuf]; simp [joinG]
    | false =>
      cases hbuf : buf with
      | none =>
        refine ⟨b, ?_, ?_⟩
        · simp [hc.2, joinG]
        · intro g hg; simp at hg
      | some g0 =>
        refine ⟨b, ?_, ?_⟩
        · simp [hc.2, hb g0 hbuf, joinG]
        · intro g hg; simp at hg
  · have hg : ¬ (L.length = 1 ∧ oldJ < (k : Int) ∧ engAt s k = true) := fun h => hc ⟨h.1, h.2.1⟩
    unfold cutAllStep gStep
    simp only [if_neg hg, e]
    unfold plainStep
    rw [if_neg hc]
    have fin : ∀ (o : List Str) (st : AllState), st.oldJ = oldJ →
        (match L with
        | [j] =>
          if st.oldJ < (k : Int) then
            (o ++ (if (if reEng.isMatch (slice s k (j + 1)) then
              (if st.engScan then { st with engBuf := st.engBuf ++ slice s k (j + 1) }
               else { st with engScan := true, engBuf := slice s k (j + 1) })
            else st : AllState).engScan then [] else [slice s k (j + 1)]),
             { (if reEng.isMatch (slice s k (j + 1)) then
              (if st.engScan then { st with engBuf := st.engBuf ++ slice s k (j + 1) }
               else { st with engScan := true, engBuf := slice s k (j + 1) })
            else st : AllState) with oldJ := (j : Int) })
          else
            (o ++ (if k < j then [slice s k (j + 1)] else []), if k < j then { st with oldJ := (j : Int) } else st)
        | L =>
          (o ++ (L.filter (fun j => k < j)).map (fun j => slice s k (j + 1)),
           (L.filter (fun j => k < j)).foldl (fun st (j : Nat) => { st with oldJ := (j : Int) }) st)) =
        (o ++ ((L.filter (fun j => k < j)).map (fun j => (k, slice s k (j + 1)))).map Prod.snd,
          { st with oldJ := ((L.filter (fun j => k < j)).getLast?.map (fun (j : Nat) => (j : Int))).getD oldJ }) := by
      rintro o st rfl
      match L with
      | [] => simp
      | [j] =>
        have h : ¬ st.oldJ < (k : Int) := fun h => hc ⟨rfl, h⟩
        by_cases hj : k < j
        · simp [h, hj]
        · simp [h, hj]
      | a :: c :: L => simp [foldl_oldJ, Function.comp_def]
    cases he : engAt s k with
    | true =>
      refine ⟨b, ?_, ?_⟩
      · refine (fin _ _ ?_).trans ?_
        · simp
        · simp [joinG, Function.comp_def]
      · intro g hg; simp at hg; exact hb g hg
    | false =>
      cases hbuf : buf with
      | none =>
        refine ⟨b, ?_, ?_⟩
        · refine (fin _ _ ?_).trans ?_
          · simp
          · simp [joinG, Function.comp_def]
        · intro g hg; simp at hg
      | some g0 =>
        refine ⟨b, ?_, ?_⟩
        · refine (fin _ _ ?_).trans ?_
          · simp
          · simp [hb g0 hbuf, joinG, Function.comp_def]
        · intro g hg; simp at hg

theorem cutAllLoop_groups (freq : Freq) (s : Str) (n : Nat) : ∀ (oldJ : Int) (b : Str) (buf : Option (List (Nat × Str))) (k : Nat),
    s.length - k = n → (∀ g, buf = some g → b = joinG g) →
    cutAllLoop s ⟨oldJ, buf.isSome, b⟩ k ((getDAG freq s).drop k) = (gLoop s oldJ buf k ((getDAG freq s).drop k)).map joinG := by
  induction n with
  | zero =>
    intro oldJ b buf k hk hb
    rw [List.drop_eq_nil_of_le (by simp [getDAG]; omega)]
    cases buf with
    | none => rfl
    | some g => simp [cutAllLoop, gLoop, hb g rfl]
  | succ n ih =>
    intro oldJ b buf k hk hb
    rw [getDAG_drop freq s k (by omega)]
    unfold cutAllLoop gLoop
    obtain ⟨b', h1, h2⟩ := cutAllStep_groups s oldJ b buf k (dagRow freq s k) (by omega)
      (fun j hj => ((dagRow_bounds freq s k (by omega)).2 j hj).1) hb
    rw [h1, List.map_append, ih _ _ _ (k + 1) (by omega) h2]

theorem cutAll_groups (freq : Freq) (s : Str) :
    cutAll freq s = Gen.ok ((gLoop s (-1) none 0 (getDAG freq s)).map joinG) := by
  unfold cutAll
  have := cutAllLoop_groups freq s s.length (-1) [] none 0 (by simp) (by simp)
  simpa using congrArg Gen.ok this

/-! ## The pieces -/

theorem gStep_perm (s : Str) (oldJ : Int) (buf : Option (List (Nat × Str))) (k : Nat) (L : List Nat) :
    ((gStep s oldJ buf k L).1.flatten ++ (gStep s oldJ buf k L).2.getD []).Perm (buf.getD [] ++ (plainStep s oldJ k L).1) := by
  have hs : ∀ l : List (Nat × Str), (l.map (fun p => [p])).flatten = l := by
    intro l; induction l with
    | nil => rfl
    | cons p l ih => simp [ih]
  unfold gStep
  simp only
  split
  · cases engAt s k <;> cases buf <;> simp
  · cases engAt s k <;> cases buf <;> simp [hs]
    exact List.perm_append_comm

theorem gLoop_perm (s : Str) (dag : List (List Nat)) : ∀ (oldJ : Int) (buf : Option (List (Nat × Str))) (k : Nat),
    (gLoop s oldJ buf k dag).flatten.Perm (buf.getD [] ++ plainLoop s oldJ k dag) := by
  induction dag with
  | nil => intro oldJ buf k; cases buf <;> simp [gLoop, plainLoop]
  | cons L dag ih =>
    intro oldJ buf k
    unfold gLoop plainLoop
    rw [List.flatten_append]
    refine ((List.Perm.refl _).append (ih _ _ _)).trans ?_
    rw [← List.append_assoc, ← List.append_assoc]
    exact (gStep_perm s oldJ buf k L).append (List.Perm.refl _)

/-! ## Groups -/

theorem plainStep_bounds (freq : Freq) (s : Str) (oldJ : Int) (k : Nat) :
    (plainStep s oldJ k (dagRow freq s k)).2 = oldJ ∨ ∃ j ∈ dagRow freq s k, (plainStep s oldJ k (dagRow freq s k)).2 = (j : Int) := by
  unfold plainStep
  split
  · rename_i h
    obtain ⟨j, hj⟩ := List.length_eq_one_iff.mp h.1
    right; rw [hj]; exact ⟨j, by simp, by simp⟩
  · cases hl : ((dagRow freq s k).filter (fun j => k < j)).getLast? with
    | none => left; rfl
    | some j => right; exact ⟨j, (List.mem_filter.mp (List.mem_of_getLast? hl)).1, rfl⟩

def BufOk (s : Str) (buf : Option (List (Nat × Str))) (k : Nat) : Prop :=
  ∀ g, buf = some g → g ≠ [] ∧ g.Pairwise (fun p q => p.1 < q.1) ∧ (∀ p ∈ g, p.1 < k) ∧
    (∀ i, (∃ p ∈ g, p.1 ≤ i) → i < k → ∃ c, s[i]? = some c ∧ isAlnum c = true) ∧
    ∀ p ∈ g, ∃ c l, p.2 = c :: l ∧ isAlnum c = true

theorem bufOk_merged {s : Str} {buf : Option (List (Nat × Str))} {k : Nat} (h : BufOk s buf k) : ∀ g ∈ buf.toList, MergedPieces s g := by
  intro g hg
  obtain ⟨h1, h2, h3, h4, -⟩ := h g (by simpa using hg)
  exact ⟨h1, h2, fun _ i hi ⟨q, hq, hiq⟩ => h4 i hi (by have := h3 q hq; omega)⟩

theorem single_merged (s : Str) (p : Nat × Str) : MergedPieces s [p] := ⟨by simp, by simp, by simp⟩

theorem gStep_ok (freq : Freq) (s : Str) (oldJ : Int) (buf : Option (List (Nat × Str))) (k : Nat) (hk : k < s.length)
    (h : BufOk s buf k) :
    (∀ g ∈ (gStep s oldJ buf k (dagRow freq s k)).1, MergedPieces s g) ∧
    BufOk s (gStep s oldJ buf k (dagRow freq s k)).2 (k + 1) := by
  have hout : ∀ g ∈ (if engAt s k then [] else buf.toList), MergedPieces s g := by
    intro g hg
    split at hg
    · simp at hg
    · exact bufOk_merged h g hg
  have hb' : BufOk s (if engAt s k then buf else none) (k + 1) := by
    intro g hg
    split at hg
    · rename_i he
      obtain ⟨h1, h2, h3, h4, h5⟩ := h g hg
      refine ⟨h1, h2, fun p hp => by have := h3 p hp; omega, ?_, h5⟩
      intro i hi hik
      by_cases hlt : i < k
      · exact h4 i hi hlt
      · have : i = k := by omega
        subst this
        exact ⟨s[i], by simp [hk], by rw [← engAt_iff s i hk]; exact he⟩
    · simp at hg
  unfold gStep
  simp only
  split
  · rename_i hc
    refine ⟨hout, ?_⟩
    obtain ⟨j, hj⟩ := List.length_eq_one_iff.mp hc.1
    have hp : (plainStep s oldJ k (dagRow freq s k)).1 = [(k, slice s k (j + 1))] := by
      unfold plainStep; rw [if_pos ⟨hc.1, hc.2.1⟩, hj]; rfl
    have hjk := ((dagRow_bounds freq s k hk).2 j (by rw [hj]; simp)).1
    obtain ⟨l, hl⟩ := slice_head s k j hk hjk
    have hal : isAlnum s[k] = true := by rw [← engAt_iff s k hk]; exact hc.2.2
    rw [hp]
    simp only [if_pos hc.2.2]
    intro g hg
    rw [Option.some.injEq] at hg
    subst hg
    cases hbuf : buf with
    | none =>
      refine ⟨by simp, by simp, by simp, ?_, ?_⟩
      · rintro i ⟨p, hp, hpi⟩ hi
        simp at hp; subst hp
        simp at hpi
        have : i = k := by omega
        subst this
        exact ⟨_, by simp [hk], hal⟩
      · intro p hp
        simp at hp; subst hp
        exact ⟨_, l, hl, hal⟩
    | some g0 =>
      obtain ⟨h1, h2, h3, h4, h5⟩ := h g0 hbuf
      refine ⟨by simp, ?_, ?_, ?_, ?_⟩
      · simp only [Option.getD_some]
        rw [List.pairwise_append]
        refine ⟨h2, by simp, ?_⟩
        intro p hp q hq
        simp at hq; subst hq
        exact h3 p hp
      · intro p hp
        simp at hp
        rcases hp with hp | rfl
        · have := h3 p hp; omega
        · simp
      · rintro i ⟨p, hp, hpi⟩ hi
        by_cases hlt : i < k
        · simp at hp
          rcases hp with hp | rfl
          · exact h4 i ⟨p, hp, hpi⟩ hlt
          · simp at hpi; omega
        · have : i = k := by omega
          subst this
          exact ⟨_, by simp [hk], hal⟩
      · intro p hp
        simp at hp
        rcases hp with hp | rfl
        · exact h5 p hp
        · exact ⟨_, l, hl, hal⟩
  · refine ⟨?_, hb'⟩
    intro g hg
    rcases List.mem_append.mp hg with hg | hg
    · exact hout g hg
    · rw [List.mem_map] at hg
      obtain ⟨p, -, rfl⟩ := hg
      exact single_merged s p

theorem gLoop_merged (freq : Freq) (s : Str) (n : Nat) : ∀ (oldJ : Int) (buf : Option (List (Nat × Str))) (k : Nat),
    s.length - k = n → BufOk s buf k → ∀ g ∈ gLoop s oldJ buf k ((getDAG freq s).drop k), MergedPieces s g := by
  induction n with
  | zero =>
    intro oldJ buf k hk hb g hg
    rw [List.drop_eq_nil_of_le (by simp [getDAG]; omega)] at hg
    exact bufOk_merged hb g hg
  | succ n ih =>
    intro oldJ buf k hk hb g hg
    rw [getDAG_drop freq s k (by omega)] at hg
    unfold gLoop at hg
    obtain ⟨h1, h2⟩ := gStep_ok freq s oldJ buf k (by omega) hb
    rcases List.mem_append.mp hg with hg | hg
    · exact h1 g hg
    · exact ih _ _ (k + 1) (by omega) h2 g hg

/-! ## Counting -/

theorem buf_count (s : Str) (buf : Option (List (Nat × Str))) (k : Nat) (h : BufOk s buf k) (c : Ch) (w : Str) (hc : isAlnum c = false) :
    (buf.toList.map joinG).count (c :: w) = 0 := by
  rw [List.count_eq_zero]
  intro hm
  rw [List.mem_map] at hm
  obtain ⟨g, hg, e⟩ := hm
  obtain ⟨h1, -, -, -, h5⟩ := h g (by simpa using hg)
  cases g with
  | nil => exact h1 rfl
  | cons p g =>
    obtain ⟨d, l, e2, hd⟩ := h5 p (by simp)
    simp only [joinG, List.map_cons, List.flatten_cons, e2, List.cons_append, List.cons.injEq] at e
    rw [e.1, hc] at hd
    exact Bool.noConfusion hd

theorem gStep_count (freq : Freq) (s : Str) (oldJ : Int) (buf : Option (List (Nat × Str))) (k : Nat) (hk : k < s.length)
    (h : BufOk s buf k) (c : Ch) (w : Str) (hc : isAlnum c = false) :
    ((gStep s oldJ buf k (dagRow freq s k)).1.map joinG).count (c :: w) =
      ((plainStep s oldJ k (dagRow freq s k)).1.map Prod.snd).count (c :: w) := by
  have hout : ((if engAt s k then [] else buf.toList).map joinG).count (c :: w) = 0 := by
    split
    · simp
    · exact buf_count s buf k h c w hc
  unfold gStep
  simp only
  split
  · rename_i hcc
    rw [hout]
    symm
    rw [List.count_eq_zero]
    intro hm
    rw [List.mem_map] at hm
    obtain ⟨p, hp, e⟩ := hm
    obtain ⟨j, hj, rfl⟩ := plainStep_mem freq s oldJ k p hp
    obtain ⟨l, hl⟩ := slice_head s k j hk ((dagRow_bounds freq s k hk).2 j hj).1
    simp only [hl, List.cons.injEq] at e
    have := engAt_iff s k hk
    rw [hcc.2.2, e.1, hc] at this
    exact Bool.noConfusion this
  · rw [List.map_append, List.count_append, hout, singles_join]; omega

theorem gLoop_count (freq : Freq) (s : Str) (c : Ch) (w : Str) (hc : isAlnum c = false) (n : Nat) :
    ∀ (oldJ : Int) (buf : Option (List (Nat × Str))) (k : Nat), s.length - k = n → BufOk s buf k →
    ((gLoop s oldJ buf k ((getDAG freq s).drop k)).map joinG).count (c :: w) =
      ((plainLoop s oldJ k ((getDAG freq s).drop k)).map Prod.snd).count (c :: w) := by
  induction n with
  | zero =>
    intro oldJ buf k hk hb
    rw [List.drop_eq_nil_of_le (by simp [getDAG]; omega)]
    exact buf_count s buf k hb c w hc
  | succ n ih =>
    intro oldJ buf k hk hb
    rw [getDAG_drop freq s k (by omega)]
    unfold gLoop plainLoop
    rw [List.map_append, List.count_append, List.map_append, List.count_append, gStep_count freq s oldJ buf k (by omega) hb c w hc,
      ih _ _ (k + 1) (by omega) (gStep_ok freq s oldJ buf k (by omega) hb).2]

theorem cutAll_count_letters (freq : Freq) (hp : PrefixClosed freq) (s : Str) (c : Ch) (w : Str) (hc : isAlnum c = false)
    (hw : w ≠ []) (hd : DictWord freq (c :: w)) : (cutAll freq s).out.count (c :: w) = occurrences (c :: w) s := by
  have hw2 : 2 ≤ (c :: w).length := by
    have := List.length_pos_of_ne_nil hw
    simp; omega
  rw [cutAll_groups, occurrences_eq_countP, List.range_eq_range']
  have h1 := gLoop_count freq s c w hc s.length (-1) none 0 (by simp) (by intro g hg; simp at hg)
  have h2 := plainLoop_count freq hp s (c :: w) hw2 hd s.length (-1) 0 (by simp)
  rw [List.drop_zero] at h1 h2
  rw [Gen.ok_out, h1, h2]

/-- The pieces of the tokens of a block. -/
theorem cutAll_pieces (freq : Freq) (s : Str) :
    ∃ gs : List (List (Nat × Str)), cutAll freq s = Gen.ok (gs.map joinG) ∧ Cover s gs.flatten ∧ (∀ g ∈ gs, MergedPieces s g) ∧
      (∀ p ∈ gs.flatten, DictWord freq p.2 ∨ p.2.length = 1) ∧
      ∀ w, 2 ≤ w.length → PrefixClosed freq → DictWord freq w → ∀ k, w <+: s.drop k → (k, w) ∈ gs.flatten := by
  have hperm := gLoop_perm s (getDAG freq s) (-1) none 0
  simp only [Option.getD_none, List.nil_append] at hperm
  have hmem : ∀ p ∈ plainLoop s (-1) 0 (getDAG freq s), ∃ k' j, k' < s.length ∧ j ∈ dagRow freq s k' ∧ p = (k', slice s k' (j + 1)) := by
    intro p hp
    obtain ⟨k', j, -, h2, h3, rfl⟩ := plainLoop_mem freq s s.length (-1) 0 (by simp) p (by simpa using hp)
    exact ⟨k', j, h2, h3, rfl⟩
  refine ⟨gLoop s (-1) none 0 (getDAG freq s), cutAll_groups freq s, ⟨?_, ?_⟩, ?_, ?_, ?_⟩
  · intro p hp
    obtain ⟨k', j, h2, h3, rfl⟩ := hmem p (hperm.mem_iff.mp hp)
    have hb := (dagRow_bounds freq s k' h2).2 j h3
    simp only
    rw [slice_length _ _ _ (by omega)]
    refine ⟨by omega, ?_⟩
    congr 1; omega
  · intro i hi
    obtain ⟨p, hp, hc⟩ := plainLoop_covers freq s s.length (-1) 0 (by simp) i (by omega) hi (by omega)
    rw [List.drop_zero] at hp
    exact ⟨p, hperm.mem_iff.mpr hp, hc⟩
  · have := gLoop_merged freq s s.length (-1) none 0 (by simp) (by intro g hg; simp at hg)
    rwa [List.drop_zero] at this
  · intro p hp
    obtain ⟨k', j, h2, h3, rfl⟩ := hmem p (hperm.mem_iff.mp hp)
    have hb := (dagRow_bounds freq s k' h2).2 j h3
    rcases dagRow_mem freq s k' j h2 h3 with h | ⟨rfl, -⟩
    · exact Or.inl h
    · right; simp only; rw [slice_length _ _ _ (by omega)]; omega
  · intro w hw hp hd k hk
    rw [hperm.mem_iff]
    have hkl : k < s.length := by
      have := hk.length_le
      rw [List.length_drop] at this; omega
    have key : ∀ (n : Nat) (oldJ : Int) (k0 : Nat), s.length - k0 = n → k0 ≤ k →
        (k, w) ∈ plainLoop s oldJ k0 ((getDAG freq s).drop k0) := by
      intro n
      induction n with
      | zero => intro oldJ k0 h1 h2; omega
      | succ n ih =>
        intro oldJ k0 h1 h2
        rw [getDAG_drop freq s k0 (by omega)]
        unfold plainLoop
        by_cases he : k0 = k
        · subst he
          apply List.mem_append_left
          have := plainStep_count freq hp s oldJ k0 hkl w hw hd
          rw [if_pos (List.isPrefixOf_iff_prefix.mpr hk)] at this
          have hm : w ∈ (plainStep s oldJ k0 (dagRow freq s k0)).1.map Prod.snd := by
            rw [← List.count_pos_iff]; omega
          rw [List.mem_map] at hm
          obtain ⟨p, hp', rfl⟩ := hm
          obtain ⟨j, hj, rfl⟩ := plainStep_mem freq s oldJ k0 p hp'
          exact hp'
        · exact List.mem_append_right _ (ih _ (k0 + 1) (by omega) (by omega))
    have := key s.length (-1) 0 (by simp) (by omega)
    rwa [List.drop_zero] at this

/-! ## Runs of letters outside words -/

theorem row_single (freq : Freq) (s : Str) (k : Nat) (hk : k < s.length)
    (h : ∀ j, k + 2 ≤ j → j ≤ s.length → ¬ DictWord freq (slice s k j)) : dagRow freq s k = [k] := by
  obtain ⟨hne, hb⟩ := dagRow_bounds freq s k hk
  have hall : ∀ x ∈ dagRow freq s k, x = k := by
    intro x hx
    rcases dagRow_mem freq s k x hk hx with hd | ⟨rfl, -⟩
    · by_contra hxk
      have := hb x hx
      exact h (x + 1) (by omega) (by omega) hd
    · rfl
  have hs := dagRow_sorted freq s k hk
  match hrow : dagRow freq s k with
  | [] => exact absurd hrow hne
  | [x] => rw [hrow] at hall; rw [hall x (by simp)]
  | x :: y :: l =>
    rw [hrow] at hs hall
    have := hall x (by simp)
    have := hall y (by simp)
    simp at hs; omega

theorem gLoop_run (freq : Freq) (s : Str) (e : Nat) (he : e ≤ s.length) (hend : ∀ c, s[e]? = some c → isAlnum c = false) (n : Nat) :
    ∀ (oldJ : Int) (buf : Option (List (Nat × Str))) (k : Nat), e - k = n → k ≤ e → oldJ < (k : Int) →
    (∀ i, k ≤ i → i < e → dagRow freq s i = [i] ∧ ∃ c, s[i]? = some c ∧ isAlnum c = true) → (buf = none → k < e) →
    joinG (buf.getD []) ++ slice s k e ∈ (gLoop s oldJ buf k ((getDAG freq s).drop k)).map joinG := by
  induction n with
  | zero =>
    intro oldJ buf k hn hke hold hrow hbuf
    have hk : k = e := by omega
    subst hk
    have hs : slice s k k = [] := by unfold slice; simp
    rw [hs, List.append_nil]
    cases buf with
    | none => exact absurd (hbuf rfl) (by omega)
    | some g =>
      simp only [Option.getD_some]
      apply List.mem_map_of_mem
      by_cases hl : k < s.length
      · rw [getDAG_drop freq s k hl]
        unfold gLoop
        apply List.mem_append_left
        have heng : engAt s k = false := by rw [engAt_iff s k hl]; exact hend _ (by simp [hl])
        unfold gStep
        simp [heng]
      · rw [List.drop_eq_nil_of_le (by simp [getDAG]; omega)]
        simp [gLoop]
  | succ n ih =>
    intro oldJ buf k hn hke hold hrow hbuf
    have hk : k < s.length := by omega
    obtain ⟨h1, c, h2, h3⟩ := hrow k (le_refl _) (by omega)
    have heng : engAt s k = true := by
      rw [engAt_iff s k hk]
      have : s[k]? = some s[k] := by simp [hk]
      rw [this] at h2
      rw [Option.some.inj h2]; exact h3
    rw [getDAG_drop freq s k hk, h1]
    unfold gLoop
    have hp : plainStep s oldJ k [k] = ([(k, slice s k (k + 1))], (k : Int)) := by
      unfold plainStep; rw [if_pos ⟨rfl, hold⟩]; rfl
    have hg : gStep s oldJ buf k [k] = ([], some (buf.getD [] ++ [(k, slice s k (k + 1))])) := by
      unfold gStep; simp [heng, hold, hp]
    rw [hp, hg, List.nil_append]
    have := ih (k : Int) (some (buf.getD [] ++ [(k, slice s k (k + 1))])) (k + 1) (by omega) (by omega) (by omega)
      (fun i hi hie => hrow i (by omega) hie) (by simp)
    have hsl : joinG (buf.getD []) ++ slice s k e =
        joinG ((some (buf.getD [] ++ [(k, slice s k (k + 1))])).getD []) ++ slice s (k + 1) e := by
      simp only [Option.getD_some, joinG, List.map_append, List.flatten_append, List.map_cons, List.map_nil, List.flatten_cons,
        List.flatten_nil, List.append_nil, List.append_assoc]
      rw [slice_append s k (k + 1) e (by omega) (by omega)]
    rw [hsl]
    exact this

theorem gLoop_reach (freq : Freq) (s : Str) (a e : Nat) (hae : a < e) (he : e ≤ s.length) (hno : NoWordMeets freq s a e)
    (hal : ∀ i, a ≤ i → i < e → ∃ c, s[i]? = some c ∧ isAlnum c = true)
    (hend : ∀ c, s[e]? = some c → isAlnum c = false) (hbeg : ∀ i c, i + 1 = a → s[i]? = some c → isAlnum c = false) (n : Nat) :
    ∀ (oldJ : Int) (buf : Option (List (Nat × Str))) (k : Nat), a - k = n → k ≤ a → oldJ < (a : Int) → (k = a → buf = none) →
    slice s a e ∈ (gLoop s oldJ buf k ((getDAG freq s).drop k)).map joinG := by
  induction n with
  | zero =>
    intro oldJ buf k hn hka hold hbuf
    have hk : k = a := by omega
    subst hk
    have := gLoop_run freq s e he hend (e - k) oldJ none k rfl (by omega) hold
      (fun i hi hie => ⟨row_single freq s i (by omega) (fun j h1 h2 => hno i j h1 h2 (by omega) (by omega)), hal i hi hie⟩)
      (fun _ => hae)
    rw [hbuf rfl]
    simpa [joinG] using this
  | succ n ih =>
    intro oldJ buf k hn hka hold hbuf
    have hk : k < s.length := by omega
    rw [getDAG_drop freq s k hk]
    unfold gLoop
    rw [List.map_append]
    apply List.mem_append_right
    apply ih _ _ (k + 1) (by omega) (by omega)
    · rcases plainStep_bounds freq s oldJ k with h | ⟨j, hj, h⟩
      · rw [h]; exact hold
      · rw [h]
        rcases dagRow_mem freq s k j hk hj with hd | ⟨rfl, -⟩
        · by_contra hlt
          have hb := (dagRow_bounds freq s k hk).2 j hj
          exact hno k (j + 1) (by omega) (by omega) (by omega) (by omega) hd
        · omega
    · intro hka'
      have heng : engAt s k = false := by rw [engAt_iff s k hk]; exact hbeg k _ hka' (by simp [hk])
      unfold gStep
      simp [heng]

/-- A run of letters and digits that meets no word of two characters is one token. -/
theorem cutAll_run (freq : Freq) (x u y : Str) (hu : u ≠ []) (hal : ∀ c ∈ u, isAlnum c = true)
    (hx : ∀ c, x.getLast? = some c → isAlnum c = false) (hy : ∀ c, y.head? = some c → isAlnum c = false)
    (hno : NoWordMeets freq (x ++ u ++ y) x.length (x.length + u.length)) : u ∈ (cutAll freq (x ++ u ++ y)).out := by
  rw [cutAll_groups, Gen.ok_out]
  have hlen := List.length_pos_of_ne_nil hu
  have := gLoop_reach freq (x ++ u ++ y) x.length (x.length + u.length) (by omega) (by simp) hno ?_ ?_ ?_ x.length (-1) none 0
    (by simp) (by omega) (by omega) (fun _ => rfl)
  · have hs : slice (x ++ u ++ y) x.length (x.length + u.length) = u := by
      have := slice_of_split x u y (x ++ u ++ y) rfl 0 u.length (by omega) (le_refl _)
      simpa [slice_zero_length] using this
    rwa [hs, List.drop_zero] at this
  · intro i h1 h2
    rw [List.append_assoc, List.getElem?_append_right h1, List.getElem?_append_left (by omega),
      List.getElem?_eq_getElem (by omega)]
    exact ⟨_, rfl, hal _ (List.getElem_mem _)⟩
  · intro c hc
    apply hy
    rw [List.getElem?_append_right (by simp)] at hc
    simpa [List.head?_eq_getElem?] using hc
  · intro i c hi hc
    apply hx
    rw [List.append_assoc, List.getElem?_append_left (by omega)] at hc
    rw [List.getLast?_eq_getElem?, show x.length - 1 = i by omega]
    exact hc

/-! ## Texts -/

theorem cut_full_count_letters (E : Env F) (hm : Bool) (hp : PrefixClosed E.freq) (c : Ch) (w : Str) (hc : isAlnum c = false)
    (hw : w ≠ []) (hd : DictWord E.freq (c :: w)) (hww : ∀ d ∈ c :: w, isWordCh d = true) (s : Str) :
    (cut E true hm s).out.count (c :: w) = occurrences (c :: w) s := by
  refine scan_ind (P := fun s => (cut E true hm s).out.count (c :: w) = occurrences (c :: w) s) isWordCh rfl ?_ ?_ s
  · intro u rest hu hpu hr ih
    rw [cut_full_word E hm u rest hu hpu hr, Gen.andThen_out_of_ok _ _ rfl, List.count_append,
      cutAll_count_letters E.freq hp u c w hc hw hd, ih,
      occurrences_append (c :: w) u rest (fun k hk h => no_straddle_word (c :: w) u rest isWordCh hww hr k hk h)]
  · intro u rest hu hpu hr ih
    rw [cut_full_nonword E hm u rest hu hpu hr, Gen.andThen_out_of_ok _ _ rfl, List.count_append, ih, occurrences_append]
    · rw [occurrences_zero (c :: w) u (by simp) isWordCh hww hpu]
      congr 1
      rw [List.count_eq_zero]
      intro hm'
      simp only [Gen.ok_out] at hm'
      have : c ∈ u := by
        rw [← cutSkip_flatten u]; exact List.mem_flatten.mpr ⟨_, hm', by simp⟩
      have h1 := hpu c this
      rw [hww c (by simp)] at h1; exact Bool.noConfusion h1
    · intro k hk h
      exfalso
      rw [List.drop_append, List.drop_eq_getElem_cons hk] at h
      rw [List.cons_append, List.cons_prefix_cons] at h
      have h1 := hpu u[k] (List.getElem_mem hk)
      rw [← h.1, hww c (by simp)] at h1; exact Bool.noConfusion h1

def shiftG (n : Nat) (g : List (Nat × Str)) : List (Nat × Str) := g.map (fun p => (n + p.1, p.2))

theorem shiftG_join (n : Nat) (g : List (Nat × Str)) : joinG (shiftG n g) = joinG g := by
  unfold joinG shiftG; rw [List.map_map]; rfl

theorem merged_left {a b : Str} {g : List (Nat × Str)} (h : MergedPieces a g) : MergedPieces (a ++ b) g := by
  refine ⟨h.ne, h.ordered, fun hl i h1 h2 => ?_⟩
  obtain ⟨c, hc, ha⟩ := h.letters hl i h1 h2
  exact ⟨c, by rw [List.getElem?_append_left (List.getElem?_eq_some_iff.mp hc).1]; exact hc, ha⟩

theorem merged_right {a b : Str} {g : List (Nat × Str)} (h : MergedPieces b g) : MergedPieces (a ++ b) (shiftG a.length g) := by
  refine ⟨by simpa [shiftG] using h.ne, ?_, ?_⟩
  · unfold shiftG
    rw [List.pairwise_map]
    exact h.ordered.imp (fun hab => by simpa using hab)
  · rintro hl i ⟨p, hp, hpi⟩ ⟨q, hq, hqi⟩
    unfold shiftG at hp hq hl
    rw [List.mem_map] at hp hq
    obtain ⟨p, hp, rfl⟩ := hp
    obtain ⟨q, hq, rfl⟩ := hq
    simp only at hpi hqi
    obtain ⟨c, hc, ha⟩ := h.letters (by simpa using hl) (i - a.length) ⟨p, hp, by omega⟩ ⟨q, hq, by omega⟩
    exact ⟨c, by rw [List.getElem?_append_right (by omega)]; exact hc, ha⟩

theorem cut_full_pieces (E : Env F) (hm : Bool) (s : Str) :
    ∃ gs : List (List (Nat × Str)), cut E true hm s = Gen.ok (gs.map joinG) ∧ Cover s gs.flatten ∧ (∀ g ∈ gs, MergedPieces s g) ∧
      (∀ p ∈ gs.flatten, DictWord E.freq p.2 ∨ p.2.length = 1 ∨ ∀ c ∈ p.2, isWordCh c = false) ∧
      ∀ w, 2 ≤ w.length → (∀ c ∈ w, isWordCh c = true) → PrefixClosed E.freq → DictWord E.freq w → ∀ k, w <+: s.drop k →
        (k, w) ∈ gs.flatten := by
  refine scan_ind (P := fun s => ∃ gs : List (List (Nat × Str)), cut E true hm s = Gen.ok (gs.map joinG) ∧ Cover s gs.flatten ∧
      (∀ g ∈ gs, MergedPieces s g) ∧
      (∀ p ∈ gs.flatten, DictWord E.freq p.2 ∨ p.2.length = 1 ∨ ∀ c ∈ p.2, isWordCh c = false) ∧
      ∀ w, 2 ≤ w.length → (∀ c ∈ w, isWordCh c = true) → PrefixClosed E.freq → DictWord E.freq w → ∀ k, w <+: s.drop k →
        (k, w) ∈ gs.flatten) isWordCh ?_ ?_ ?_ s
  · refine ⟨[], rfl, by constructor <;> simp, by simp, by simp, ?_⟩
    intro w hw _ _ _ k hk
    rw [List.drop_nil, List.prefix_nil] at hk
    subst hk; simp at hw
  · intro u rest hu hpu hr ih
    obtain ⟨gs, h1, h2, h3, h4, h5⟩ := cutAll_pieces E.freq u
    obtain ⟨gs', k1, k2, k3, k4, k5⟩ := ih
    have hflat : (gs ++ gs'.map (shiftG u.length)).flatten = gs.flatten ++ gs'.flatten.map (fun p => (u.length + p.1, p.2)) := by
      rw [List.flatten_append]
      congr 1
      rw [List.map_flatten]
      rfl
    refine ⟨gs ++ gs'.map (shiftG u.length), ?_, ?_, ?_, ?_, ?_⟩
    · rw [cut_full_word E hm u rest hu hpu hr, h1, k1]
      simp [Function.comp_def, shiftG_join]
    · rw [hflat]; exact h2.append k2
    · intro g hg
      rcases List.mem_append.mp hg with hg | hg
      · exact merged_left (h3 g hg)
      · rw [List.mem_map] at hg
        obtain ⟨g', hg', rfl⟩ := hg
        exact merged_right (k3 g' hg')
    · rw [hflat]
      intro p hp
      rcases List.mem_append.mp hp with hp | hp
      · rcases h4 p hp with h | h
        · exact Or.inl h
        · exact Or.inr (Or.inl h)
      · rw [List.mem_map] at hp
        obtain ⟨q, hq, rfl⟩ := hp
        exact k4 q hq
    · intro w hw hww hp hd k hk
      rw [hflat, List.mem_append]
      by_cases hku : k < u.length
      · left
        exact h5 w hw hp hd k (no_straddle_word w u rest isWordCh hww hr k hku hk)
      · right
        rw [List.mem_map]
        refine ⟨(k - u.length, w), k5 w hw hww hp hd (k - u.length) ?_, by simp; omega⟩
        rwa [List.drop_append, List.drop_eq_nil_of_le (by omega), List.nil_append] at hk
  · intro u rest hu hpu hr ih
    obtain ⟨l, h1, h2⟩ := cover_pieces (cutSkip true u)
    rw [cutSkip_flatten] at h2
    obtain ⟨gs', k1, k2, k3, k4, k5⟩ := ih
    have hflat1 : (l.map (fun p => [p])).flatten = l := by
      clear h1 h2
      induction l with
      | nil => rfl
      | cons p l ih => simp [ih]
    have hflat : (l.map (fun p => [p]) ++ gs'.map (shiftG u.length)).flatten = l ++ gs'.flatten.map (fun p => (u.length + p.1, p.2)) := by
      rw [List.flatten_append, hflat1]
      congr 1
      rw [List.map_flatten]
      rfl
    refine ⟨l.map (fun p => [p]) ++ gs'.map (shiftG u.length), ?_, ?_, ?_, ?_, ?_⟩
    · rw [cut_full_nonword E hm u rest hu hpu hr, k1, ← h1, List.map_append, singles_join]
      simp [Function.comp_def, shiftG_join]
    · rw [hflat]; exact h2.append k2
    · intro g hg
      rcases List.mem_append.mp hg with hg | hg
      · rw [List.mem_map] at hg
        obtain ⟨p, -, rfl⟩ := hg
        exact single_merged _ p
      · rw [List.mem_map] at hg
        obtain ⟨g', hg', rfl⟩ := hg
        exact merged_right (k3 g' hg')
    · rw [hflat]
      intro p hp
      rcases List.mem_append.mp hp with hp | hp
      · right; right
        intro c hc
        apply hpu
        rw [← cutSkip_flatten u]
        exact List.mem_flatten.mpr ⟨p.2, by rw [← h1]; exact List.mem_map_of_mem hp, hc⟩
      · rw [List.mem_map] at hp
        obtain ⟨q, hq, rfl⟩ := hp
        exact k4 q hq
    · intro w hw hww hp hd k hk
      rw [hflat, List.mem_append]
      right
      rw [List.mem_map]
      by_cases hku : k < u.length
      · exfalso
        cases w with
        | nil => simp at hw
        | cons c w =>
          rw [List.drop_append, List.drop_eq_getElem_cons hku, List.cons_append, List.cons_prefix_cons] at hk
          have h1 := hpu u[k] (List.getElem_mem hku)
          rw [← hk.1, hww c (by simp)] at h1; exact Bool.noConfusion h1
      · refine ⟨(k - u.length, w), k5 w hw hww hp hd (k - u.length) ?_, by simp; omega⟩
        rwa [List.drop_append, List.drop_eq_nil_of_le (by omega), List.nil_append] at hk

theorem slice_shift (a b : Str) (i j : Nat) : slice (a ++ b) (a.length + i) (a.length + j) = slice b i j := by
  rw [slice_eq, slice_eq, List.drop_append, List.drop_eq_nil_of_le (by omega), List.nil_append,
    show a.length + i - a.length = i by omega, show a.length + j - (a.length + i) = j - i by omega]

theorem slice_left (a b : Str) (i j : Nat) (hj : j ≤ a.length) : slice (a ++ b) i j = slice a i j := by
  unfold slice
  rw [List.take_append_of_le_length hj]

theorem isAlnum_word (c : Ch) (h : isAlnum c = true) : isWordCh c = true := by
  unfold isWordCh; rw [h]; simp

theorem cut_full_run (E : Env F) (hm : Bool) (u : Str) (hu : u ≠ []) (hal : ∀ c ∈ u, isAlnum c = true) (s : Str) :
    ∀ x y, s = x ++ u ++ y → (∀ c, x.getLast? = some c → isAlnum c = false) → (∀ c, y.head? = some c → isAlnum c = false) →
    NoWordMeets E.freq (x ++ u ++ y) x.length (x.length + u.length) → u ∈ (cut E true hm s).out := by
  have later : ∀ (b x u y rest : Str), b ++ rest = x ++ u ++ y → b.length ≤ x.length →
      (∀ c, x.getLast? = some c → isAlnum c = false) → NoWordMeets E.freq (x ++ u ++ y) x.length (x.length + u.length) →
      ∃ x', x = b ++ x' ∧ rest = x' ++ u ++ y ∧ (∀ c, x'.getLast? = some c → isAlnum c = false) ∧
        NoWordMeets E.freq (x' ++ u ++ y) x'.length (x'.length + u.length) := by
    intro b x u y rest e hl hx hno
    have hpre : b <+: x := by
      apply List.prefix_of_prefix_length_le (l₃ := b ++ rest) (List.prefix_append _ _) _ hl
      rw [e, List.append_assoc]; exact List.prefix_append _ _
    obtain ⟨x', rfl⟩ := hpre
    rw [List.append_assoc, List.append_assoc, List.append_cancel_left_eq] at e
    refine ⟨x', rfl, by rw [e]; simp, ?_, ?_⟩
    · intro c hc
      apply hx
      rw [List.getLast?_append, hc]; rfl
    · intro i j h1 h2 h3 h4 hd
      apply hno (b.length + i) (b.length + j) (by omega) (by simp at h2 ⊢; omega) (by simp; omega) (by simp; omega)
      rw [List.append_assoc, List.append_assoc, slice_shift, ← List.append_assoc]
      exact hd
  refine scan_ind (P := fun s => ∀ x y, s = x ++ u ++ y → (∀ c, x.getLast? = some c → isAlnum c = false) →
    (∀ c, y.head? = some c → isAlnum c = false) →
    NoWordMeets E.freq (x ++ u ++ y) x.length (x.length + u.length) → u ∈ (cut E true hm s).out) isWordCh ?_ ?_ ?_ s
  · intro x y e
    exfalso
    have := congrArg List.length e
    have := List.length_pos_of_ne_nil hu
    simp at *; omega
  · intro b rest hb hpb hr ih x y e hx hy hno
    rw [cut_full_word E hm b rest hb hpb hr, Gen.andThen_out_of_ok _ _ rfl, List.mem_append]
    by_cases hl : b.length ≤ x.length
    · right
      obtain ⟨x', rfl, h2, h3, h4⟩ := later b x u y rest e hl hx hno
      exact ih x' y h2 h3 hy h4
    · left
      have h1 : u <+: (b ++ rest).drop x.length := by rw [e]; simp
      have h2 := no_straddle_word u b rest isWordCh (fun c hc => isAlnum_word c (hal c hc)) hr x.length (by omega) h1
      have h3 : x <+: b := by
        apply List.prefix_of_prefix_length_le (l₃ := b ++ rest) _ (List.prefix_append _ _) (by omega)
        rw [e, List.append_assoc]; exact List.prefix_append _ _
      obtain ⟨t, rfl⟩ := h3
      rw [List.drop_append, List.drop_eq_nil_of_le (le_refl _), List.nil_append, Nat.sub_self, List.drop_zero] at h2
      obtain ⟨y', rfl⟩ := h2
      rw [List.append_assoc, List.append_assoc, List.append_assoc, List.append_cancel_left_eq, List.append_cancel_left_eq] at e
      subst e
      rw [← List.append_assoc]
      apply cutAll_run E.freq x u y' hu hal hx
      · intro c hc
        apply hy
        cases y' with
        | nil => simp at hc
        | cons d y' => simpa using hc
      · intro i j h1 h2 h3 h4 hd
        apply hno i j h1 (by simp at h2 ⊢; omega) h3 h4
        rw [show x ++ u ++ (y' ++ rest) = (x ++ u ++ y') ++ rest by simp, slice_left _ _ _ _ h2]
        exact hd
  · intro b rest hb hpb hr ih x y e hx hy hno
    rw [cut_full_nonword E hm b rest hb hpb hr, Gen.andThen_out_of_ok _ _ rfl, List.mem_append]
    right
    have hl : b.length ≤ x.length := by
      by_contra hl
      cases u with
      | nil => exact hu rfl
      | cons c u =>
        have h1 : (b ++ rest)[x.length]? = some c := by rw [e]; simp
        rw [List.getElem?_append_left (by omega)] at h1
        have h2 := hpb c (List.mem_of_getElem? h1)
        rw [isAlnum_word c (hal c (by simp))] at h2
        exact Bool.noConfusion h2
    obtain ⟨x', rfl, h2, h3, h4⟩ := later b x u y rest e hl hx hno
    exact ih x' y h2 h3 hy h4

end Jieba
