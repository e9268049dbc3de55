import Verif.Proofs.Search
import Mathlib.Data.List.Nodup
/-!
# Lemmas about full mode (`__cut_all`)
-/

set_option linter.unusedSectionVars false

namespace Jieba
open Jieba.Spec

variable {F : Type _} [LinearOrder F]

/-- Rows are strictly increasing. -/
theorem dagRow_sorted (freq : Freq) (s : Str) (k : Nat) (hk : k < s.length) : (dagRow freq s k).Pairwise (· < ·) := by
  unfold dagRow
  obtain ⟨m, h1, -⟩ := dagLoop_spec freq s k (s.length + 1) k [] (by omega)
  simp only
  split
  · simp
  · rw [h1, List.nil_append]
    exact (List.pairwise_lt_range' (s := k) (n := m)).filter _

/-- A row with a word of at least two characters is a row of words. -/
theorem mem_dagRow_iff (freq : Freq) (hp : PrefixClosed freq) (s : Str) (k x : Nat) (hk : k < x) (hx : x < s.length) :
    x ∈ dagRow freq s k ↔ DictWord freq (slice s k (x + 1)) := by
  constructor
  · intro h
    rcases dagRow_mem freq s k x (by omega) h with h | ⟨h, _⟩
    · exact h
    · omega
  · intro h
    have hm : x ∈ (List.range' k (s.length - k)).filter (fun j => freq.truthy (slice s k (j + 1))) := by
      rw [filter_range'_mem]
      exact ⟨by omega, by omega, (truthy_iff _ _).mpr h⟩
    rw [dagRow_exact freq hp s k (by omega), if_neg (List.ne_nil_of_mem hm)]; exact hm

/-- One iteration of `__cut_all` on text without ASCII letters/digits, with start offsets. -/
def plainStep (s : Str) (oldJ : Int) (k : Nat) (L : List Nat) : List (Nat × Str) × Int :=
  if L.length = 1 ∧ oldJ < (k : Int) then (L.map (fun j => (k, slice s k (j + 1))), (L.getLast?.map (fun (j : Nat) => (j : Int))).getD oldJ)
  else ((L.filter (fun j => k < j)).map (fun j => (k, slice s k (j + 1))),
        ((L.filter (fun j => k < j)).getLast?.map (fun (j : Nat) => (j : Int))).getD oldJ)

def plainLoop (s : Str) : Int → Nat → List (List Nat) → List (Nat × Str)
  | _, _, [] => []
  | oldJ, k, L :: dag => (plainStep s oldJ k L).1 ++ plainLoop s (plainStep s oldJ k L).2 (k + 1) dag

theorem reEng_slice_false (s : Str) (hs : ∀ c ∈ s, isAlnum c = false) (k j : Nat) : reEng.isMatch (slice s k j) = false := by
  unfold reEng
  rw [isMatch_cls]
  cases h : slice s k j with
  | nil => rfl
  | cons c l =>
    have : c ∈ slice s k j := by rw [h]; simp
    exact hs c (List.mem_of_mem_take (List.mem_of_mem_drop this))

theorem foldl_oldJ (l : List Nat) (st : AllState) :
    l.foldl (fun st (j : Nat) => { st with oldJ := (j : Int) }) st =
      { st with oldJ := (l.getLast?.map (fun (j : Nat) => (j : Int))).getD st.oldJ } := by
  induction l generalizing st with
  | nil => rfl
  | cons a l ih =>
    rw [List.foldl_cons, ih]
    cases l with
    | nil => rfl
    | cons b l =>
      rw [List.getLast?_cons_cons, List.getLast?_eq_some_getLast (by simp)]; rfl

theorem cutAllStep_plain (s : Str) (hs : ∀ c ∈ s, isAlnum c = false) (oldJ : Int) (buf : Str) (k : Nat) (L : List Nat) :
    cutAllStep s ⟨oldJ, false, buf⟩ k L =
      ((plainStep s oldJ k L).1.map Prod.snd, ⟨(plainStep s oldJ k L).2, false, buf⟩) := by
  unfold cutAllStep plainStep
  simp only [Bool.false_and, Bool.false_eq_true, if_false, List.nil_append]
  match L with
  | [] => simp
  | [j] =>
    by_cases h : oldJ < (k : Int)
    · simp [h, reEng_slice_false s hs]
    · by_cases hj : k < j
      · simp [h, hj]
      · simp [h, hj]
  | a :: b :: L => simp [foldl_oldJ]

theorem cutAllLoop_plain (s : Str) (hs : ∀ c ∈ s, isAlnum c = false) (oldJ : Int) (buf : Str) (k : Nat)
    (dag : List (List Nat)) :
    cutAllLoop s ⟨oldJ, false, buf⟩ k dag = (plainLoop s oldJ k dag).map Prod.snd := by
  induction dag generalizing oldJ k with
  | nil => simp [cutAllLoop, plainLoop]
  | cons L dag ih =>
    unfold cutAllLoop plainLoop
    rw [cutAllStep_plain s hs]
    simp [ih]

/-! ## Cover -/

theorem getDAG_drop (freq : Freq) (s : Str) (k : Nat) (hk : k < s.length) :
    (getDAG freq s).drop k = dagRow freq s k :: (getDAG freq s).drop (k + 1) := by
  have hl : (getDAG freq s).length = s.length := by simp [getDAG]
  rw [List.drop_eq_getElem_cons (by omega)]
  congr 1
  have := getDAG_get freq s k hk
  rw [List.getElem?_eq_getElem (by omega)] at this
  simpa using this

theorem plainStep_mem (freq : Freq) (s : Str) (oldJ : Int) (k : Nat) (p : Nat × Str)
    (h : p ∈ (plainStep s oldJ k (dagRow freq s k)).1) :
    ∃ j ∈ dagRow freq s k, p = (k, slice s k (j + 1)) := by
  unfold plainStep at h
  split at h
  · simp at h; obtain ⟨j, hj, rfl⟩ := h; exact ⟨j, hj, rfl⟩
  · simp at h; obtain ⟨j, hj, rfl⟩ := h; exact ⟨j, hj.1, rfl⟩

theorem plainLoop_mem (freq : Freq) (s : Str) (n : Nat) : ∀ (oldJ : Int) (k : Nat), s.length - k = n →
    ∀ p ∈ plainLoop s oldJ k ((getDAG freq s).drop k),
      ∃ k' j, k ≤ k' ∧ k' < s.length ∧ j ∈ dagRow freq s k' ∧ p = (k', slice s k' (j + 1)) := by
  induction n with
  | zero =>
    intro oldJ k hk p hp
    rw [List.drop_eq_nil_of_le (by simp [getDAG]; omega)] at hp
    simp [plainLoop] at hp
  | succ n ih =>
    intro oldJ k hk p hp
    rw [getDAG_drop freq s k (by omega)] at hp
    unfold plainLoop at hp
    rcases List.mem_append.mp hp with hp | hp
    · obtain ⟨j, hj, rfl⟩ := plainStep_mem freq s oldJ k p hp
      exact ⟨k, j, le_refl _, by omega, hj, rfl⟩
    · obtain ⟨k', j, h1, h2, h3, h4⟩ := ih _ (k + 1) (by omega) p hp
      exact ⟨k', j, by omega, h2, h3, h4⟩

theorem plainLoop_covers (freq : Freq) (s : Str) (n : Nat) : ∀ (oldJ : Int) (k : Nat), s.length - k = n →
    ∀ i, k ≤ i → i < s.length → oldJ < (i : Int) →
      ∃ p ∈ plainLoop s oldJ k ((getDAG freq s).drop k), p.1 ≤ i ∧ i < p.1 + p.2.length := by
  induction n with
  | zero => intro oldJ k hk i h1 h2; omega
  | succ n ih =>
    intro oldJ k hk i h1 h2 h3
    have hkl : k < s.length := by omega
    rw [getDAG_drop freq s k hkl]
    unfold plainLoop
    obtain ⟨hne, hb⟩ := dagRow_bounds freq s k hkl
    have hsl : ∀ j ∈ dagRow freq s k, (slice s k (j + 1)).length = j + 1 - k := by
      intro j hj; rw [slice_length _ _ _ (by have := hb j hj; omega)]
    -- either the step yields a token reaching the new `oldJ`, or `oldJ` is unchanged and `k` need not be covered
    have key : (∃ j ∈ dagRow freq s k, (plainStep s oldJ k (dagRow freq s k)).2 = (j : Int) ∧
          (k, slice s k (j + 1)) ∈ (plainStep s oldJ k (dagRow freq s k)).1) ∨
        ((plainStep s oldJ k (dagRow freq s k)).2 = oldJ ∧ ¬ oldJ < (k : Int)) := by
      unfold plainStep
      by_cases hc : (dagRow freq s k).length = 1 ∧ oldJ < (k : Int)
      · rw [if_pos hc]
        obtain ⟨j, hj⟩ := List.length_eq_one_iff.mp hc.1
        left; exact ⟨j, by rw [hj]; simp, by rw [hj]; simp, by rw [hj]; simp⟩
      · rw [if_neg hc]
        by_cases hf : (dagRow freq s k).filter (fun j => k < j) = []
        · right
          simp only [hf, List.getLast?_nil, Option.map_none, Option.getD_none, true_and]
          intro hlt
          -- all elements equal k, sorted: a one-element row
          have hall : ∀ x ∈ dagRow freq s k, x = k := by
            intro x hx
            have h1 := (hb x hx).1
            have h2 := (List.filter_eq_nil_iff.mp hf) x hx
            simp at h2; omega
          apply hc
          refine ⟨?_, hlt⟩
          have hs := dagRow_sorted freq s k hkl
          match hrow : dagRow freq s k with
          | [] => exact absurd hrow hne
          | [x] => rfl
          | x :: y :: l =>
            rw [hrow] at hs hall
            have := hall x (by simp)
            have := hall y (by simp)
            simp at hs; omega
        · left
          obtain ⟨j, hj⟩ : ∃ j, ((dagRow freq s k).filter (fun j => k < j)).getLast? = some j :=
            ⟨_, List.getLast?_eq_some_getLast hf⟩
          have hmem := List.mem_of_getLast? hj
          refine ⟨j, (List.mem_filter.mp hmem).1, by rw [hj]; rfl, ?_⟩
          exact List.mem_map_of_mem (f := fun j => (k, slice s k (j + 1))) hmem
    rcases key with ⟨j, hj, he, hm⟩ | ⟨he, hlt⟩
    · by_cases hij : (j : Int) < (i : Int)
      · have hjk := (hb j hj).1
        obtain ⟨p, hp, hc⟩ := ih (plainStep s oldJ k (dagRow freq s k)).2 (k + 1) (by omega) i (by omega) h2 (by rw [he]; exact hij)
        exact ⟨p, List.mem_append_right _ hp, hc⟩
      · refine ⟨_, List.mem_append_left _ hm, by simpa using h1, ?_⟩
        simp only; rw [hsl j hj]; have := hb j hj; omega
    · have hki : k ≠ i := by rintro rfl; exact hlt h3
      obtain ⟨p, hp, hc⟩ := ih (plainStep s oldJ k (dagRow freq s k)).2 (k + 1) (by omega) i (by omega) h2 (by rw [he]; exact h3)
      exact ⟨p, List.mem_append_right _ hp, hc⟩

theorem cutAll_cover (freq : Freq) (s : Str) (hs : ∀ c ∈ s, isAlnum c = false) :
    ∃ l, cutAll freq s = Gen.ok (l.map Prod.snd) ∧ Cover s l := by
  refine ⟨plainLoop s (-1) 0 (getDAG freq s), ?_, ?_, ?_⟩
  · unfold cutAll; rw [cutAllLoop_plain s hs]
  · intro p hp
    obtain ⟨k', j, -, h2, h3, rfl⟩ := plainLoop_mem freq s s.length (-1) 0 (by simp) p (by simpa using hp)
    have hb := (dagRow_bounds freq s k' h2).2 j h3
    simp only
    rw [slice_length _ _ _ (by omega)]
    refine ⟨by omega, ?_⟩
    congr 1; omega
  · intro i hi
    simpa using plainLoop_covers freq s s.length (-1) 0 (by simp) i (by omega) hi (by omega)

/-- Tokens of a block without ASCII letters/digits are dictionary words or single characters. -/
theorem cutAll_sound (freq : Freq) (s : Str) (hs : ∀ c ∈ s, isAlnum c = false) :
    ∀ w ∈ (cutAll freq s).out, DictWord freq w ∨ w.length = 1 := by
  intro w hw
  unfold cutAll at hw
  rw [cutAllLoop_plain s hs] at hw
  simp only [Gen.ok_out, List.mem_map] at hw
  obtain ⟨p, hp, rfl⟩ := hw
  obtain ⟨k', j, -, h2, h3, rfl⟩ := plainLoop_mem freq s s.length (-1) 0 (by simp) p (by simpa using hp)
  have hb := (dagRow_bounds freq s k' h2).2 j h3
  rcases dagRow_mem freq s k' j h2 h3 with h | ⟨rfl, -⟩
  · exact Or.inl h
  · right; rw [slice_length _ _ _ (by omega)]; omega

/-! ## Counting occurrences -/

theorem occurrences_eq_countP (w s : Str) : occurrences w s = (List.range s.length).countP (fun k => w.isPrefixOf (s.drop k)) := by
  unfold occurrences; rw [List.countP_eq_length_filter]

theorem plainStep_count (freq : Freq) (hp : PrefixClosed freq) (s : Str) (oldJ : Int) (k : Nat) (hk : k < s.length)
    (w : Str) (hw : 2 ≤ w.length) (hd : DictWord freq w) :
    ((plainStep s oldJ k (dagRow freq s k)).1.map Prod.snd).count w = if w.isPrefixOf (s.drop k) then 1 else 0 := by
  have hb := (dagRow_bounds freq s k hk).2
  have hred : ((plainStep s oldJ k (dagRow freq s k)).1.map Prod.snd).count w =
      (((dagRow freq s k).filter (fun j => k < j)).map (fun j => slice s k (j + 1))).count w := by
    unfold plainStep
    split
    · rename_i h
      obtain ⟨j, hj⟩ := List.length_eq_one_iff.mp h.1
      rw [hj]
      by_cases hjk : k < j
      · simp [hjk]
      · have hjb := hb j (by rw [hj]; simp)
        simp only [List.map_cons, List.map_nil, List.filter_cons, hjk, decide_false, Bool.false_eq_true, if_false,
          List.filter_nil, List.count_nil]
        rw [List.count_eq_zero]
        intro hm
        simp at hm
        have := congrArg List.length hm
        rw [slice_length _ _ _ (by omega)] at this
        omega
    · rw [List.map_map]; rfl
  rw [hred]
  have hmem : w ∈ ((dagRow freq s k).filter (fun j => k < j)).map (fun j => slice s k (j + 1)) ↔
      w.isPrefixOf (s.drop k) = true := by
    rw [List.isPrefixOf_iff_prefix, prefix_drop_iff s k w (by omega), List.mem_map]
    constructor
    · rintro ⟨j, hj, rfl⟩
      have hj' := List.mem_filter.mp hj
      have hjb := hb j hj'.1
      rw [slice_length _ _ _ (by omega)]
      refine ⟨by congr 1; omega, by omega⟩
    · rintro ⟨h1, h2⟩
      refine ⟨k + w.length - 1, ?_, ?_⟩
      · rw [List.mem_filter]
        refine ⟨?_, by simp; omega⟩
        rw [mem_dagRow_iff freq hp s k _ (by omega) (by omega), show k + w.length - 1 + 1 = k + w.length by omega, ← h1]
        exact hd
      · rw [show k + w.length - 1 + 1 = k + w.length by omega]; exact h1.symm
  have hnd : (((dagRow freq s k).filter (fun j => k < j)).map (fun j => slice s k (j + 1))).Nodup := by
    apply List.Nodup.map_on
    · intro x hx y hy e
      have hx' := hb x (List.mem_filter.mp hx).1
      have hy' := hb y (List.mem_filter.mp hy).1
      have := congrArg List.length e
      rw [slice_length _ _ _ (by omega), slice_length _ _ _ (by omega)] at this
      omega
    · exact ((dagRow_sorted freq s k hk).imp (fun h => Nat.ne_of_lt h)).filter _
  by_cases hpre : w.isPrefixOf (s.drop k) = true
  · rw [if_pos hpre]; exact List.count_eq_one_of_mem hnd (hmem.mpr hpre)
  · rw [if_neg hpre]; exact List.count_eq_zero.mpr (fun h => hpre (hmem.mp h))

theorem plainLoop_count (freq : Freq) (hp : PrefixClosed freq) (s : Str) (w : Str) (hw : 2 ≤ w.length)
    (hd : DictWord freq w) (n : Nat) : ∀ (oldJ : Int) (k : Nat), s.length - k = n →
    ((plainLoop s oldJ k ((getDAG freq s).drop k)).map Prod.snd).count w =
      (List.range' k n).countP (fun k => w.isPrefixOf (s.drop k)) := by
  induction n with
  | zero =>
    intro oldJ k hk
    rw [List.drop_eq_nil_of_le (by simp [getDAG]; omega)]
    simp [plainLoop]
  | succ n ih =>
    intro oldJ k hk
    rw [getDAG_drop freq s k (by omega)]
    unfold plainLoop
    rw [List.map_append, List.count_append, plainStep_count freq hp s oldJ k (by omega) w hw hd,
      ih _ (k + 1) (by omega), List.range'_succ, List.countP_cons]
    omega

theorem cutAll_count (freq : Freq) (hp : PrefixClosed freq) (s : Str) (hs : ∀ c ∈ s, isAlnum c = false) (w : Str)
    (hw : 2 ≤ w.length) (hd : DictWord freq w) : (cutAll freq s).out.count w = occurrences w s := by
  unfold cutAll
  rw [cutAllLoop_plain s hs, occurrences_eq_countP, List.range_eq_range']
  simpa using plainLoop_count freq hp s w hw hd s.length (-1) 0 (by simp)

/-! ## From blocks to texts -/

theorem occurrences_append (w u rest : Str) (h : ∀ k < u.length, w <+: (u ++ rest).drop k → w <+: u.drop k) :
    occurrences w (u ++ rest) = occurrences w u + occurrences w rest := by
  rw [occurrences_eq_countP, occurrences_eq_countP, occurrences_eq_countP, List.length_append, List.range_add,
    List.countP_append, List.countP_map]
  congr 1
  · apply List.countP_congr
    intro k hk
    rw [List.mem_range] at hk
    rw [List.isPrefixOf_iff_prefix, List.isPrefixOf_iff_prefix]
    constructor
    · exact h k hk
    · intro hpre
      rw [List.drop_append]
      exact hpre.trans (List.prefix_append _ _)
  · apply List.countP_congr
    intro k hk
    simp

theorem occurrences_zero (w u : Str) (hw : w ≠ []) (p : Ch → Bool) (hwp : ∀ c ∈ w, p c = true) (hu : ∀ c ∈ u, p c = false) :
    occurrences w u = 0 := by
  rw [occurrences_eq_countP, List.countP_eq_zero]
  intro k _ h
  rw [List.isPrefixOf_iff_prefix] at h
  cases w with
  | nil => exact hw rfl
  | cons c w =>
    have : c ∈ u := List.mem_of_mem_drop (h.subset (by simp))
    have h1 := hu c this
    rw [hwp c (by simp)] at h1; exact Bool.noConfusion h1

theorem no_straddle_word (w u rest : Str) (p : Ch → Bool) (hwp : ∀ c ∈ w, p c = true)
    (hr : ∀ d, rest.head? = some d → p d = false) (k : Nat) (hk : k < u.length) (h : w <+: (u ++ rest).drop k) :
    w <+: u.drop k := by
  rw [List.drop_append, show k - u.length = 0 by omega, List.drop_zero] at h
  by_cases hl : w.length ≤ (u.drop k).length
  · exact List.prefix_of_prefix_length_le h (List.prefix_append _ _) hl
  · exfalso
    cases rest with
    | nil => have := h.length_le; simp at this hl; omega
    | cons d rest =>
      have hd := hr d rfl
      have : u.drop k ++ [d] <+: w := by
        apply List.prefix_of_prefix_length_le (l₃ := u.drop k ++ d :: rest) _ h (by simp at hl ⊢; omega)
        exact ⟨rest, by simp⟩
      have hm : d ∈ w := this.subset (by simp)
      rw [hwp d hm] at hd; exact Bool.noConfusion hd

theorem scan_ind {P : Str → Prop} (p : Ch → Bool) (h0 : P [])
    (hW : ∀ u rest, u ≠ [] → (∀ c ∈ u, p c = true) → (∀ d, rest.head? = some d → p d = false) → P rest → P (u ++ rest))
    (hN : ∀ u rest, u ≠ [] → (∀ c ∈ u, p c = false) → (∀ d, rest.head? = some d → p d = true) → P rest → P (u ++ rest))
    (s : Str) : P s := by
  generalize hn : s.length = n
  induction n using Nat.strong_induction_on generalizing s with
  | _ n ih =>
    cases s with
    | nil => exact h0
    | cons c a =>
      obtain ⟨u, rest, hsplit, hu, hr⟩ := split_at_class p (p c) (c :: a)
      have hu0 : u ≠ [] := by
        rintro rfl
        simp at hsplit
        have := hr c (by rw [← hsplit]; rfl)
        cases h : p c <;> rw [h] at this <;> exact Bool.noConfusion this
      have hrest : P rest := ih rest.length (by
        have := congrArg List.length hsplit
        have : 0 < u.length := List.length_pos_of_ne_nil hu0
        simp at *; omega) rest rfl
      rw [hsplit]
      cases h : p c with
      | true => rw [h] at hu hr; exact hW u rest hu0 hu (by simpa using hr) hrest
      | false => rw [h] at hu hr; exact hN u rest hu0 hu (by simpa using hr) hrest

theorem cutSkip_flatten (s : Str) : (cutSkip true s).flatten = s := by
  rw [cutSkip_true]; exact RE.split_flatten _ rfl s

theorem cut_full_word (E : Env F) (hm : Bool) (u rest : Str) (hu : u ≠ []) (hp : ∀ c ∈ u, isWordCh c = true)
    (hr : ∀ d, rest.head? = some d → isWordCh d = false) :
    cut E true hm (u ++ rest) = Gen.andThen (cutAll E.freq u) (cut E true hm rest) := by
  rw [cut_eq_scan, scan_word _ _ _ u rest hu hp hr, cut_eq_scan]; rfl

theorem cut_full_nonword (E : Env F) (hm : Bool) (u rest : Str) (hu : u ≠ []) (hp : ∀ c ∈ u, isWordCh c = false)
    (hr : ∀ d, rest.head? = some d → isWordCh d = true) :
    cut E true hm (u ++ rest) = Gen.andThen (Gen.ok (cutSkip true u)) (cut E true hm rest) := by
  rw [cut_eq_scan, scan_nonword _ _ _ u rest hu hp hr, cut_eq_scan]

theorem cut_full_ok (E : Env F) (hm : Bool) (s : Str) : (cut E true hm s).err = none := by
  refine scan_ind (P := fun s => (cut E true hm s).err = none) isWordCh rfl ?_ ?_ s
  · intro u rest hu hp hr ih
    rw [cut_full_word E hm u rest hu hp hr, Gen.andThen_err_none]
    exact ⟨rfl, ih⟩
  · intro u rest hu hp hr ih
    rw [cut_full_nonword E hm u rest hu hp hr, Gen.andThen_err_none]
    exact ⟨rfl, ih⟩

theorem cut_full_count (E : Env F) (hm : Bool) (hp : PrefixClosed E.freq) (w : Str) (hw : 2 ≤ w.length)
    (hd : DictWord E.freq w) (hww : ∀ c ∈ w, isWordCh c = true) (s : Str) :
    (∀ c ∈ s, isAlnum c = false) → (cut E true hm s).out.count w = occurrences w s := by
  refine scan_ind (P := fun s => (∀ c ∈ s, isAlnum c = false) → (cut E true hm s).out.count w = occurrences w s)
    isWordCh (fun _ => rfl) ?_ ?_ s
  · intro u rest hu hpu hr ih hs
    rw [cut_full_word E hm u rest hu hpu hr, Gen.andThen_out_of_ok _ _ rfl, List.count_append,
      cutAll_count E.freq hp u (fun c hc => hs c (by simp [hc])) w hw hd, ih (fun c hc => hs c (by simp [hc])),
      occurrences_append w u rest (fun k hk h => no_straddle_word w u rest isWordCh hww hr k hk h)]
  · intro u rest hu hpu hr ih hs
    have hw0 : w ≠ [] := by rintro rfl; simp at hw
    rw [cut_full_nonword E hm u rest hu hpu hr, Gen.andThen_out_of_ok _ _ rfl, List.count_append,
      ih (fun c hc => hs c (by simp [hc])), occurrences_append]
    · rw [occurrences_zero w u hw0 isWordCh hww hpu]
      congr 1
      rw [List.count_eq_zero]
      intro hm'
      simp only [Gen.ok_out] at hm'
      cases w with
      | nil => exact hw0 rfl
      | cons c w =>
        have : c ∈ u := by
          rw [← cutSkip_flatten u]; exact List.mem_flatten.mpr ⟨_, hm', by simp⟩
        have h1 := hpu c this
        rw [hww c (by simp)] at h1; exact Bool.noConfusion h1
    · intro k hk h
      exfalso
      cases w with
      | nil => exact hw0 rfl
      | cons c w =>
        rw [List.drop_append, List.drop_eq_getElem_cons hk] at h
        rw [List.cons_append, List.cons_prefix_cons] at h
        have h1 := hpu u[k] (List.getElem_mem hk)
        rw [← h.1, hww c (by simp)] at h1; exact Bool.noConfusion h1

theorem Spec.Cover.append {a b : Str} {l m : List (Nat × Str)} (ha : Cover a l) (hb : Cover b m) :
    Cover (a ++ b) (l ++ m.map (fun p => (a.length + p.1, p.2))) := by
  constructor
  · intro p hp
    rcases List.mem_append.mp hp with hp | hp
    · obtain ⟨h1, h2⟩ := ha.occurs p hp
      refine ⟨by simp; omega, ?_⟩
      have := slice_of_split [] a b (a ++ b) (by simp) p.1 (p.1 + p.2.length) (by omega) h1
      simpa [h2] using this
    · rw [List.mem_map] at hp
      obtain ⟨q, hq, rfl⟩ := hp
      obtain ⟨h1, h2⟩ := hb.occurs q hq
      refine ⟨by simp; omega, ?_⟩
      have := slice_of_split a b [] (a ++ b) (by simp) q.1 (q.1 + q.2.length) (by omega) h1
      simpa [h2, Nat.add_assoc] using this
  · intro i hi
    by_cases h : i < a.length
    · obtain ⟨p, hp, hc⟩ := ha.covers i h
      exact ⟨p, by simp [hp], hc⟩
    · simp at hi
      obtain ⟨p, hp, hc⟩ := hb.covers (i - a.length) (by omega)
      refine ⟨(a.length + p.1, p.2), ?_, ?_⟩
      · apply List.mem_append_right
        exact List.mem_map_of_mem (f := fun p : Nat × Str => (a.length + p.1, p.2)) hp
      · simp only; omega

theorem cover_pieces (ws : List Str) : ∃ l, l.map Prod.snd = ws ∧ Cover ws.flatten l := by
  induction ws with
  | nil => exact ⟨[], rfl, by constructor <;> simp⟩
  | cons w ws ih =>
    obtain ⟨l, h1, h2⟩ := ih
    refine ⟨(0, w) :: l.map (fun p => (w.length + p.1, p.2)), ?_, ?_⟩
    · simp [← h1]
    · have : Cover w [(0, w)] := ⟨by simp [slice_zero_length], fun i hi => ⟨(0, w), by simp, by simp, by simpa using hi⟩⟩
      exact this.append h2

theorem cut_full_cover (E : Env F) (hm : Bool) (s : Str) :
    (∀ c ∈ s, isAlnum c = false) → ∃ l, cut E true hm s = Gen.ok (l.map Prod.snd) ∧ Cover s l := by
  refine scan_ind (P := fun s => (∀ c ∈ s, isAlnum c = false) →
    ∃ l, cut E true hm s = Gen.ok (l.map Prod.snd) ∧ Cover s l)
    isWordCh (fun _ => ⟨[], rfl, by constructor <;> simp⟩) ?_ ?_ s
  · intro u rest hu hpu hr ih hs
    obtain ⟨l, h1, h2⟩ := cutAll_cover E.freq u (fun c hc => hs c (by simp [hc]))
    obtain ⟨m, h3, h4⟩ := ih (fun c hc => hs c (by simp [hc]))
    refine ⟨_, ?_, h2.append h4⟩
    rw [cut_full_word E hm u rest hu hpu hr, h1, h3]
    simp [Function.comp_def]
  · intro u rest hu hpu hr ih hs
    obtain ⟨l, h1, h2⟩ := cover_pieces (cutSkip true u)
    rw [cutSkip_flatten] at h2
    obtain ⟨m, h3, h4⟩ := ih (fun c hc => hs c (by simp [hc]))
    refine ⟨_, ?_, h2.append h4⟩
    rw [cut_full_nonword E hm u rest hu hpu hr, h3, ← h1]
    simp [Function.comp_def]

theorem cut_full_sound (E : Env F) (hm : Bool) (s : Str) :
    (∀ c ∈ s, isAlnum c = false) → ∀ w ∈ (cut E true hm s).out,
      DictWord E.freq w ∨ w.length = 1 ∨ ∀ c ∈ w, isWordCh c = false := by
  refine scan_ind (P := fun s => (∀ c ∈ s, isAlnum c = false) → ∀ w ∈ (cut E true hm s).out,
      DictWord E.freq w ∨ w.length = 1 ∨ ∀ c ∈ w, isWordCh c = false)
    isWordCh (fun _ => by simp [cut_eq_scan, scan_nil]) ?_ ?_ s
  · intro u rest hu hpu hr ih hs w hw
    rw [cut_full_word E hm u rest hu hpu hr, Gen.andThen_out_of_ok _ _ rfl] at hw
    rcases List.mem_append.mp hw with hw | hw
    · rcases cutAll_sound E.freq u (fun c hc => hs c (by simp [hc])) w hw with h | h
      · exact Or.inl h
      · exact Or.inr (Or.inl h)
    · exact ih (fun c hc => hs c (by simp [hc])) w hw
  · intro u rest hu hpu hr ih hs w hw
    rw [cut_full_nonword E hm u rest hu hpu hr, Gen.andThen_out_of_ok _ _ rfl] at hw
    rcases List.mem_append.mp hw with hw | hw
    · right; right
      intro c hc
      apply hpu
      rw [← cutSkip_flatten u]
      exact List.mem_flatten.mpr ⟨w, hw, hc⟩
    · exact ih (fun c hc => hs c (by simp [hc])) w hw

end Jieba
