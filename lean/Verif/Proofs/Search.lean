import Verif.Proofs.Cut
import Verif.Spec.Spans
/-!
# Lemmas about cut_for_search and tokenize
-/

set_option linter.unusedSectionVars false

namespace Jieba
open Jieba.Spec

variable {F : Type _} [LinearOrder F]

theorem slice_slice_infix (w : Str) (i n : Nat) : slice w i (i + n) <:+: w := by
  unfold slice
  exact (List.drop_suffix _ _).isInfix.trans (List.take_prefix _ _).isInfix

theorem mem_grams (freq : Freq) (n : Nat) (hn : 0 < n) (w x : Str) :
    x ∈ grams freq n w ↔ n < w.length ∧ x.length = n ∧ x <:+: w ∧ DictWord freq x := by
  unfold grams
  by_cases h : n < w.length
  · rw [if_pos h, List.mem_filter, List.mem_map]
    constructor
    · rintro ⟨⟨i, hi, rfl⟩, ht⟩
      rw [List.mem_range] at hi
      refine ⟨h, ?_, slice_slice_infix _ _ _, (truthy_iff _ _).mp ht⟩
      rw [slice_length _ _ _ (by omega)]; omega
    · rintro ⟨-, hl, ⟨a, b, hab⟩, hd⟩
      refine ⟨⟨a.length, ?_, ?_⟩, (truthy_iff _ _).mpr hd⟩
      · rw [List.mem_range, ← hab]; simp; omega
      · rw [← hab, slice_eq, ← hl]
        simp
  · rw [if_neg h]; simp [h]

theorem slice_eq_iff_prefix (w x : Str) (i n : Nat) (hx : x.length = n) (hi : i + n ≤ w.length) :
    slice w i (i + n) = x ↔ x <+: w.drop i := by
  rw [prefix_drop_iff w i x (by omega), hx]
  constructor
  · intro h; exact ⟨h.symm, hi⟩
  · intro h; exact h.1.symm

/-- Each dictionary gram is emitted once per occurrence. -/
theorem count_grams (freq : Freq) (n : Nat) (hn : 0 < n) (w x : Str) (hw : n < w.length) (hx : x.length = n)
    (hd : DictWord freq x) : (grams freq n w).count x = occurrences x w := by
  unfold grams occurrences
  rw [if_pos hw, List.count_filter ((truthy_iff _ _).mpr hd)]
  have e : w.length = (w.length - (n - 1)) + (n - 1) := by omega
  conv_rhs => rw [e, List.range_add, List.filter_append, List.length_append]
  have h2 : ((List.range (n - 1)).map (fun i => w.length - (n - 1) + i)).filter
      (fun k => x.isPrefixOf (w.drop k)) = [] := by
    rw [List.filter_eq_nil_iff]
    intro k hk hp
    rw [List.mem_map] at hk
    obtain ⟨i, hi, rfl⟩ := hk
    rw [List.mem_range] at hi
    have := (List.isPrefixOf_iff_prefix.mp hp).length_le
    simp at this; omega
  rw [h2, List.length_nil, Nat.add_zero, List.count, List.countP_map, List.countP_eq_length_filter]
  congr 1
  apply List.filter_congr
  intro i hi
  rw [List.mem_range] at hi
  have := slice_eq_iff_prefix w x i n hx (by omega)
  rw [Bool.eq_iff_iff]
  simp only [Function.comp_apply, beq_iff_eq, List.isPrefixOf_iff_prefix]
  exact this

theorem tokenizeLoop_default (freq : Freq) (ws : List Str) (o : Nat) :
    (tokenizeLoop freq false ws o).map (fun t => t.1) = ws ∧
      Contiguous o (tokenizeLoop freq false ws o) (o + ws.flatten.length) := by
  induction ws generalizing o with
  | nil => exact ⟨rfl, .nil _⟩
  | cons w ws ih =>
    obtain ⟨h1, h2⟩ := ih (o + w.length)
    refine ⟨by simp [tokenizeLoop, h1], ?_⟩
    have := Contiguous.cons o w (o + w.length) _ _ h2
    simpa [tokenizeLoop, Nat.add_assoc] using this

theorem gramSpans_map (freq : Freq) (n : Nat) (w : Str) (o : Nat) :
    (gramSpans freq n w o).map (fun t => t.1) = grams freq n w := by
  unfold gramSpans grams
  split
  · rw [List.map_map, List.filter_map]; rfl
  · rfl

theorem tokenizeLoop_search_words (freq : Freq) (ws : List Str) (o : Nat) :
    (tokenizeLoop freq true ws o).map (fun t => t.1) =
      ws.flatMap (fun w => grams freq 2 w ++ grams freq 3 w ++ [w]) := by
  induction ws generalizing o with
  | nil => rfl
  | cons w ws ih => simp [tokenizeLoop, ih, gramSpans_map]

theorem slice_of_split (pre w rest s : Str) (h : pre ++ w ++ rest = s) (i j : Nat) (hij : i ≤ j) (hj : j ≤ w.length) :
    slice s (pre.length + i) (pre.length + j) = slice w i j := by
  subst h
  rw [slice_eq, slice_eq, List.append_assoc, List.drop_append, List.drop_eq_nil_of_le (by omega : pre.length ≤ pre.length + i)]
  simp only [List.nil_append, Nat.add_sub_cancel_left]
  rw [show pre.length + j - (pre.length + i) = j - i by omega, List.drop_append]
  rw [List.take_append, show j - i - (w.drop i).length = 0 by simp; omega]
  simp

theorem tokenizeLoop_exact (freq : Freq) (search : Bool) (s : Str) (ws : List Str) (pre : Str)
    (h : pre ++ ws.flatten <+: s) :
    ∀ t ∈ tokenizeLoop freq search ws pre.length, ExactSpan s t := by
  induction ws generalizing pre with
  | nil => simp [tokenizeLoop]
  | cons w ws ih =>
    obtain ⟨rest, hrest⟩ := h
    have hs : pre ++ w ++ (ws.flatten ++ rest) = s := by rw [← hrest]; simp
    have hlen : pre.length + w.length ≤ s.length := by rw [← hs]; simp
    have hgram : ∀ n, ∀ t ∈ gramSpans freq n w pre.length, ExactSpan s t := by
      intro n t ht
      unfold gramSpans at ht
      split at ht
      · rw [List.mem_map] at ht
        obtain ⟨i, hi, rfl⟩ := ht
        rw [List.mem_filter, List.mem_range] at hi
        refine ⟨by simp, ?_, ?_⟩
        · simp; omega
        · simp only
          rw [show pre.length + i + n = pre.length + (i + n) by omega]
          exact slice_of_split pre w _ s hs i (i + n) (by omega) (by omega)
      · simp at ht
    intro t ht
    unfold tokenizeLoop at ht
    rcases List.mem_append.mp ht with ht | ht
    · cases search
      · simp at ht
      · simp only [if_true] at ht
        rcases List.mem_append.mp ht with ht | ht
        · exact hgram 2 t ht
        · exact hgram 3 t ht
    · rcases List.mem_cons.mp ht with rfl | ht
      · refine ⟨by simp, by simpa using hlen, ?_⟩
        have := slice_of_split pre w _ s hs 0 w.length (by omega) (by omega)
        simpa [slice_zero_length] using this
      · have := ih (pre ++ w) ⟨rest, by rw [← hrest]; simp⟩
        rw [List.length_append] at this
        exact this t ht

theorem gramSpans_inner (freq : Freq) (n : Nat) (hn : 0 < n) (w : Str) (o : Nat) :
    InnerSpans freq n (w, o, o + w.length) (gramSpans freq n w o) := by
  unfold gramSpans
  by_cases h : n < w.length
  · rw [if_pos h]
    constructor
    · rw [List.pairwise_map]
      apply List.Pairwise.filter
      exact (List.pairwise_lt_range).imp (fun hab => by simpa using hab)
    · intro x i j
      rw [List.mem_map]
      constructor
      · rintro ⟨k, hk, he⟩
        rw [List.mem_filter, List.mem_range] at hk
        simp only [Prod.mk.injEq] at he
        obtain ⟨rfl, rfl, rfl⟩ := he
        refine ⟨h, by simp, by omega, by simp; omega, ?_, (truthy_iff _ _).mp hk.2⟩
        congr 1 <;> (simp; try omega)
      · rintro ⟨-, h1, h2, h3, h4, h5⟩
        simp only at h1 h3 h4
        have e : slice w (i - o) (i - o + n) = x := by
          rw [h4]; congr 1; omega
        refine ⟨i - o, ?_, ?_⟩
        · rw [List.mem_filter, List.mem_range]
          refine ⟨by omega, ?_⟩
          rw [e]; exact (truthy_iff _ _).mpr h5
        · simp only [Prod.mk.injEq]
          exact ⟨e, by omega, by omega⟩
  · rw [if_neg h]
    refine ⟨List.Pairwise.nil, fun x i j => ?_⟩
    simp only [List.not_mem_nil, false_iff]
    rintro ⟨h1, -⟩
    exact h h1

theorem tokenizeLoop_flatMap (freq : Freq) (ws : List Str) (o : Nat) :
    tokenizeLoop freq true ws o = (tokenizeLoop freq false ws o).flatMap
      (fun t => gramSpans freq 2 t.1 t.2.1 ++ gramSpans freq 3 t.1 t.2.1 ++ [t]) := by
  induction ws generalizing o with
  | nil => rfl
  | cons w ws ih => simp [tokenizeLoop, ih]

theorem tokenizeLoop_width (freq : Freq) (ws : List Str) (o : Nat) :
    ∀ t ∈ tokenizeLoop freq false ws o, t.2.2 = t.2.1 + t.1.length := by
  induction ws generalizing o with
  | nil => simp [tokenizeLoop]
  | cons w ws ih =>
    intro t ht
    simp only [tokenizeLoop, Bool.false_eq_true, if_false, List.nil_append, List.mem_cons] at ht
    rcases ht with rfl | ht
    · rfl
    · exact ih _ t ht

end Jieba
