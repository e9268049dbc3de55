import Verif.Proofs.Double
import Verif.Proofs.HmmWords
/-!
# The HMM segmenter in doubles, on characters without emission probabilities
-/

namespace Jieba.FinalSeg
open Jieba Jieba.Spec

/-- Tables with values of ordinary size (the shipped ones are between -18 and 0, apart from the -3.14e100 of `start_P`). -/
structure Moderate (T : Tables ℚ) : Prop where
  min : T.minFloat = minFloat
  start : ∀ y, T.start y ≤ 2 ^ 100
  startS : -2 ^ 100 ≤ T.start .S
  trans : ∀ y0 y v, T.trans y0 y = some v → |v| ≤ 2 ^ 100
  transSS : (T.trans .S .S).isSome = true
  emit : ∀ y c v, T.emit y c = some v → |v| ≤ 2 ^ 100

theorem minFloat_dbl : IsDbl minFloat := isDbl_rnd _
theorem minFloat_large : minFloat ≤ -2 ^ 240 := by decide +kernel

variable {log : Nat → ℚ} {T : Tables ℚ}

theorem trans_le (hT : Moderate T) (y0 y : St) : (T.trans y0 y).getD T.minFloat ≤ 2 ^ 100 := by
  cases h : T.trans y0 y with
  | none => simp only [Option.getD_none]; rw [hT.min]; have := minFloat_large; linarith
  | some v => simp only [Option.getD_some]; exact (abs_le.mp (hT.trans y0 y v h)).2

theorem emit_le (hT : Moderate T) (y : St) (c : Ch) : (T.emit y c).getD T.minFloat ≤ 2 ^ 100 := by
  cases h : T.emit y c with
  | none => simp only [Option.getD_none]; rw [hT.min]; have := minFloat_large; linarith
  | some v => simp only [Option.getD_some]; exact (abs_le.mp (hT.emit y c v h)).2

/-- The value of `S` if `S` is the better predecessor, or as good. -/
theorem step_S (V : Four (ℚ × List St)) (c : Ch)
    (h : rnd (rnd ((V.get .E).1 + (T.trans .E .S).getD T.minFloat) + (T.emit .S c).getD T.minFloat) ≤
      rnd (rnd ((V.get .S).1 + (T.trans .S .S).getD T.minFloat) + (T.emit .S c).getD T.minFloat)) :
    (viterbiStep (dblArith log) T V c).get .S =
      (rnd (rnd ((V.get .S).1 + (T.trans .S .S).getD T.minFloat) + (T.emit .S c).getD T.minFloat), (V.get .S).2 ++ [.S]) := by
  simp only [viterbiStep, Four.get_mk', prevStatus, maxSt, pyMax, List.foldl_cons, List.foldl_nil]
  rw [if_neg]
  · rfl
  · unfold tupLt
    simp only [Bool.or_eq_true, decide_eq_true_eq, Bool.and_eq_true, not_or, not_and]
    refine ⟨not_lt.mpr h, fun _ => by simp [St.rank]⟩

theorem rnd_grid (k : ℕ) (hk : k ≤ 2 ^ 53) : rnd ((k : ℚ) * 2 ^ 100) = k * 2 ^ 100 := by
  have := isDbl_of (k : ℤ) 100 (by rw [abs_of_nonneg (by positivity)]; exact_mod_cast hk)
  unfold IsDbl at this
  exact_mod_cast this

theorem rnd_le_grid {x : ℚ} (k : ℕ) (hk : k ≤ 2 ^ 53) (h : x ≤ k * 2 ^ 100) : rnd x ≤ k * 2 ^ 100 := by
  rw [← rnd_grid k hk]; exact rnd_mono h

theorem grid_le_rnd {x : ℚ} (k : ℕ) (hk : k ≤ 2 ^ 53) (h : -((k : ℚ) * 2 ^ 100) ≤ x) : -((k : ℚ) * 2 ^ 100) ≤ rnd x := by
  rw [← rnd_grid k hk, ← rnd_neg]; exact rnd_mono h

/-- While all characters are known to the state `S`. -/
structure Calm (V : Four (ℚ × List St)) (k : ℕ) : Prop where
  le : ∀ y, (V.get y).1 ≤ k * 2 ^ 100
  ge : -((k : ℚ) * 2 ^ 100) ≤ (V.get .S).1

theorem calm_init (hT : Moderate T) (c : Ch) (hc : (T.emit .S c).isSome = true) : Calm (viterbiInit (dblArith log) T c) 2 := by
  obtain ⟨v, hv⟩ := Option.isSome_iff_exists.mp hc
  constructor
  · intro y
    simp only [viterbiInit, Four.get_mk']
    refine rnd_le_grid 2 (by norm_num) ?_
    have := hT.start y; have := emit_le hT y c
    push_cast; linarith
  · simp only [viterbiInit, Four.get_mk']
    refine grid_le_rnd 2 (by norm_num) ?_
    rw [hv, Option.getD_some]
    have := hT.startS; have := (abs_le.mp (hT.emit _ _ _ hv)).1
    push_cast; linarith

theorem calm_step (hT : Moderate T) (V : Four (ℚ × List St)) (k : ℕ) (h : Calm V k) (hk : k + 2 ≤ 2 ^ 53) (c : Ch)
    (hc : (T.emit .S c).isSome = true) : Calm (viterbiStep (dblArith log) T V c) (k + 2) := by
  obtain ⟨v, hv⟩ := Option.isSome_iff_exists.mp hc
  obtain ⟨t, ht⟩ := Option.isSome_iff_exists.mp hT.transSS
  constructor
  · intro y
    obtain ⟨y0, -, e, -⟩ := step_best (dblArith log) T V c y
    rw [e]
    show rnd (rnd _ + _) ≤ _
    have h1 : rnd ((V.get y0).1 + (T.trans y0 y).getD T.minFloat) ≤ ((k + 1 : ℕ) : ℚ) * 2 ^ 100 := by
      refine rnd_le_grid (k + 1) (by omega) ?_
      have := h.le y0; have := trans_le hT y0 y
      push_cast; linarith
    refine rnd_le_grid (k + 2) hk ?_
    have := emit_le hT y c
    push_cast at h1 ⊢; linarith
  · obtain ⟨-, -, -, hle⟩ := step_best (dblArith log) T V c .S
    refine le_trans ?_ (hle .S rfl)
    show _ ≤ rnd (rnd _ + _)
    rw [hv, ht, Option.getD_some, Option.getD_some]
    have h1 : -(((k + 1 : ℕ) : ℚ) * 2 ^ 100) ≤ rnd ((V.get .S).1 + t) := by
      refine grid_le_rnd (k + 1) (by omega) ?_
      have := h.ge; have := (abs_le.mp (hT.trans _ _ _ ht)).1
      push_cast; linarith
    refine grid_le_rnd (k + 2) hk ?_
    have := (abs_le.mp (hT.emit _ _ _ hv)).1
    push_cast at h1 ⊢; linarith

theorem calm_foldl (hT : Moderate T) (a : Str) (V : Four (ℚ × List St)) (k : ℕ) (h : Calm V k) (hk : k + 2 * a.length ≤ 2 ^ 53)
    (ha : ∀ x ∈ a, (T.emit .S x).isSome = true) : Calm (a.foldl (viterbiStep (dblArith log) T) V) (k + 2 * a.length) := by
  induction a generalizing V k with
  | nil => exact h
  | cons x a ih =>
    rw [List.foldl_cons, List.length_cons]
    have := ih _ (k + 2) (calm_step (log := log) hT V k h (by simp at hk; omega) x (ha x (by simp))) (by simp at hk; omega) (fun y hy => ha y (by simp [hy]))
    have e : k + 2 * (a.length + 1) = k + 2 + 2 * a.length := by omega
    rw [e]; exact this

/-- From an unknown character on: the state `S` has the largest score, so low that ordinary numbers do not count beside it. -/
structure Swamped (V : Four (ℚ × List St)) : Prop where
  dbl : IsDbl (V.get .S).1
  low : (V.get .S).1 ≤ minFloat
  le : ∀ y, (V.get y).1 ≤ (V.get .S).1

theorem absorb_low {v t : ℚ} (hv : IsDbl v) (hl : v ≤ minFloat) (ht : |t| ≤ 2 ^ 153) : rnd (v + t) = v := by
  refine absorb hv ?_
  have := minFloat_large
  rw [abs_of_neg (show v < 0 by linarith)]
  linarith

/-- Adding a moderate number to something below does not get above. -/
theorem low_le {x v t : ℚ} (hv : IsDbl v) (hl : v ≤ minFloat) (hx : x ≤ v) (ht : t ≤ 2 ^ 100) : rnd (x + t) ≤ v := by
  calc rnd (x + t) ≤ rnd (v + 2 ^ 100) := rnd_mono (by linarith)
    _ = v := absorb_low hv hl (by norm_num)

/-- The unknown character itself, after known ones. -/
theorem swamp_step (hT : Moderate T) (V : Four (ℚ × List St)) (k : ℕ) (h : Calm V k) (hk : k + 1 ≤ 2 ^ 53) (c : Ch) (hc : ∀ y, T.emit y c = none) :
    Swamped (viterbiStep (dblArith log) T V c) ∧ ((viterbiStep (dblArith log) T V c).get .S).2 = (V.get .S).2 ++ [.S] := by
  obtain ⟨t, ht⟩ := Option.isSome_iff_exists.mp hT.transSS
  have hkb : ((k + 1 : ℕ) : ℚ) * 2 ^ 100 ≤ 2 ^ 153 := by
    have : ((k + 1 : ℕ) : ℚ) ≤ 2 ^ 53 := by exact_mod_cast hk
    calc _ ≤ (2 : ℚ) ^ 53 * 2 ^ 100 := mul_le_mul_of_nonneg_right this (by norm_num)
      _ = 2 ^ 153 := by norm_num
  have up : ∀ y0 y, rnd ((V.get y0).1 + (T.trans y0 y).getD T.minFloat) ≤ ((k + 1 : ℕ) : ℚ) * 2 ^ 100 := by
    intro y0 y
    refine rnd_le_grid (k + 1) hk ?_
    have := h.le y0; have := trans_le hT y0 y
    push_cast; linarith
  have lo : -(((k + 1 : ℕ) : ℚ) * 2 ^ 100) ≤ rnd ((V.get .S).1 + (T.trans .S .S).getD T.minFloat) := by
    refine grid_le_rnd (k + 1) hk ?_
    rw [ht, Option.getD_some]
    have := h.ge; have := (abs_le.mp (hT.trans _ _ _ ht)).1
    push_cast; linarith
  have le_min : ∀ y0 y, rnd (rnd ((V.get y0).1 + (T.trans y0 y).getD T.minFloat) + minFloat) ≤ minFloat := by
    intro y0 y
    calc _ ≤ rnd (minFloat + 2 ^ 153) := rnd_mono (by have := up y0 y; linarith)
      _ = minFloat := absorb_low minFloat_dbl (le_refl _) (by norm_num)
  have eq_min : rnd (rnd ((V.get .S).1 + (T.trans .S .S).getD T.minFloat) + minFloat) = minFloat := by
    rw [add_comm]
    exact absorb_low minFloat_dbl (le_refl _) (by rw [abs_le]; have := up .S .S; constructor <;> linarith)
  have hS := step_S (log := log) (T := T) V c (by rw [hc, Option.getD_none]; nth_rw 2 [hT.min]; nth_rw 3 [hT.min]; rw [eq_min]; exact le_min .E .S)
  rw [hc, Option.getD_none, hT.min] at hS
  rw [hT.min] at eq_min le_min
  rw [eq_min] at hS
  refine ⟨⟨by rw [hS]; exact minFloat_dbl, by rw [hS], ?_⟩, by rw [hS]⟩
  intro y
  obtain ⟨y0, -, e, -⟩ := step_best (dblArith log) T V c y
  rw [e, hS, hc, Option.getD_none, hT.min]
  exact le_min y0 y

theorem swamp_init (hT : Moderate T) (c : Ch) (hc : ∀ y, T.emit y c = none) : Swamped (viterbiInit (dblArith log) T c) := by
  have h : ((viterbiInit (dblArith log) T c).get .S).1 = minFloat := by
    simp only [viterbiInit, Four.get_mk', hc, Option.getD_none, hT.min]
    show rnd (_ + _) = _
    rw [add_comm]
    exact absorb_low minFloat_dbl (le_refl _) (by rw [abs_le]; have := hT.startS; have := hT.start .S; constructor <;> linarith)
  refine ⟨by rw [h]; exact minFloat_dbl, by rw [h], ?_⟩
  intro y
  rw [h]
  simp only [viterbiInit, Four.get_mk', hc, Option.getD_none, hT.min]
  show rnd (_ + _) ≤ _
  rw [add_comm]
  exact low_le minFloat_dbl (le_refl _) (le_refl _) (hT.start y)

/-- All later characters. -/
theorem swamped_step (hT : Moderate T) (V : Four (ℚ × List St)) (h : Swamped V) (x : Ch)
    (hx : (T.emit .S x).isSome = true ∨ ∀ y, T.emit y x = none) :
    Swamped (viterbiStep (dblArith log) T V x) ∧ ((viterbiStep (dblArith log) T V x).get .S).2 = (V.get .S).2 ++ [.S] := by
  obtain ⟨t, ht⟩ := Option.isSome_iff_exists.mp hT.transSS
  set v := (V.get .S).1 with hv
  have tr : ∀ y0 y, rnd ((V.get y0).1 + (T.trans y0 y).getD T.minFloat) ≤ v := fun y0 y => low_le h.dbl h.low (h.le y0) (trans_le hT y0 y)
  have trS : rnd (v + (T.trans .S .S).getD T.minFloat) = v := by
    rw [ht, Option.getD_some]
    exact absorb_low h.dbl h.low (le_trans (hT.trans _ _ _ ht) (by norm_num))
  have hS := fun hle => step_S (log := log) (T := T) V x hle
  rw [← hv, trS] at hS
  have hle : rnd (rnd ((V.get .E).1 + (T.trans .E .S).getD T.minFloat) + (T.emit .S x).getD T.minFloat) ≤ rnd (v + (T.emit .S x).getD T.minFloat) :=
    rnd_mono (by have := tr .E .S; linarith)
  have hS' := hS hle
  have all : ∀ y, ((viterbiStep (dblArith log) T V x).get y).1 ≤ rnd (v + (T.emit y x).getD T.minFloat) := by
    intro y
    obtain ⟨y0, -, e, -⟩ := step_best (dblArith log) T V x y
    rw [e]
    show rnd (rnd _ + _) ≤ _
    exact rnd_mono (by have := tr y0 y; linarith)
  rcases hx with hx | hx
  · obtain ⟨e, he⟩ := Option.isSome_iff_exists.mp hx
    have ev : rnd (v + (T.emit .S x).getD T.minFloat) = v := by
      rw [he, Option.getD_some]
      exact absorb_low h.dbl h.low (le_trans (hT.emit _ _ _ he) (by norm_num))
    rw [ev] at hS'
    refine ⟨⟨by rw [hS']; exact h.dbl, by rw [hS']; exact h.low, ?_⟩, by rw [hS']⟩
    intro y
    rw [hS']
    exact le_trans (all y) (low_le h.dbl h.low (le_refl _) (emit_le hT y x))
  · rw [hx, Option.getD_none] at hS'
    refine ⟨⟨by rw [hS']; exact isDbl_rnd _, ?_, ?_⟩, by rw [hS']⟩
    · rw [hS', hT.min]
      have := minFloat_large
      have hl := h.low
      show rnd _ ≤ _
      have e := minFloat_dbl
      unfold IsDbl at e
      nth_rw 2 [← e]
      exact rnd_mono (by linarith)
    · intro y
      rw [hS']
      have := all y
      rwa [hx, Option.getD_none] at this

theorem swamped_foldl (hT : Moderate T) (b : Str) (V : Four (ℚ × List St)) (h : Swamped V)
    (hb : ∀ x ∈ b, (T.emit .S x).isSome = true ∨ ∀ y, T.emit y x = none) :
    Swamped (b.foldl (viterbiStep (dblArith log) T) V) ∧
      ((b.foldl (viterbiStep (dblArith log) T) V).get .S).2 = (V.get .S).2 ++ List.replicate b.length .S := by
  induction b generalizing V with
  | nil => exact ⟨h, by simp⟩
  | cons x b ih =>
    obtain ⟨h1, h2⟩ := swamped_step (log := log) hT V h x (hb x (by simp))
    obtain ⟨h3, h4⟩ := ih _ h1 (fun y hy => hb y (by simp [hy]))
    refine ⟨h3, ?_⟩
    rw [List.foldl_cons, h4, h2, List.length_cons, List.append_assoc, List.replicate_succ]
    rfl

theorem viterbi_swamped (T : Tables ℚ) (x : Ch) (xs : Str) (h : Swamped (xs.foldl (viterbiStep (dblArith log) T) (viterbiInit (dblArith log) T x))) :
    viterbi (dblArith log) T (x :: xs) = .ok (((xs.foldl (viterbiStep (dblArith log) T) (viterbiInit (dblArith log) T x)).get .S).1,
      ((xs.foldl (viterbiStep (dblArith log) T) (viterbiInit (dblArith log) T x)).get .S).2) := by
  unfold viterbi
  simp only [maxSt, pyMax, List.foldl_cons, List.foldl_nil]
  rw [if_pos]
  unfold tupLt
  have := h.le .E
  rcases lt_or_eq_of_le this with h1 | h1
  · simp [h1]
  · simp [h1, St.rank]

/-- The tags from the character before the first unknown one on. -/
theorem viterbi_unknown (log : Nat → ℚ) (hT : Moderate T) (a : Str) (c : Ch) (b : Str) (ha : ∀ x ∈ a, (T.emit .S x).isSome = true)
    (hc : ∀ y, T.emit y c = none) (hb : ∀ x ∈ b, (T.emit .S x).isSome = true ∨ ∀ y, T.emit y x = none) (hlen : a.length ≤ 2 ^ 50) :
    ∃ p before, viterbi (dblArith log) T (a ++ c :: b) = .ok (p, before ++ List.replicate (b.length + 1) .S) ∧ before.length = a.length ∧
      (a ≠ [] → before.getLast? = some .S) := by
  cases a with
  | nil =>
    have h0 := swamp_init (log := log) hT c hc
    obtain ⟨h1, h2⟩ := swamped_foldl (log := log) hT b _ h0 hb
    refine ⟨((b.foldl (viterbiStep (dblArith log) T) (viterbiInit (dblArith log) T c)).get .S).1, [], ?_, rfl, fun h => absurd rfl h⟩
    rw [List.nil_append, viterbi_swamped T c b h1, h2]
    simp [viterbiInit, List.replicate_succ]
  | cons x a =>
    have h0 := calm_init (log := log) hT x (ha x (by simp))
    have h1 := calm_foldl (log := log) hT a _ 2 h0 (by simp at hlen; omega) (fun y hy => ha y (by simp [hy]))
    obtain ⟨h2, e2⟩ := swamp_step (log := log) hT _ _ h1 (by simp at hlen; omega) c hc
    obtain ⟨h3, e3⟩ := swamped_foldl (log := log) hT b _ h2 hb
    have hst := colStruct_foldl (dblArith log) T a _ 1 (colStruct_init (dblArith log) T x) .S
    have e : (a ++ c :: b).foldl (viterbiStep (dblArith log) T) (viterbiInit (dblArith log) T x) =
        b.foldl (viterbiStep (dblArith log) T) (viterbiStep (dblArith log) T (a.foldl (viterbiStep (dblArith log) T) (viterbiInit (dblArith log) T x)) c) := by
      rw [List.foldl_append]; rfl
    refine ⟨(((a ++ c :: b).foldl (viterbiStep (dblArith log) T) (viterbiInit (dblArith log) T x)).get .S).1,
      ((a.foldl (viterbiStep (dblArith log) T) (viterbiInit (dblArith log) T x)).get .S).2, ?_, ?_, fun _ => hst.2.1⟩
    · rw [List.cons_append, viterbi_swamped T x (a ++ c :: b) (by rw [e]; exact h3), e, e3, e2, List.append_assoc, List.replicate_succ]
      rfl
    · rw [hst.1]; simp; omega

end Jieba.FinalSeg
