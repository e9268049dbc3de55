import Verif.Proofs.SuggestDouble
import Verif.Proofs.RankDoubles
import Verif.Proofs.IeeeSuggest
/-!
# The frequency that `suggest_freq` computes with doubles
-/

namespace Jieba
open Jieba.Spec

theorem two_sided {A x l u : ℚ} {k : ℕ} (hl : 0 ≤ l) (h1 : A * l ^ k ≤ x) (h2 : x ≤ A * u ^ k) (hx : 0 ≤ x)
    (hr1 : ∀ y : ℚ, 0 ≤ y → y * l ≤ rnd y) (hr2 : ∀ y : ℚ, 0 ≤ y → rnd y ≤ y * u) (hu : 0 ≤ u) :
    A * l ^ (k + 1) ≤ rnd x ∧ rnd x ≤ A * u ^ (k + 1) := by
  constructor
  · refine le_trans ?_ (hr1 x hx)
    rw [pow_succ, ← mul_assoc]
    exact mul_le_mul_of_nonneg_right h1 hl
  · refine (hr2 x hx).trans ?_
    rw [pow_succ, ← mul_assoc]
    exact mul_le_mul_of_nonneg_right h2 hu

theorem mulFreqs_two_sided (log : Nat → ℚ) (freq : Freq) (total : Int) (ht : 0 < total) (segs : List Str)
    (hb : ∀ s ∈ segs, 0 ≤ (freq.get? s).getD 1 ∧ (freq.get? s).getD 1 ≤ 2 ^ 53) (l u : ℚ) (hl : 0 ≤ l) (hu : 0 ≤ u)
    (hr1 : ∀ y : ℚ, 0 ≤ y → y * l ≤ rnd y) (hr2 : ∀ y : ℚ, 0 ≤ y → rnd y ≤ y * u) (A acc : ℚ) (hA : 0 ≤ A) (ha : 0 ≤ acc) (k : ℕ)
    (h1 : A * l ^ k ≤ acc) (h2 : acc ≤ A * u ^ k) :
    let P := (segs.map (fun s => (((freq.get? s).getD 1 : Int) : ℚ) / total)).prod
    0 ≤ mulFreqs (dblArith log) freq (total : ℚ) acc segs ∧
    A * P * l ^ (k + 2 * segs.length) ≤ mulFreqs (dblArith log) freq (total : ℚ) acc segs ∧
    mulFreqs (dblArith log) freq (total : ℚ) acc segs ≤ A * P * u ^ (k + 2 * segs.length) := by
  induction segs generalizing A acc k with
  | nil => simpa [mulFreqs] using ⟨ha, h1, h2⟩
  | cons s segs ih =>
    intro P
    obtain ⟨b1, b2⟩ := hb s List.mem_cons_self
    have htq : (0 : ℚ) < total := by exact_mod_cast ht
    unfold mulFreqs
    have e : (dblArith log).ofInt ((freq.get? s).getD 1) = (((freq.get? s).getD 1 : Int) : ℚ) := rnd_int_mem _ _ b1 b2 le_rfl
    rw [e]
    have hf0 : (0 : ℚ) ≤ (((freq.get? s).getD 1 : Int) : ℚ) := by exact_mod_cast b1
    generalize hf : (((freq.get? s).getD 1 : Int) : ℚ) = f at *
    have eM : (dblArith log).mul acc ((dblArith log).div f total) = rnd (acc * rnd (f / total)) := rfl
    rw [eM]
    have hq : 0 ≤ f / total := div_nonneg hf0 htq.le
    have q0 := rnd_nonneg hq
    have q1 := hr1 _ hq
    have q2 := hr2 _ hq
    have m0 : 0 ≤ acc * rnd (f / total) := mul_nonneg ha q0
    have m1 : A * (f / total) * l ^ (k + 1) ≤ acc * rnd (f / total) := by
      calc A * (f / total) * l ^ (k + 1) = (A * l ^ k) * (f / total * l) := by rw [pow_succ]; ring
        _ ≤ acc * rnd (f / total) := mul_le_mul h1 q1 (mul_nonneg hq hl) ha
    have m2 : acc * rnd (f / total) ≤ A * (f / total) * u ^ (k + 1) := by
      calc acc * rnd (f / total) ≤ (A * u ^ k) * (f / total * u) := mul_le_mul h2 q2 q0 (mul_nonneg hA (pow_nonneg hu _))
        _ = A * (f / total) * u ^ (k + 1) := by rw [pow_succ]; ring
    obtain ⟨r1, r2⟩ := two_sided hl m1 m2 m0 hr1 hr2 hu
    have := ih (fun s hs => hb s (List.mem_cons_of_mem _ hs)) (A * (f / total)) (rnd (acc * rnd (f / total))) (mul_nonneg hA hq) (rnd_nonneg m0) (k + 1 + 1) r1 r2
    have eP : P = f / total * (segs.map (fun s => (((freq.get? s).getD 1 : Int) : ℚ) / total)).prod := by
      show (List.map _ (s :: segs)).prod = _
      rw [List.map_cons, List.prod_cons, hf]
    have ek : k + 2 * (s :: segs).length = k + 1 + 1 + 2 * segs.length := by simp only [List.length_cons]; omega
    simp only [eP, ek, ← mul_assoc]
    exact this

/-- What is truncated differs from the exact number by one rounding error per operation. -/
theorem expectFreq_two_sided (log : Nat → ℚ) (freq : Freq) (total : Int) (ht : 0 < total) (hT : total ≤ 2 ^ 53) (segs : List Str) (hne : segs ≠ [])
    (hlen : segs.length ≤ 2 ^ 43)
    (hb : ∀ s ∈ segs, 0 ≤ (freq.get? s).getD 1 ∧ (freq.get? s).getD 1 ≤ 2 ^ 53) :
    let P := (segs.map (fun s => (((freq.get? s).getD 1 : Int) : ℚ) / total)).prod * total
    ∃ x : ℚ, expectFreq (dblArith log) freq total segs = .ok ⌊x⌋ ∧ 0 ≤ x ∧ P * (1 - (2 * segs.length + 1) / 2 ^ 53) ≤ x ∧
      x ≤ P * (1 + (4 * segs.length + 2) / 2 ^ 53) := by
  intro P
  have htq : (0 : ℚ) < total := by exact_mod_cast ht
  have e1 : (dblArith log).ofInt 1 = 1 := by
    have := rnd_int_mem 1 (2 ^ 53) (by norm_num) (by norm_num) le_rfl
    exact_mod_cast this
  have eT : (dblArith log).ofInt total = total := rnd_int_mem _ _ ht.le hT le_rfl
  have hr1 : ∀ y : ℚ, 0 ≤ y → y * (1 - 1 / 2 ^ 53) ≤ rnd y := fun y hy => rnd_lower hy
  have hr2 : ∀ y : ℚ, 0 ≤ y → rnd y ≤ y * (1 + 1 / 2 ^ 53) := fun y hy => rnd_le_mul hy
  obtain ⟨h0, h1, h2⟩ := mulFreqs_two_sided log freq total ht segs hb (1 - 1 / 2 ^ 53) (1 + 1 / 2 ^ 53) (by norm_num) (by norm_num) hr1 hr2 1 1
    (by norm_num) (by norm_num) 0 (by norm_num) (by norm_num)
  unfold expectFreq
  rw [if_neg hne, if_neg ht.ne', e1, eT]
  generalize mulFreqs (dblArith log) freq (total : ℚ) 1 segs = m at *
  have hm : 0 ≤ m * total := mul_nonneg h0 htq.le
  rw [one_mul, zero_add] at h1 h2
  have hP : P = (segs.map (fun s => (((freq.get? s).getD 1 : Int) : ℚ) / total)).prod * total := rfl
  have hP0 : 0 ≤ P := by
    rw [hP]
    refine mul_nonneg (List.prod_nonneg ?_) htq.le
    intro x hx
    obtain ⟨s, hs, rfl⟩ := List.mem_map.mp hx
    exact div_nonneg (by exact_mod_cast (hb s hs).1) htq.le
  have k1 : P * (1 - 1 / 2 ^ 53) ^ (2 * segs.length) ≤ m * total := by
    rw [hP, mul_right_comm]
    exact mul_le_mul_of_nonneg_right h1 htq.le
  have k2 : m * total ≤ P * (1 + 1 / 2 ^ 53) ^ (2 * segs.length) := by
    rw [hP, mul_right_comm]
    exact mul_le_mul_of_nonneg_right h2 htq.le
  obtain ⟨r1, r2⟩ := two_sided (by norm_num) k1 k2 hm hr1 hr2 (by norm_num)
  refine ⟨rnd (m * total), ?_, rnd_nonneg hm, ?_, ?_⟩
  · show Except.ok (if 0 ≤ rnd (m * total) then ⌊rnd (m * total)⌋ else ⌈rnd (m * total)⌉) = _
    rw [if_pos (rnd_nonneg hm)]
  · refine le_trans (mul_le_mul_of_nonneg_left ?_ hP0) r1
    have := one_add_mul_le_pow (show (-2 : ℚ) ≤ -(1 / 2 ^ 53) by norm_num) (2 * segs.length + 1)
    rw [← sub_eq_add_neg] at this
    refine le_trans (le_of_eq ?_) this
    push_cast; ring
  · refine r2.trans (mul_le_mul_of_nonneg_left ?_ hP0)
    have := pow_bound (2 * segs.length + 1) (by omega)
    refine this.trans (le_of_eq ?_)
    push_cast; ring

end Jieba
