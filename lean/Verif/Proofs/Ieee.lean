import Verif.Model.Ieee
import Verif.Proofs.Double
/-!
# Sums of doubles that are not too large: no overflow, and nothing is lost to underflow
-/

namespace Jieba

/-- A multiple of the smallest positive double. -/
def Grid (x : ℚ) : Prop := ∃ k : ℤ, x = k * 2 ^ (-1074 : ℤ)

theorem grid_zero : Grid 0 := ⟨0, by simp⟩

theorem grid_add {x y : ℚ} (hx : Grid x) (hy : Grid y) : Grid (x + y) := by
  obtain ⟨a, rfl⟩ := hx; obtain ⟨b, rfl⟩ := hy
  exact ⟨a + b, by push_cast; ring⟩

theorem grid_neg {x : ℚ} (hx : Grid x) : Grid (-x) := by
  obtain ⟨a, rfl⟩ := hx
  exact ⟨-a, by push_cast; ring⟩

/-- An integer multiple of `2 ^ e`, for `e` at least -1074. -/
theorem grid_of (k : ℤ) (e : ℤ) (he : -1074 ≤ e) : Grid (k * 2 ^ e) := by
  obtain ⟨n, hn⟩ := Int.eq_ofNat_of_zero_le (show 0 ≤ e + 1074 by omega)
  refine ⟨k * 2 ^ n, ?_⟩
  have : e = (n : ℤ) + (-1074) := by omega
  rw [this, zpow_add₀ (by norm_num)]
  push_cast
  rw [zpow_natCast]; ring

theorem round_exact (k : ℤ) (e f : ℤ) (h : f ≤ e) : (nearest ((k * 2 ^ e : ℚ) / 2 ^ f) : ℚ) * 2 ^ f = k * 2 ^ e := by
  obtain ⟨n, hn⟩ := Int.eq_ofNat_of_zero_le (show 0 ≤ e - f by omega)
  have h1 : (k * 2 ^ e : ℚ) / 2 ^ f = ((k * 2 ^ n : ℤ) : ℚ) := by
    have : e = (n : ℤ) + f := by omega
    rw [this, zpow_add₀ (by norm_num), ← mul_assoc, mul_div_assoc, div_self (two_zpow_pos f).ne', zpow_natCast]
    push_cast; ring
  rw [h1, nearest_int, ← h1, div_mul_cancel₀ _ (two_zpow_pos f).ne']

theorem rnd_grid {x : ℚ} (hx : Grid x) : Grid (rnd x) := by
  by_cases h : -1074 ≤ ulpExp x
  · exact grid_of _ _ h
  · obtain ⟨k, hk⟩ := hx
    have := round_exact k (-1074) (ulpExp x) (by omega)
    rw [← hk] at this
    rw [show rnd x = x from this]
    exact ⟨k, hk⟩

theorem rnd_two_pow (n : ℕ) : rnd (2 ^ n) = 2 ^ n := by
  have := isDbl_of 1 n (by norm_num)
  simpa [IsDbl] using this

theorem abs_rnd_le {x : ℚ} {n : ℕ} (h : |x| ≤ 2 ^ n) : |rnd x| ≤ 2 ^ n := by
  obtain ⟨h1, h2⟩ := abs_le.mp h
  refine abs_le.mpr ⟨?_, ?_⟩
  · have := rnd_mono h1
    rwa [rnd_neg, rnd_two_pow] at this
  · have := rnd_mono h2
    rwa [rnd_two_pow] at this

/-- On such numbers the bounded exponent makes no difference. -/
theorem rndIeee_eq (over : ℚ → ℚ) {x : ℚ} (hx : Grid x) (hb : |x| ≤ 2 ^ 1023) : rndIeee over x = rnd x := by
  have h : roundBounded x = rnd x := by
    unfold roundBounded
    by_cases h : -1074 ≤ ulpExp x
    · rw [max_eq_left h]; rfl
    · rw [max_eq_right (by omega)]
      obtain ⟨k, hk⟩ := hx
      have h1 := round_exact k (-1074) (-1074) le_rfl
      have h2 := round_exact k (-1074) (ulpExp x) (by omega)
      rw [← hk] at h1 h2
      rw [h1]
      exact h2.symm
  unfold rndIeee
  rw [h, if_pos]
  refine lt_of_le_of_lt (abs_rnd_le hb) ?_
  exact pow_lt_pow_right₀ (by norm_num) (by norm_num)

/-- A multiple of the smallest double, at most `k * 2^350` large. -/
def Safe (k : ℕ) (x : ℚ) : Prop := Grid x ∧ |x| ≤ k * 2 ^ 350

theorem Safe.mono {k l : ℕ} {x : ℚ} (h : Safe k x) (hkl : k ≤ l) : Safe l x := by
  refine ⟨h.1, h.2.trans ?_⟩
  have : (k : ℚ) ≤ l := by exact_mod_cast hkl
  exact mul_le_mul_of_nonneg_right this (by positivity)

theorem safe_zero (k : ℕ) : Safe k 0 := ⟨grid_zero, by rw [abs_zero]; positivity⟩

theorem Safe.neg {k : ℕ} {x : ℚ} (h : Safe k x) : Safe k (-x) := ⟨grid_neg h.1, by rw [abs_neg]; exact h.2⟩

theorem safe_add (over : ℚ → ℚ) {a b : ℕ} {x y : ℚ} (hx : Safe a x) (hy : Safe b y) (h : a + b ≤ 2 ^ 53) :
    rndIeee over (x + y) = rnd (x + y) ∧ Safe (a + b + 1) (rnd (x + y)) := by
  have hg := grid_add hx.1 hy.1
  have habs : |x + y| ≤ (a + b : ℕ) * 2 ^ 350 := by
    refine (abs_add_le x y).trans ?_
    have := add_le_add hx.2 hy.2
    refine this.trans (le_of_eq ?_)
    push_cast; ring
  have hq : ((a + b : ℕ) : ℚ) ≤ 2 ^ 53 := by exact_mod_cast h
  have hu : (0 : ℚ) < 2 ^ 350 := by positivity
  have hbig : |x + y| ≤ 2 ^ 53 * 2 ^ 350 := habs.trans (mul_le_mul_of_nonneg_right hq hu.le)
  refine ⟨rndIeee_eq over hg (hbig.trans ?_), rnd_grid hg, ?_⟩
  · rw [← pow_add]
    exact pow_le_pow_right₀ (by norm_num) (by norm_num)
  · have he := rnd_err (x + y)
    have h1 : |x + y| / 2 ^ 53 ≤ 2 ^ 350 := by
      rw [div_le_iff₀ (by positivity)]
      rw [mul_comm]; exact hbig
    have h2 : |rnd (x + y)| ≤ |x + y| + |rnd (x + y) - (x + y)| := by
      have := abs_add_le (x + y) (rnd (x + y) - (x + y))
      rwa [add_sub_cancel] at this
    calc |rnd (x + y)| ≤ (a + b : ℕ) * 2 ^ 350 + 2 ^ 350 := h2.trans (add_le_add habs (he.trans h1))
      _ = ((a + b + 1 : ℕ) : ℚ) * 2 ^ 350 := by push_cast; ring

theorem safe_sub (over : ℚ → ℚ) {a b : ℕ} {x y : ℚ} (hx : Safe a x) (hy : Safe b y) (h : a + b ≤ 2 ^ 53) :
    rndIeee over (x - y) = rnd (x - y) ∧ Safe (a + b + 1) (rnd (x - y)) := by
  rw [sub_eq_add_neg]
  exact safe_add over hx hy.neg h

end Jieba
