import Mathlib.Tactic.Linarith
import Mathlib.Tactic.Positivity
import Mathlib.Tactic.FieldSimp
import Mathlib.Tactic.Ring
import Mathlib.Tactic.NormNum
import Verif.Model.Double
import Verif.Spec.Tags
/-!
# Lemmas about rounding
-/

namespace Jieba
open Jieba.Spec

theorem nearest_mono {x y : ℚ} (h : x ≤ y) : nearest x ≤ nearest y := by
  have hf : ⌊x⌋ ≤ ⌊y⌋ := Int.floor_le_floor h
  unfold nearest
  rcases lt_or_eq_of_le hf with hlt | heq
  · split_ifs <;> omega
  · rw [← heq]
    split_ifs with h1 h2 h3 h4 h5 h6 h7 h8 h9 h10 <;> first | omega | (exfalso; linarith)

theorem nearest_int (n : ℤ) : nearest (n : ℚ) = n := by
  unfold nearest; simp

theorem nearest_err (x : ℚ) : |(nearest x : ℚ) - x| ≤ 1 / 2 := by
  have h1 := Int.floor_le x
  have h2 := Int.lt_floor_add_one x
  unfold nearest
  rw [abs_le]
  split_ifs <;> constructor <;> push_cast <;> linarith

theorem nearest_near (n : ℤ) (t : ℚ) (h : |t| < 1 / 2) : nearest (n + t) = n := by
  have h1 := abs_le.mp (nearest_err (n + t))
  have h2 := abs_lt.mp h
  have h3 : ((nearest (n + t) : ℚ)) < n + 1 := by linarith
  have h4 : (n : ℚ) - 1 < nearest (n + t) := by linarith
  have h3' : nearest (n + t) < n + 1 := by exact_mod_cast h3
  have h4' : n - 1 < nearest (n + t) := by exact_mod_cast h4
  omega

theorem nearest_neg (x : ℚ) : nearest (-x) = - nearest x := by
  by_cases hx : (⌊x⌋ : ℚ) = x
  · rw [← hx, ← Int.cast_neg, nearest_int, nearest_int]
  · have h1 : (⌊x⌋ : ℚ) < x := lt_of_le_of_ne (Int.floor_le x) hx
    have h2 := Int.lt_floor_add_one x
    have hf : ⌊-x⌋ = -⌊x⌋ - 1 := by
      rw [Int.floor_eq_iff]; push_cast; constructor <;> linarith
    unfold nearest
    rw [hf]
    push_cast
    split_ifs <;> first | omega | (exfalso; linarith)

theorem two_zpow_pos (e : ℤ) : (0 : ℚ) < 2 ^ e := zpow_pos (by norm_num) e

theorem nearest_two_pow (n : ℕ) : nearest ((2 : ℚ) ^ n) = 2 ^ n := by
  have := nearest_int (2 ^ n)
  push_cast at this
  exact this

theorem rnd_zero : rnd 0 = 0 := by
  unfold rnd; rw [zero_div]
  have : nearest 0 = 0 := by exact_mod_cast nearest_int 0
  rw [this]; simp

theorem rnd_neg (x : ℚ) : rnd (-x) = - rnd x := by
  unfold rnd ulpExp
  rw [abs_neg, neg_div, nearest_neg]; push_cast; ring

/-- Between which powers of two a number lies, in units of its last bit. -/
theorem scaled_bounds {x : ℚ} (h : 0 < x) : (2 : ℚ) ^ (52 : ℕ) ≤ x / 2 ^ ulpExp x ∧ x / 2 ^ ulpExp x < 2 ^ (53 : ℕ) := by
  have hl := Int.zpow_log_le_self (b := 2) (by norm_num) h
  have hu := Int.lt_zpow_succ_log_self (b := 2) (by norm_num) x
  have hp := two_zpow_pos (ulpExp x)
  push_cast at hl hu
  rw [le_div_iff₀ hp, div_lt_iff₀ hp]
  have e : ulpExp x = Int.log 2 x - 52 := by unfold ulpExp; rw [abs_of_pos h]
  constructor
  · rw [e, ← zpow_natCast, ← zpow_add₀ (by norm_num)]
    convert hl using 2; push_cast; ring
  · rw [e, ← zpow_natCast, ← zpow_add₀ (by norm_num)]
    convert hu using 2; push_cast; ring

theorem rnd_nonneg {x : ℚ} (h : 0 ≤ x) : 0 ≤ rnd x := by
  unfold rnd
  refine mul_nonneg ?_ (two_zpow_pos _).le
  have := nearest_mono (x := 0) (y := x / 2 ^ ulpExp x) (div_nonneg h (two_zpow_pos _).le)
  have h0 : nearest 0 = 0 := by exact_mod_cast nearest_int 0
  rw [h0] at this
  exact_mod_cast this

theorem rnd_mono_pos {x y : ℚ} (hx : 0 < x) (h : x ≤ y) : rnd x ≤ rnd y := by
  have hy : 0 < y := lt_of_lt_of_le hx h
  obtain ⟨-, hxu⟩ := scaled_bounds hx
  obtain ⟨hyl, -⟩ := scaled_bounds hy
  have hlog : ulpExp x ≤ ulpExp y := by
    unfold ulpExp
    rw [abs_of_pos hx, abs_of_pos hy]
    have := Int.log_mono_right (b := 2) hx h
    omega
  rcases lt_or_eq_of_le hlog with hlt | heq
  · have h1 : nearest (x / 2 ^ ulpExp x) ≤ 2 ^ 53 := by
      have := nearest_mono hxu.le
      have e : nearest ((2 : ℚ) ^ (53 : ℕ)) = 2 ^ 53 := nearest_two_pow 53
      rwa [e] at this
    have h2 : 2 ^ 52 ≤ nearest (y / 2 ^ ulpExp y) := by
      have := nearest_mono hyl
      have e : nearest ((2 : ℚ) ^ (52 : ℕ)) = 2 ^ 52 := nearest_two_pow 52
      rwa [e] at this
    have h1' : (nearest (x / 2 ^ ulpExp x) : ℚ) ≤ 2 ^ 53 := by exact_mod_cast h1
    have h2' : (2 : ℚ) ^ 52 ≤ nearest (y / 2 ^ ulpExp y) := by exact_mod_cast h2
    have h3 : (2 : ℚ) ^ ulpExp x * 2 ≤ 2 ^ ulpExp y := by
      rw [← zpow_add_one₀ (by norm_num)]
      exact zpow_le_zpow_right₀ (by norm_num) (by omega)
    unfold rnd
    calc (nearest (x / 2 ^ ulpExp x) : ℚ) * 2 ^ ulpExp x ≤ 2 ^ 53 * 2 ^ ulpExp x :=
          mul_le_mul_of_nonneg_right h1' (two_zpow_pos _).le
      _ = 2 ^ 52 * (2 ^ ulpExp x * 2) := by ring
      _ ≤ 2 ^ 52 * 2 ^ ulpExp y := by linarith
      _ ≤ _ := mul_le_mul_of_nonneg_right h2' (two_zpow_pos _).le
  · unfold rnd
    rw [← heq]
    refine mul_le_mul_of_nonneg_right ?_ (two_zpow_pos _).le
    exact_mod_cast nearest_mono (div_le_div_of_nonneg_right h (two_zpow_pos _).le)

theorem rnd_mono {x y : ℚ} (h : x ≤ y) : rnd x ≤ rnd y := by
  rcases lt_trichotomy x 0 with hx | hx | hx
  · rcases lt_or_ge y 0 with hy | hy
    · have := rnd_mono_pos (x := -y) (y := -x) (by linarith) (by linarith)
      rw [rnd_neg, rnd_neg] at this
      linarith
    · have h1 := rnd_nonneg (x := -x) (by linarith)
      rw [rnd_neg] at h1
      have h2 := rnd_nonneg hy
      linarith
  · subst hx; rw [rnd_zero]; exact rnd_nonneg h
  · exact rnd_mono_pos hx h

theorem dbl_mono (log : Nat → ℚ) : MonoAdd (dblArith log) where
  left _ _ c h := rnd_mono (by linarith [h] : _ + c ≤ _ + c)
  right _ _ c h := rnd_mono (by linarith [h] : c + _ ≤ c + _)

theorem rnd_err_pos {x : ℚ} (h : 0 < x) : |rnd x - x| ≤ x / 2 ^ 53 := by
  have hp := two_zpow_pos (ulpExp x)
  obtain ⟨hl, -⟩ := scaled_bounds h
  have he := nearest_err (x / 2 ^ ulpExp x)
  have e : rnd x - x = (nearest (x / 2 ^ ulpExp x) - x / 2 ^ ulpExp x) * 2 ^ ulpExp x := by
    unfold rnd; rw [sub_mul, div_mul_cancel₀ _ hp.ne']
  rw [e, abs_mul, abs_of_pos hp]
  rw [le_div_iff₀ hp] at hl
  calc _ ≤ 1 / 2 * 2 ^ ulpExp x := mul_le_mul_of_nonneg_right he hp.le
    _ = (2 ^ 52 * 2 ^ ulpExp x) / 2 ^ 53 := by ring
    _ ≤ x / 2 ^ 53 := div_le_div_of_nonneg_right hl (by norm_num)

/-- The relative error of rounding. -/
theorem rnd_err (x : ℚ) : |rnd x - x| ≤ |x| / 2 ^ 53 := by
  rcases lt_trichotomy x 0 with hx | hx | hx
  · have := rnd_err_pos (x := -x) (by linarith)
    rw [rnd_neg] at this
    rw [abs_of_neg hx, ← abs_neg]
    convert this using 2; ring
  · subst hx; simp [rnd_zero]
  · rw [abs_of_pos hx]; exact rnd_err_pos hx

/-- The numbers with 53 significant bits. -/
def IsDbl (v : ℚ) : Prop := rnd v = v

/-- 53 bits are left as they are. -/
theorem isDbl_of (m : ℤ) (e : ℤ) (hm : |m| ≤ 2 ^ 53) : IsDbl (m * 2 ^ e) := by
  have key : ∀ m : ℤ, 0 < m → m ≤ 2 ^ 53 → IsDbl (m * 2 ^ e) := by
    intro m h0 hm
    have hm0 : (0 : ℚ) < m := by exact_mod_cast h0
    have hx : (0 : ℚ) < m * 2 ^ e := mul_pos hm0 (two_zpow_pos e)
    obtain ⟨hl, hu⟩ := scaled_bounds hx
    have hp := two_zpow_pos (ulpExp (m * 2 ^ e))
    unfold IsDbl rnd
    set k := ulpExp ((m : ℚ) * 2 ^ e) with hk
    rcases le_or_gt k e with hke | hke
    · have e1 : (m : ℚ) * 2 ^ e / 2 ^ k = ((m * 2 ^ (e - k).toNat : ℤ) : ℚ) := by
        push_cast
        rw [mul_div_assoc, ← zpow_sub₀ (by norm_num), ← zpow_natCast, Int.toNat_of_nonneg (by omega)]
      have e2 : ((nearest ((m : ℚ) * 2 ^ e / 2 ^ k) : ℤ) : ℚ) = (m : ℚ) * 2 ^ e / 2 ^ k := by
        rw [e1, nearest_int]
      rw [e2, div_mul_cancel₀ _ hp.ne']
    · -- the exponent is larger than e: only m = 2^53 and k = e + 1
      have h1 : (2 : ℚ) ^ (52 : ℕ) * 2 ^ k ≤ m * 2 ^ e := by rwa [le_div_iff₀ hp] at hl
      have h2 : (2 : ℚ) ^ (e + 1) ≤ 2 ^ k := zpow_le_zpow_right₀ (by norm_num) (by omega)
      rw [zpow_add_one₀ (by norm_num)] at h2
      have h3 : (m : ℚ) ≤ 2 ^ 53 := by exact_mod_cast hm
      have hpe := two_zpow_pos e
      have h4 : (2 : ℚ) ^ k ≤ 2 ^ e * 2 := by
        have : (2 : ℚ) ^ 52 * 2 ^ k ≤ 2 ^ 53 * 2 ^ e := le_trans h1 (mul_le_mul_of_nonneg_right h3 hpe.le)
        linarith
      have h5 : (2 : ℚ) ^ k = 2 ^ e * 2 := le_antisymm h4 h2
      have h6 : (m : ℚ) * 2 ^ e / 2 ^ k = ((2 ^ 52 : ℤ) : ℚ) := by
        rw [h5]
        push_cast
        have : (2 : ℚ) ^ 53 * 2 ^ e ≤ m * 2 ^ e := by rw [h5] at h1; linarith
        have hm2 : (2 : ℚ) ^ 53 ≤ m := le_of_mul_le_mul_right this hpe
        have : (m : ℚ) = 2 ^ 53 := le_antisymm h3 hm2
        rw [this]; field_simp; norm_num
      have e2 : ((nearest ((m : ℚ) * 2 ^ e / 2 ^ k) : ℤ) : ℚ) = (m : ℚ) * 2 ^ e / 2 ^ k := by
        rw [h6, nearest_int]
      rw [e2, div_mul_cancel₀ _ hp.ne']
  rcases lt_trichotomy m 0 with h | h | h
  · have := key (-m) (by omega) (by rw [abs_of_neg h] at hm; exact hm)
    unfold IsDbl at *
    have e1 : ((-m : ℤ) : ℚ) * 2 ^ e = -(m * 2 ^ e) := by push_cast; ring
    rw [e1, rnd_neg] at this
    linarith
  · subst h; simp [IsDbl, rnd_zero]
  · exact key m h (by rw [abs_of_pos h] at hm; exact hm)

/-- What rounding yields has 53 bits. -/
theorem isDbl_rnd (x : ℚ) : IsDbl (rnd x) := by
  rcases eq_or_ne x 0 with rfl | hx
  · simp [IsDbl, rnd_zero]
  have key : ∀ x : ℚ, 0 < x → |nearest (x / 2 ^ ulpExp x)| ≤ 2 ^ 53 := by
    intro x h
    obtain ⟨hl, hu⟩ := scaled_bounds h
    have h1 := nearest_mono hu.le
    have h2 := nearest_mono hl
    have e : nearest ((2 : ℚ) ^ (53 : ℕ)) = 2 ^ 53 := nearest_two_pow 53
    have e' : nearest ((2 : ℚ) ^ (52 : ℕ)) = 2 ^ 52 := nearest_two_pow 52
    rw [e] at h1; rw [e'] at h2
    rw [abs_of_nonneg (by omega)]; exact h1
  rcases lt_or_gt_of_ne hx with h | h
  · have := isDbl_of _ (ulpExp (-x)) (key (-x) (by linarith))
    have e : rnd (-x) = nearest (-x / 2 ^ ulpExp (-x)) * 2 ^ ulpExp (-x) := rfl
    rw [← e, rnd_neg] at this
    unfold IsDbl at *
    rw [rnd_neg] at this
    linarith
  · exact isDbl_of _ _ (key x h)

theorem absorb_pos {v t : ℚ} (hv : IsDbl v) (hpos : 0 < v) (ht : |t| * 2 ^ 55 ≤ v) : rnd (v + t) = v := by
  obtain ⟨hl, hu⟩ := scaled_bounds hpos
  have hp := two_zpow_pos (ulpExp v)
  set k := ulpExp v with hk
  set m := nearest (v / 2 ^ k) with hm
  have hvm : v = m * 2 ^ k := hv.symm
  have hml : (2 : ℚ) ^ 52 ≤ m := by rwa [hvm, mul_div_cancel_right₀ _ hp.ne'] at hl
  have hmu : (m : ℚ) < 2 ^ 53 := by rwa [hvm, mul_div_cancel_right₀ _ hp.ne'] at hu
  have hvu : v < 2 ^ 53 * 2 ^ k := by rw [hvm]; exact mul_lt_mul_of_pos_right hmu hp
  have htk : |t| * 4 < 2 ^ k := by
    have : |t| * 2 ^ 55 < 2 ^ 53 * 2 ^ k := lt_of_le_of_lt ht hvu
    linarith
  obtain ⟨ht1, ht2⟩ := abs_lt.mp (show |t| < 2 ^ k / 4 by linarith)
  have hml' : (2 : ℚ) ^ 52 * 2 ^ k ≤ v := by rw [hvm]; exact mul_le_mul_of_nonneg_right hml hp.le
  have hvt : 0 < v + t := by linarith
  obtain ⟨hl', hu'⟩ := scaled_bounds hvt
  have hp' := two_zpow_pos (ulpExp (v + t))
  have hle : ∀ j : ℤ, 2 ^ (52 : ℕ) * (2 : ℚ) ^ j ≤ v + t → v + t < 2 ^ (53 : ℕ) * 2 ^ j → ulpExp (v + t) = j := by
    intro j h1 h2
    rw [le_div_iff₀ hp'] at hl'
    rw [div_lt_iff₀ hp'] at hu'
    have a1 : (2 : ℚ) ^ ulpExp (v + t) < 2 ^ (j + 1) := by rw [zpow_add_one₀ (by norm_num)]; linarith
    have a2 : (2 : ℚ) ^ j < 2 ^ (ulpExp (v + t) + 1) := by rw [zpow_add_one₀ (by norm_num)]; linarith
    have b1 := (zpow_lt_zpow_iff_right₀ (by norm_num : (1 : ℚ) < 2)).mp a1
    have b2 := (zpow_lt_zpow_iff_right₀ (by norm_num : (1 : ℚ) < 2)).mp a2
    omega
  rcases le_or_gt (2 ^ 52 * (2 : ℚ) ^ k) (v + t) with hc | hc
  · -- the same exponent
    have hup : v + t < 2 ^ (53 : ℕ) * 2 ^ k := by
      have hmi : m ≤ 2 ^ 53 - 1 := by
        have : m < 2 ^ 53 := by exact_mod_cast hmu
        omega
      have hmi' : (m : ℚ) ≤ 2 ^ 53 - 1 := by exact_mod_cast hmi
      have : v ≤ (2 ^ 53 - 1) * 2 ^ k := by rw [hvm]; exact mul_le_mul_of_nonneg_right hmi' hp.le
      linarith
    have hk' := hle k hc hup
    unfold rnd
    rw [hk']
    have e : (v + t) / 2 ^ k = m + t / 2 ^ k := by rw [add_div]; nth_rw 1 [hvm]; rw [mul_div_cancel_right₀ _ hp.ne']
    rw [e, nearest_near m (t / 2 ^ k) (by rw [abs_div, abs_of_pos hp, div_lt_iff₀ hp]; linarith)]
    exact hvm.symm
  · -- just below a power of two
    have hm52 : (m : ℚ) = 2 ^ 52 := by
      have h1 : (m : ℚ) * 2 ^ k < (2 ^ 52 + 1) * 2 ^ k := by rw [← hvm]; linarith
      have h2 : (m : ℚ) < 2 ^ 52 + 1 := lt_of_mul_lt_mul_right h1 hp.le
      have h3 : m < 2 ^ 52 + 1 := by exact_mod_cast h2
      have h4 : 2 ^ 52 ≤ m := by exact_mod_cast hml
      have : m = 2 ^ 52 := by omega
      rw [this]; norm_num
    have hv2 : v = 2 ^ 52 * 2 ^ k := by rw [hvm, hm52]
    have ek : (2 : ℚ) ^ k = 2 ^ (k - 1) * 2 := by rw [← zpow_add_one₀ (by norm_num)]; congr 1; ring
    have hp1 := two_zpow_pos (k - 1)
    have hk' := hle (k - 1) (by linarith) (by linarith)
    unfold rnd
    rw [hk']
    have e : (v + t) / 2 ^ (k - 1) = ((2 ^ 53 : ℤ) : ℚ) + t / 2 ^ (k - 1) := by
      rw [add_div, hv2, ek]; congr 1; push_cast; field_simp; norm_num
    rw [e, nearest_near (2 ^ 53) (t / 2 ^ (k - 1)) (by rw [abs_div, abs_of_pos hp1, div_lt_iff₀ hp1]; linarith), hv2, ek]
    push_cast; ring

/-- Adding something too small changes nothing. -/
theorem absorb {v t : ℚ} (hv : IsDbl v) (ht : |t| * 2 ^ 55 ≤ |v|) : rnd (v + t) = v := by
  rcases lt_trichotomy v 0 with h | h | h
  · have hv' : IsDbl (-v) := by unfold IsDbl at *; rw [rnd_neg, hv]
    have := absorb_pos (v := -v) (t := -t) hv' (by linarith) (by rw [abs_neg]; rwa [abs_of_neg h] at ht)
    have e : -v + -t = -(v + t) := by ring
    rw [e, rnd_neg] at this
    linarith
  · subst h
    rw [abs_zero] at ht
    have h0 : |t| = 0 := le_antisymm (by nlinarith [abs_nonneg t]) (abs_nonneg t)
    rw [abs_eq_zero.mp h0, add_zero, rnd_zero]
  · exact absorb_pos hv h (by rwa [abs_of_pos h] at ht)

end Jieba
