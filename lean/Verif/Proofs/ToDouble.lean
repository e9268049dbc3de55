import Verif.Proofs.IeeeSuggest
import Verif.Spec.FloatText
/-!
# Lemmas about rounding to the nearest double
-/

namespace Jieba
open Jieba.Spec

theorem nearest_best (z : ℚ) (n : ℤ) : |(nearest z : ℚ) - z| ≤ |(n : ℚ) - z| := by
  by_cases h : n = nearest z
  · rw [h]
  · have h1 := nearest_err z
    have h2 : (1 : ℚ) ≤ |(n : ℚ) - nearest z| := by
      have : 1 ≤ |n - nearest z| := Int.one_le_abs (sub_ne_zero.mpr h)
      exact_mod_cast this
    have h3 : |(n : ℚ) - nearest z| ≤ |(n : ℚ) - z| + |(nearest z : ℚ) - z| := by
      rw [abs_sub_comm (nearest z : ℚ) z]; exact abs_sub_le _ _ _
    linarith

theorem nearest_tie (z : ℚ) (n : ℤ) (hn : n ≠ nearest z) (h : |(n : ℚ) - z| = |(nearest z : ℚ) - z|) :
    nearest z % 2 = 0 ∧ |(n : ℚ) - nearest z| = 1 := by
  have h1 := nearest_err z
  have h2 : (1 : ℚ) ≤ |(n : ℚ) - nearest z| := by
    have : 1 ≤ |n - nearest z| := Int.one_le_abs (sub_ne_zero.mpr hn)
    exact_mod_cast this
  have h3 : |(n : ℚ) - nearest z| ≤ |(n : ℚ) - z| + |(nearest z : ℚ) - z| := by
    rw [abs_sub_comm (nearest z : ℚ) z]; exact abs_sub_le _ _ _
  have h4 : |(nearest z : ℚ) - z| = 1 / 2 := by linarith
  refine ⟨?_, by linarith⟩
  have f1 := Int.floor_le z
  have f2 := Int.lt_floor_add_one z
  unfold nearest at h4 ⊢
  split_ifs at h4 ⊢ with c1 c2 c3
  · exfalso
    rw [abs_sub_comm, abs_of_nonneg (by linarith)] at h4; linarith
  · exfalso
    push_cast at h4
    rw [abs_of_nonneg (by linarith)] at h4; linarith
  · exact c3
  · omega

/-- The exponent of the last bit of the double nearest to `q`. -/
theorem off_grid {q : ℚ} (h0 : q ≠ 0) {m e : ℤ} (hm : |m| ≤ 2 ^ 53) (he : -1074 ≤ e) (hlt : e < max (ulpExp q) (-1074)) :
    |(m : ℚ) * 2 ^ e| ≤ 2 ^ 52 * 2 ^ max (ulpExp q) (-1074) ∧ 2 ^ 52 * 2 ^ max (ulpExp q) (-1074) ≤ |q| := by
  have hk : max (ulpExp q) (-1074) = ulpExp q := by
    rcases max_choice (ulpExp q) (-1074) with h | h
    · exact h
    · rw [h] at hlt; omega
  rw [hk] at hlt ⊢
  constructor
  · rw [abs_mul, abs_of_pos (two_zpow_pos e)]
    have h1 : |(m : ℚ)| ≤ 2 ^ 53 := by exact_mod_cast hm
    have h2 : (2 : ℚ) ^ e * 2 ≤ 2 ^ ulpExp q := by
      rw [← zpow_add_one₀ (by norm_num)]
      exact zpow_le_zpow_right₀ (by norm_num) (by omega)
    calc |(m : ℚ)| * 2 ^ e ≤ 2 ^ 53 * 2 ^ e := mul_le_mul_of_nonneg_right h1 (two_zpow_pos _).le
      _ = 2 ^ 52 * (2 ^ e * 2) := by ring
      _ ≤ _ := by linarith
  · have hq : 0 < |q| := abs_pos.mpr h0
    have := (scaled_bounds (x := |q|) hq).1
    have hu : ulpExp |q| = ulpExp q := by unfold ulpExp; rw [abs_abs]
    rw [hu, le_div_iff₀ (two_zpow_pos _)] at this
    exact this

theorem round_best {q : ℚ} {m e : ℤ} (hm : |m| ≤ 2 ^ 53) (he : -1074 ≤ e) : |roundBounded q - q| ≤ |(m : ℚ) * 2 ^ e - q| := by
  rcases eq_or_ne q 0 with rfl | h0
  · have : roundBounded 0 = 0 := by
      have h : nearest 0 = 0 := by exact_mod_cast nearest_int 0
      unfold roundBounded; rw [zero_div, h]; simp
    rw [this, sub_self, abs_zero]; exact abs_nonneg _
  have hp := two_zpow_pos (max (ulpExp q) (-1074))
  have onGrid : ∀ n : ℤ, |roundBounded q - q| ≤ |(n : ℚ) * 2 ^ max (ulpExp q) (-1074) - q| := by
    intro n
    have := nearest_best (q / 2 ^ max (ulpExp q) (-1074)) n
    have h2 := mul_le_mul_of_nonneg_right this hp.le
    have e1 : ∀ x : ℚ, |x - q / 2 ^ max (ulpExp q) (-1074)| * 2 ^ max (ulpExp q) (-1074) = |x * 2 ^ max (ulpExp q) (-1074) - q| := by
      intro x
      conv_lhs => rw [← abs_of_pos hp, ← abs_mul, sub_mul, abs_of_pos hp, div_mul_cancel₀ _ hp.ne']
    rw [e1, e1] at h2
    exact h2
  by_cases h : max (ulpExp q) (-1074) ≤ e
  · obtain ⟨d, hd⟩ := Int.le.dest h
    have : (m : ℚ) * 2 ^ e = ((m * 2 ^ d : ℤ) : ℚ) * 2 ^ max (ulpExp q) (-1074) := by
      rw [← hd, zpow_add₀ (by norm_num)]; push_cast; rw [zpow_natCast]; ring
    rw [this]; exact onGrid _
  · obtain ⟨h1, h2⟩ := off_grid h0 hm he (not_le.mp h)
    obtain ⟨g1, g2⟩ := abs_le.mp h1
    rcases le_total 0 q with hq | hq
    · rw [abs_of_nonneg hq] at h2
      have := onGrid (2 ^ 52)
      push_cast at this
      refine this.trans ?_
      rw [abs_sub_comm, abs_of_nonneg (by linarith), abs_sub_comm, abs_of_nonneg (by linarith)]
      linarith
    · rw [abs_of_nonpos hq] at h2
      have := onGrid (-2 ^ 52)
      push_cast at this
      refine this.trans ?_
      rw [abs_of_nonneg (by linarith), abs_of_nonneg (by linarith)]
      linarith

theorem round_isDouble (q : ℚ) : ∃ m e : ℤ, |m| ≤ 2 ^ 53 ∧ -1074 ≤ e ∧ roundBounded q = m * 2 ^ e := by
  refine ⟨_, max (ulpExp q) (-1074), ?_, le_max_right _ _, rfl⟩
  rcases eq_or_ne q 0 with rfl | hq
  · have : nearest (0 / 2 ^ max (ulpExp 0) (-1074)) = 0 := by rw [zero_div]; exact_mod_cast nearest_int 0
    rw [this]; norm_num
  · have hq' : 0 < |q| := abs_pos.mpr hq
    have h1 := (scaled_bounds (x := |q|) hq').2
    have hu : ulpExp |q| = ulpExp q := by unfold ulpExp; rw [abs_abs]
    rw [hu] at h1
    have h2 : |q / 2 ^ max (ulpExp q) (-1074)| ≤ 2 ^ 53 := by
      rw [abs_div, abs_of_pos (two_zpow_pos _)]
      refine le_trans ?_ h1.le
      exact div_le_div_of_nonneg_left hq'.le (two_zpow_pos _) (zpow_le_zpow_right₀ (by norm_num) (le_max_left _ _))
    obtain ⟨g1, g2⟩ := abs_le.mp h2
    have e : nearest ((2 : ℚ) ^ 53) = 2 ^ 53 := nearest_two_pow 53
    have m1 := nearest_mono g1
    have m2 := nearest_mono g2
    rw [nearest_neg, e] at m1
    rw [e] at m2
    exact abs_le.mpr ⟨m1, m2⟩

/-- With two nearest doubles, the one whose last bit is 0. -/
theorem round_tie {q : ℚ} {m e : ℤ} (hm : |m| ≤ 2 ^ 53) (he : -1074 ≤ e) (hne : (m : ℚ) * 2 ^ e ≠ roundBounded q)
    (h : |(m : ℚ) * 2 ^ e - q| = |roundBounded q - q|) : ∃ n k : ℤ, roundBounded q = 2 * n * 2 ^ k ∧ |(m : ℚ) * 2 ^ e - roundBounded q| = 2 ^ k := by
  rcases eq_or_ne q 0 with rfl | h0
  · have : roundBounded 0 = 0 := by
      have h : nearest 0 = 0 := by exact_mod_cast nearest_int 0
      unfold roundBounded; rw [zero_div, h]; simp
    rw [this, sub_self, abs_zero, sub_zero] at h
    exact absurd (by rw [this]; exact abs_eq_zero.mp h) hne
  set k := max (ulpExp q) (-1074) with hk
  have hp := two_zpow_pos k
  have hr : roundBounded q = nearest (q / 2 ^ k) * 2 ^ k := rfl
  have e1 : ∀ x : ℚ, |x - q / 2 ^ k| * 2 ^ k = |x * 2 ^ k - q| := by
    intro x
    conv_lhs => rw [← abs_of_pos hp, ← abs_mul, sub_mul, abs_of_pos hp, div_mul_cancel₀ _ hp.ne']
  have onGrid : ∀ n : ℤ, (m : ℚ) * 2 ^ e = n * 2 ^ k → ∃ n k : ℤ, roundBounded q = 2 * n * 2 ^ k ∧ |(m : ℚ) * 2 ^ e - roundBounded q| = 2 ^ k := by
    intro n hn
    have h1 : n ≠ nearest (q / 2 ^ k) := by rintro rfl; exact hne hn
    have h2 : |(n : ℚ) - q / 2 ^ k| = |(nearest (q / 2 ^ k) : ℚ) - q / 2 ^ k| := by
      have := h
      rw [hn, hr, ← e1, ← e1] at this
      exact mul_right_cancel₀ hp.ne' this
    obtain ⟨h3, h4⟩ := nearest_tie _ _ h1 h2
    refine ⟨nearest (q / 2 ^ k) / 2, k, ?_, ?_⟩
    · rw [hr]
      have : nearest (q / 2 ^ k) = 2 * (nearest (q / 2 ^ k) / 2) := by omega
      conv_lhs => rw [this]
      push_cast; ring
    · rw [hn, hr, ← sub_mul, abs_mul, h4, one_mul, abs_of_pos hp]
  by_cases hle : k ≤ e
  · obtain ⟨d, hd⟩ := Int.le.dest hle
    refine onGrid (m * 2 ^ d) ?_
    rw [← hd, zpow_add₀ (by norm_num)]; push_cast; rw [zpow_natCast]; ring
  · obtain ⟨h1, h2⟩ := off_grid h0 hm he (not_le.mp hle)
    obtain ⟨g1, g2⟩ := abs_le.mp h1
    have b1 : |roundBounded q - q| ≤ |((2 ^ 52 : ℤ) : ℚ) * 2 ^ k - q| := round_best (by norm_num) (le_max_right _ _)
    have b2 : |roundBounded q - q| ≤ |((-2 ^ 52 : ℤ) : ℚ) * 2 ^ k - q| := round_best (by norm_num) (le_max_right _ _)
    rw [← h] at b1 b2
    push_cast at b1 b2
    rcases le_total 0 q with hq | hq
    · rw [abs_of_nonneg hq] at h2
      rw [abs_sub_comm, abs_of_nonneg (by linarith), abs_sub_comm, abs_of_nonneg (by linarith)] at b1
      exact onGrid (2 ^ 52) (by push_cast; linarith)
    · rw [abs_of_nonpos hq] at h2
      rw [abs_of_nonneg (by linarith), abs_of_nonneg (by linarith)] at b2
      exact onGrid (-2 ^ 52) (by push_cast; linarith)

theorem toDouble_normal {q : ℚ} (h : q = 0 ∨ 2 ^ (-1022 : ℤ) ≤ |q|) (hb : |q| ≤ 2 ^ 1023) : toDouble q = .num (rnd q) := by
  have h1 := rndIeee_normal (fun _ => rnd q + 1) h hb
  unfold rndIeee at h1
  unfold toDouble
  split at h1
  · next hlt => rw [if_pos hlt, h1]
  · exfalso; simp only [] at h1; linarith

theorem nearest_lt_even {z : ℚ} {N : ℤ} (hN : N % 2 = 0) : nearest z < N ↔ z < N - 1 / 2 := by
  constructor
  · intro h
    by_contra hge
    have := nearest_mono (not_lt.mp hge)
    have e : nearest ((N : ℚ) - 1 / 2) = N := by
      have hf : ⌊(N : ℚ) - 1 / 2⌋ = N - 1 := by
        rw [Int.floor_eq_iff]; push_cast; constructor <;> linarith
      unfold nearest
      rw [hf]
      push_cast
      rw [if_neg (by linarith), if_neg (by linarith), if_neg (by omega)]
      omega
    omega
  · intro h
    have := (abs_le.mp (nearest_err z)).2
    have : (nearest z : ℚ) < N := by linarith
    exact_mod_cast this

theorem below_limit {H q : ℚ} (hH : 0 < H) (h : q < 2 ^ 53 * H) : q < 2 ^ 53 * (2 * H) - H ∧ 2 ^ 53 * H < 2 ^ 53 * (2 * H) ∧ 0 < 2 ^ 53 * (2 * H) - H := by
  refine ⟨?_, ?_, ?_⟩ <;> linarith

/-- Which numbers are too large. -/
theorem round_overflow (q : ℚ) : |roundBounded q| < 2 ^ 1024 ↔ |q| < 2 ^ 1024 - 2 ^ 970 := by
  have neg : ∀ q : ℚ, roundBounded (-q) = - roundBounded q := by
    intro q
    unfold roundBounded
    have : ulpExp (-q) = ulpExp q := by unfold ulpExp; rw [abs_neg]
    rw [this, neg_div, nearest_neg]; push_cast; ring
  have p1 : (2 : ℚ) ^ 1024 = 2 ^ 53 * 2 ^ 971 := by rw [← pow_add]
  have p2 : (2 : ℚ) ^ 971 = 2 * 2 ^ 970 := by rw [pow_succ]; ring
  have hpos : (0 : ℚ) < 2 ^ 970 := by positivity
  have key : ∀ q : ℚ, 0 < q → (|roundBounded q| < 2 ^ 1024 ↔ q < 2 ^ 1024 - 2 ^ 970) := by
    intro q hq
    have hr0 : 0 ≤ roundBounded q := by
      unfold roundBounded
      refine mul_nonneg ?_ (two_zpow_pos _).le
      have := nearest_mono (x := 0) (y := q / 2 ^ max (ulpExp q) (-1074)) (div_nonneg hq.le (two_zpow_pos _).le)
      have h0 : nearest 0 = 0 := by exact_mod_cast nearest_int 0
      rw [h0] at this
      exact_mod_cast this
    rw [abs_of_nonneg hr0]
    obtain ⟨hl, hu⟩ := scaled_bounds hq
    rcases lt_trichotomy (ulpExp q) 971 with h | h | h
    · have e1 : q < 2 ^ 53 * 2 ^ 970 := by
        rw [div_lt_iff₀ (two_zpow_pos _)] at hu
        refine lt_of_lt_of_le hu ?_
        refine mul_le_mul_of_nonneg_left ?_ (by norm_num)
        have : (2 : ℚ) ^ (970 : ℕ) = 2 ^ (970 : ℤ) := by rw [← zpow_natCast]; rfl
        rw [this]
        exact zpow_le_zpow_right₀ (by norm_num) (by omega)
      refine iff_of_true ?_ (by rw [p1, p2]; exact (below_limit hpos e1).1)
      obtain ⟨m, hm⟩ : ∃ m, m = nearest (q / 2 ^ max (ulpExp q) (-1074)) := ⟨_, rfl⟩
      have h2 : m ≤ 2 ^ 53 := by
        rw [hm, ← nearest_two_pow 53]
        refine nearest_mono (le_trans ?_ hu.le)
        exact div_le_div_of_nonneg_left hq.le (two_zpow_pos _) (zpow_le_zpow_right₀ (by norm_num) (le_max_left _ _))
      have h2' : (m : ℚ) ≤ 2 ^ 53 := by exact_mod_cast h2
      unfold roundBounded
      rw [← hm]
      calc (m : ℚ) * 2 ^ max (ulpExp q) (-1074) ≤ 2 ^ 53 * 2 ^ max (ulpExp q) (-1074) := mul_le_mul_of_nonneg_right h2' (two_zpow_pos _).le
        _ ≤ 2 ^ 53 * 2 ^ (970 : ℤ) := mul_le_mul_of_nonneg_left (zpow_le_zpow_right₀ (by norm_num) (by omega)) (by norm_num)
        _ = 2 ^ 53 * 2 ^ 970 := by rw [← zpow_natCast]; rfl
        _ < 2 ^ 1024 := by rw [p1, p2]; exact (below_limit hpos e1).2.1
    · have e1 : max (ulpExp q) (-1074) = 971 := by omega
      have e2 : (2 : ℚ) ^ (971 : ℤ) = 2 ^ 971 := by rw [← zpow_natCast]; rfl
      have e3 : roundBounded q = nearest (q / 2 ^ 971) * 2 ^ 971 := by unfold roundBounded; rw [e1, e2]
      have hp : (0 : ℚ) < 2 ^ 971 := by positivity
      rw [e3, p1, mul_lt_mul_iff_left₀ hp]
      have := nearest_lt_even (z := q / 2 ^ 971) (N := 2 ^ 53) (by norm_num)
      rw [div_lt_iff₀ hp] at this
      rw [show (nearest (q / 2 ^ 971) : ℚ) < 2 ^ 53 ↔ nearest (q / 2 ^ 971) < 2 ^ 53 by exact_mod_cast Iff.rfl, this]
      have : (((2 ^ 53 : ℤ) : ℚ) - 1 / 2) * 2 ^ 971 = 2 ^ 53 * 2 ^ 971 - 2 ^ 970 := by
        rw [p2, Int.cast_pow, Int.cast_ofNat]
        generalize (2 : ℚ) ^ 970 = H
        ring
      rw [this]
    · have e1 : max (ulpExp q) (-1074) = ulpExp q := by omega
      have e4 : (2 : ℚ) ^ 1024 ≤ 2 ^ 52 * 2 ^ ulpExp q := by
        have : (2 : ℚ) ^ 1024 = 2 ^ 52 * 2 ^ (972 : ℤ) := by
          rw [show (2 : ℚ) ^ (972 : ℤ) = 2 ^ (972 : ℕ) by rw [← zpow_natCast]; rfl, ← pow_add]
        rw [this]
        exact mul_le_mul_of_nonneg_left (zpow_le_zpow_right₀ (by norm_num) (by omega)) (by norm_num)
      refine iff_of_false ?_ ?_
      · rw [not_lt]
        unfold roundBounded
        rw [e1]
        refine e4.trans (mul_le_mul_of_nonneg_right ?_ (two_zpow_pos _).le)
        have := nearest_mono hl
        rw [nearest_two_pow 52] at this
        exact_mod_cast this
      · rw [le_div_iff₀ (two_zpow_pos _)] at hl
        rw [not_lt]; exact (sub_le_self _ hpos.le).trans (e4.trans hl)
  rcases lt_trichotomy 0 q with hq | hq | hq
  · rw [abs_of_pos hq]; exact key q hq
  · subst hq
    have : roundBounded 0 = 0 := by
      have h : nearest 0 = 0 := by exact_mod_cast nearest_int 0
      unfold roundBounded; rw [zero_div, h]; simp
    rw [this, abs_zero]
    exact iff_of_true (by positivity) (by rw [p1, p2]; exact (below_limit (q := 0) hpos (by positivity)).2.2)
  · have := key (-q) (by linarith)
    rw [neg, abs_neg] at this
    rw [abs_of_neg hq]; exact this

end Jieba
