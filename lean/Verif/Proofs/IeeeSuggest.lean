import Verif.Proofs.IeeeCut
import Verif.Proofs.World
import Verif.Model.World
/-!
# The bounded exponents make no difference to `suggest_freq`
-/

namespace Jieba

theorem ulpExp_ge {x : ℚ} (h : 2 ^ (-1022 : ℤ) ≤ |x|) : -1074 ≤ ulpExp x := by
  unfold ulpExp
  have h0 : |x| ≠ 0 := (lt_of_lt_of_le (two_zpow_pos _) h).ne'
  have hp : 0 < |x| := lt_of_lt_of_le (two_zpow_pos _) h
  have := (Int.zpow_le_iff_le_log (b := 2) (by norm_num) hp).mp (by exact_mod_cast h)
  omega

theorem rndIeee_normal (over : ℚ → ℚ) {x : ℚ} (h : x = 0 ∨ 2 ^ (-1022 : ℤ) ≤ |x|) (hb : |x| ≤ 2 ^ 1023) : rndIeee over x = rnd x := by
  rcases h with rfl | h
  · exact rndIeee_eq over grid_zero hb
  · have e : roundBounded x = rnd x := by
      unfold roundBounded
      rw [max_eq_left (ulpExp_ge h)]; rfl
    unfold rndIeee
    rw [e, if_pos]
    exact lt_of_le_of_lt (abs_rnd_le hb) (pow_lt_pow_right₀ (by norm_num) (by norm_num))

theorem rnd_normal_grid {x : ℚ} (h : x = 0 ∨ 2 ^ (-1022 : ℤ) ≤ |x|) : Grid (rnd x) := by
  rcases h with rfl | h
  · rw [rnd_zero]; exact grid_zero
  · exact grid_of _ _ (ulpExp_ge h)

theorem rnd_two_zpow (e : ℤ) : rnd (2 ^ e) = 2 ^ e := by
  have := isDbl_of 1 e (by norm_num)
  simpa [IsDbl] using this

theorem rnd_le_zpow {x : ℚ} {e : ℤ} (h : x ≤ 2 ^ e) : rnd x ≤ 2 ^ e := by
  have := rnd_mono h
  rwa [rnd_two_zpow] at this

/-- A tiny number stays tiny. -/
theorem rndIeee_tiny (over : ℚ → ℚ) {x : ℚ} (h0 : 0 ≤ x) (h : x < 2 ^ (-1022 : ℤ)) : 0 ≤ rndIeee over x ∧ rndIeee over x ≤ 2 ^ (-1022 : ℤ) := by
  rcases h0.eq_or_lt with rfl | hp
  · rw [rndIeee_eq over grid_zero (by rw [abs_zero]; positivity), rnd_zero]
    exact ⟨le_refl _, (two_zpow_pos _).le⟩
  have hu : ulpExp x ≤ -1074 := by
    unfold ulpExp
    rw [abs_of_pos hp]
    have := (Int.lt_zpow_iff_log_lt (b := 2) (by norm_num) hp).mp (by exact_mod_cast h)
    omega
  have e : roundBounded x = nearest (x / 2 ^ (-1074 : ℤ)) * 2 ^ (-1074 : ℤ) := by
    unfold roundBounded
    rw [max_eq_right hu]
  have e2 : ((2 : ℚ) ^ (-1022 : ℤ)) = 2 ^ 52 * 2 ^ (-1074 : ℤ) := by
    have : (-1022 : ℤ) = (52 : ℕ) + (-1074) := by norm_num
    rw [this, zpow_add₀ (by norm_num), zpow_natCast]
  have h1 : x / 2 ^ (-1074 : ℤ) ≤ ((2 ^ 52 : ℤ) : ℚ) := by
    rw [div_le_iff₀ (two_zpow_pos _)]
    rw [show (((2 ^ 52 : ℤ)) : ℚ) = 2 ^ 52 from by norm_num, ← e2]
    exact h.le
  have h2 : nearest (x / 2 ^ (-1074 : ℤ)) ≤ 2 ^ 52 := by
    have := nearest_mono h1
    rwa [nearest_int] at this
  have h3 : 0 ≤ nearest (x / 2 ^ (-1074 : ℤ)) := by
    have := nearest_mono (show ((0 : ℤ) : ℚ) ≤ x / 2 ^ (-1074 : ℤ) from by
      push_cast; exact div_nonneg h0 (two_zpow_pos _).le)
    rwa [nearest_int] at this
  have h4 : 0 ≤ roundBounded x := by
    rw [e]; exact mul_nonneg (by exact_mod_cast h3) (two_zpow_pos _).le
  have h5 : roundBounded x ≤ 2 ^ (-1022 : ℤ) := by
    rw [e, e2]
    exact mul_le_mul_of_nonneg_right (by exact_mod_cast h2) (two_zpow_pos _).le
  unfold rndIeee
  rw [if_pos]
  · exact ⟨h4, h5⟩
  · rw [abs_of_nonneg h4]
    refine lt_of_le_of_lt h5 ?_
    have : ((2 : ℚ) ^ (1024 : ℕ)) = 2 ^ (1024 : ℤ) := (zpow_natCast 2 1024).symm
    rw [this]
    exact zpow_lt_zpow_right₀ (by norm_num) (by norm_num)

variable (log : Nat → ℚ) (over : ℚ → ℚ)

theorem rnd_int_mem (z T : ℤ) (h1 : 0 ≤ z) (h2 : z ≤ T) (hT : T ≤ 2 ^ 53) : rnd z = z := by
  have := isDbl_of z 0 (by rw [abs_of_nonneg h1]; omega)
  simpa [IsDbl] using this

theorem rndIeee_int (z T : ℤ) (h1 : 0 ≤ z) (h2 : z ≤ T) (hT : T ≤ 2 ^ 53) : rndIeee over z = z := by
  have hz : ((z : ℤ) : ℚ) ≤ 2 ^ 53 := by exact_mod_cast h2.trans hT
  have h0 : (0 : ℚ) ≤ z := by exact_mod_cast h1
  rw [rndIeee_eq over, rnd_int_mem z T h1 h2 hT]
  · have := grid_of z 0 (by norm_num)
    simpa using this
  · rw [abs_of_nonneg h0]
    exact hz.trans (pow_le_pow_right₀ (by norm_num) (by norm_num))

/-- A factor `FREQ.get(seg, 1) / ftotal`. -/
theorem factor_eq (z T : ℤ) (h1 : 0 ≤ z) (h2 : z ≤ T) (hT0 : 0 < T) (hT : T ≤ 2 ^ 53) :
    rndIeee over ((z : ℚ) / T) = rnd ((z : ℚ) / T) ∧ 0 ≤ rnd ((z : ℚ) / T) ∧ rnd ((z : ℚ) / T) ≤ 1 := by
  have hTq : (0 : ℚ) < T := by exact_mod_cast hT0
  have hzq : (0 : ℚ) ≤ z := by exact_mod_cast h1
  have hle : (z : ℚ) / T ≤ 1 := by rw [div_le_one hTq]; exact_mod_cast h2
  have h0 : 0 ≤ (z : ℚ) / T := div_nonneg hzq hTq.le
  refine ⟨rndIeee_normal over ?_ ?_, rnd_nonneg h0, ?_⟩
  · rcases h1.eq_or_lt with rfl | hp
    · left; simp
    · right
      rw [abs_of_nonneg h0, le_div_iff₀ hTq]
      have : (T : ℚ) ≤ 2 ^ 53 := by exact_mod_cast hT
      have hz1 : (1 : ℚ) ≤ z := by exact_mod_cast hp
      have e : ((2 : ℚ) ^ (-1022 : ℤ)) * 2 ^ 53 ≤ 1 := by
        have : ((2 : ℚ) ^ (-1022 : ℤ)) * 2 ^ 53 = 2 ^ (-969 : ℤ) := by
          rw [← zpow_natCast, ← zpow_add₀ (by norm_num)]; norm_num
        rw [this]
        exact zpow_le_one_of_nonpos₀ (by norm_num) (by norm_num)
      exact ((mul_le_mul_of_nonneg_left this (two_zpow_pos _).le).trans e).trans hz1
  · rw [abs_of_nonneg h0]
    exact hle.trans (one_le_pow₀ (by norm_num))
  · have := rnd_le_zpow (e := 0) (by simpa using hle)
    simpa using this

/-- Equal, or both tiny. -/
def Near (a b : ℚ) : Prop := 0 ≤ a ∧ 0 ≤ b ∧ a ≤ 1 ∧ (a = b ∨ (a ≤ 2 ^ (-1022 : ℤ) ∧ b ≤ 2 ^ (-1022 : ℤ)))

theorem tiny_le_one : ((2 : ℚ) ^ (-1022 : ℤ)) ≤ 1 := zpow_le_one_of_nonpos₀ (by norm_num) (by norm_num)

theorem near_mul {a b f : ℚ} (h : Near a b) (h0 : 0 ≤ f) (h1 : f ≤ 1) : Near (rnd (a * f)) (rndIeee over (b * f)) := by
  obtain ⟨ha, hb, ha1, h⟩ := h
  have ht := tiny_le_one
  have hb1 : b ≤ 1 := by rcases h with h | h <;> linarith
  have af : a * f ≤ a := mul_le_of_le_one_right ha h1
  have bf : b * f ≤ b := mul_le_of_le_one_right hb h1
  have af0 : 0 ≤ a * f := mul_nonneg ha h0
  have bf0 : 0 ≤ b * f := mul_nonneg hb h0
  have r1 : rnd (a * f) ≤ 1 := by simpa using rnd_le_zpow (e := 0) (x := a * f) (by simpa using af.trans ha1)
  have big : |b * f| ≤ 2 ^ 1023 := by
    rw [abs_of_nonneg bf0]
    exact (bf.trans hb1).trans (one_le_pow₀ (by norm_num))
  have up : 0 ≤ rndIeee over (b * f) ∧ (b * f ≤ 2 ^ (-1022 : ℤ) → rndIeee over (b * f) ≤ 2 ^ (-1022 : ℤ)) := by
    by_cases hs : b * f < 2 ^ (-1022 : ℤ)
    · have := rndIeee_tiny over bf0 hs
      exact ⟨this.1, fun _ => this.2⟩
    · have hs' := not_lt.mp hs
      rw [rndIeee_normal over (Or.inr (by rwa [abs_of_nonneg bf0])) big]
      exact ⟨rnd_nonneg bf0, fun hle => rnd_le_zpow hle⟩
  refine ⟨rnd_nonneg af0, up.1, r1, ?_⟩
  rcases h with rfl | ⟨h2, h3⟩
  · by_cases hs : a * f < 2 ^ (-1022 : ℤ)
    · right
      exact ⟨rnd_le_zpow hs.le, up.2 hs.le⟩
    · left
      rw [rndIeee_normal over (Or.inr (by rw [abs_of_nonneg af0]; exact not_lt.mp hs)) big]
  · right
    exact ⟨rnd_le_zpow (af.trans h2), up.2 (bf.trans h3)⟩

theorem mulFreqs_near (freq : Freq) (T : ℤ) (hT0 : 0 < T) (hT : T ≤ 2 ^ 53) (hn : ∀ w v, freq.get? w = some v → 0 ≤ v ∧ v ≤ T)
    (segs : List Str) (a b : ℚ) (h : Near a b) :
    Near (mulFreqs (dblArith log) freq (rnd T) a segs) (mulFreqs (ieeeArith log over) freq (rndIeee over T) b segs) := by
  induction segs generalizing a b with
  | nil => exact h
  | cons w ws ih =>
    have hz : 0 ≤ (freq.get? w).getD 1 ∧ (freq.get? w).getD 1 ≤ T := by
      cases hw : freq.get? w with
      | none => exact ⟨by simp, by simp; omega⟩
      | some v => exact hn w v hw
    simp only [mulFreqs]
    apply ih
    obtain ⟨e1, e2, e3⟩ := factor_eq over _ T hz.1 hz.2 hT0 hT
    simp only [dblArith, ieeeArith]
    rw [rnd_int_mem _ T hz.1 hz.2 hT, rndIeee_int over _ T hz.1 hz.2 hT, rnd_int_mem T T hT0.le le_rfl hT, rndIeee_int over T T hT0.le le_rfl hT, e1]
    exact near_mul over h e2 e3

theorem expectFreq_ieee (freq : Freq) (T : ℤ) (hT0 : 0 < T) (hT : T ≤ 2 ^ 53) (hn : ∀ w v, freq.get? w = some v → 0 ≤ v ∧ v ≤ T) (segs : List Str) :
    expectFreq (ieeeArith log over) freq T segs = expectFreq (dblArith log) freq T segs := by
  unfold expectFreq
  by_cases h1 : segs = []
  · rw [if_pos h1, if_pos h1]
  rw [if_neg h1, if_neg h1, if_neg hT0.ne', if_neg hT0.ne']
  have one : Near (rnd ((1 : ℤ) : ℚ)) (rndIeee over ((1 : ℤ) : ℚ)) := by
    rw [rnd_int_mem 1 T (by norm_num) (by omega) hT, rndIeee_int over 1 T (by norm_num) (by omega) hT]
    exact ⟨by norm_num, by norm_num, by norm_num, Or.inl rfl⟩
  have hm := mulFreqs_near log over freq T hT0 hT hn segs _ _ one
  have eD : (dblArith log).ofInt = fun n : ℤ => rnd n := rfl
  have eI : (ieeeArith log over).ofInt = fun n : ℤ => rndIeee over n := rfl
  rw [eD, eI]
  simp only
  generalize mulFreqs (dblArith log) freq (rnd T) (rnd ((1 : ℤ) : ℚ)) segs = a at hm
  generalize mulFreqs (ieeeArith log over) freq (rndIeee over T) (rndIeee over ((1 : ℤ) : ℚ)) segs = b at hm
  rw [rnd_int_mem T T hT0.le le_rfl hT, rndIeee_int over T T hT0.le le_rfl hT]
  obtain ⟨ha, hb, ha1, h⟩ := hm
  have hTq : (0 : ℚ) < T := by exact_mod_cast hT0
  have hT2 : (T : ℚ) ≤ 2 ^ 53 := by exact_mod_cast hT
  have tr : ∀ x : ℚ, 0 ≤ x → x < 1 → (if 0 ≤ x then ⌊x⌋ else ⌈x⌉) = 0 := by
    intro x h0 h1
    rw [if_pos h0, Int.floor_eq_zero_iff]
    exact ⟨h0, h1⟩
  have small : ∀ x : ℚ, 0 ≤ x → x ≤ 2 ^ (-1022 : ℤ) → rndIeee over (x * T) = rnd (x * T) ∨ (rndIeee over (x * T) < 1 ∧ 0 ≤ rndIeee over (x * T)) := by
    intro x h0 hx
    by_cases hs : x * T < 2 ^ (-1022 : ℤ)
    · right
      have := rndIeee_tiny over (mul_nonneg h0 hTq.le) hs
      refine ⟨lt_of_le_of_lt this.2 ?_, this.1⟩
      exact zpow_lt_one_of_neg₀ (by norm_num) (by norm_num)
    · left
      refine rndIeee_normal over (Or.inr (by rw [abs_of_nonneg (mul_nonneg h0 hTq.le)]; exact not_lt.mp hs)) ?_
      rw [abs_of_nonneg (mul_nonneg h0 hTq.le)]
      calc x * T ≤ 1 * 2 ^ 53 := mul_le_mul (hx.trans tiny_le_one) hT2 hTq.le (by norm_num)
        _ ≤ 2 ^ 1023 := by rw [one_mul]; exact pow_le_pow_right₀ (by norm_num) (by norm_num)
  have lt1 : ∀ x : ℚ, 0 ≤ x → x ≤ 2 ^ (-1022 : ℤ) → rnd (x * T) < 1 := by
    intro x h0 hx
    have h3 : x * T ≤ 2 ^ (-969 : ℤ) := by
      have e : ((2 : ℚ) ^ (-969 : ℤ)) = 2 ^ (-1022 : ℤ) * 2 ^ 53 := by
        rw [← zpow_natCast, ← zpow_add₀ (by norm_num)]; norm_num
      rw [e]
      exact mul_le_mul hx hT2 hTq.le (two_zpow_pos _).le
    exact lt_of_le_of_lt (rnd_le_zpow h3) (zpow_lt_one_of_neg₀ (by norm_num) (by norm_num))
  have both : ∀ x y : ℚ, 0 ≤ x → 0 ≤ y → x ≤ 2 ^ (-1022 : ℤ) → y ≤ 2 ^ (-1022 : ℤ) →
      (if 0 ≤ rndIeee over (y * T) then ⌊rndIeee over (y * T)⌋ else ⌈rndIeee over (y * T)⌉) = (if 0 ≤ rnd (x * T) then ⌊rnd (x * T)⌋ else ⌈rnd (x * T)⌉) := by
    intro x y hx0 hy0 hx hy
    rw [tr (rnd (x * T)) (rnd_nonneg (mul_nonneg hx0 hTq.le)) (lt1 x hx0 hx)]
    rcases small y hy0 hy with h | ⟨h1, h2⟩
    · rw [h, tr _ (rnd_nonneg (mul_nonneg hy0 hTq.le)) (lt1 y hy0 hy)]
    · rw [tr _ h2 h1]
  congr 1
  simp only [dblArith, ieeeArith]
  rcases h with rfl | ⟨h2, h3⟩
  · by_cases hs : a < 2 ^ (-1022 : ℤ)
    · exact both a a ha ha hs.le hs.le
    · have h5 := not_lt.mp hs
      have h4 : rndIeee over (a * T) = rnd (a * T) := by
        refine rndIeee_normal over (Or.inr ?_) ?_
        · rw [abs_of_nonneg (mul_nonneg ha hTq.le)]
          have : (1 : ℚ) ≤ T := by exact_mod_cast hT0
          exact h5.trans (le_mul_of_one_le_right ha this)
        · rw [abs_of_nonneg (mul_nonneg ha hTq.le)]
          calc a * T ≤ 1 * 2 ^ 53 := mul_le_mul ha1 hT2 hTq.le (by norm_num)
            _ ≤ 2 ^ 1023 := by rw [one_mul]; exact pow_le_pow_right₀ (by norm_num) (by norm_num)
      rw [h4]
  · exact both a b ha hb h2 h3

theorem expectFreq_le (freq : Freq) (T : ℤ) (hT0 : 0 < T) (hT : T ≤ 2 ^ 53) (hn : ∀ w v, freq.get? w = some v → 0 ≤ v ∧ v ≤ T) (segs : List Str) (n : ℤ)
    (h : expectFreq (dblArith log) freq T segs = .ok n) : n ≤ T := by
  unfold expectFreq at h
  by_cases h1 : segs = []
  · rw [if_pos h1] at h
    injection h with h
    omega
  rw [if_neg h1, if_neg hT0.ne'] at h
  injection h with h
  have one : Near (rnd ((1 : ℤ) : ℚ)) (rndIeee id ((1 : ℤ) : ℚ)) := by
    rw [rnd_int_mem 1 T (by norm_num) (by omega) hT, rndIeee_int id 1 T (by norm_num) (by omega) hT]
    exact ⟨by norm_num, by norm_num, by norm_num, Or.inl rfl⟩
  obtain ⟨ha, -, ha1, -⟩ := mulFreqs_near log id freq T hT0 hT hn segs _ _ one
  have eD : (dblArith log).ofInt = fun n : ℤ => rnd n := rfl
  rw [eD] at h
  simp only at h
  generalize mulFreqs (dblArith log) freq (rnd T) (rnd ((1 : ℤ) : ℚ)) segs = a at *
  have hTq : (0 : ℚ) < T := by exact_mod_cast hT0
  rw [rnd_int_mem T T hT0.le le_rfl hT] at h
  have h2 : rnd (a * T) ≤ T := by
    have := rnd_mono (mul_le_of_le_one_left hTq.le ha1)
    rwa [rnd_int_mem T T hT0.le le_rfl hT] at this
  have h3 : 0 ≤ rnd (a * T) := rnd_nonneg (mul_nonneg ha hTq.le)
  simp only [dblArith] at h
  rw [if_pos h3] at h
  rw [← h]
  have := Int.floor_le_floor h2
  rwa [Int.floor_intCast] at this

end Jieba
