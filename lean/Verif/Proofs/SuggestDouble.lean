import Mathlib.Analysis.Complex.ExponentialBounds
import Verif.Props.Suggest
import Verif.Props.Doubles
/-!
# Frequencies suggested by `suggest_freq`, with floats
-/

namespace Jieba
open Jieba.Spec Jieba.Props

theorem rnd_lower {x : ℚ} (h : 0 ≤ x) : x * (1 - 1 / 2 ^ 53) ≤ rnd x := by
  rcases h.eq_or_lt with rfl | h
  · simp [rnd_zero]
  · have := (abs_le.mp (rnd_err_pos h)).1
    linarith

theorem rnd_int (n : ℤ) (h : |n| ≤ 2 ^ 53) : rnd (n : ℚ) = n := by
  have := isDbl_of n 0 h
  simpa [IsDbl] using this

/-- The product that `suggest_freq` forms is not much below the exact one, and not above its first factor. -/
theorem mulFreqs_dbl (log : Nat → ℚ) (freq : Freq) (hn : NonNeg freq) (total : Int) (ht : 0 < total) (hT : total ≤ 2 ^ 53)
    (hb : ∀ w x, freq.get? w = some x → x ≤ total) (segs : List Str) (acc : ℚ) (ha : 0 ≤ acc) (hd : IsDbl acc) :
    acc * (segs.map (fun s => (((freq.get? s).getD 1 : Int) : ℚ) / total)).prod * (1 - 1 / 2 ^ 53) ^ (2 * segs.length) ≤
      mulFreqs (dblArith log) freq ((dblArith log).ofInt total) acc segs ∧
    0 ≤ mulFreqs (dblArith log) freq ((dblArith log).ofInt total) acc segs ∧
    mulFreqs (dblArith log) freq ((dblArith log).ofInt total) acc segs ≤ acc := by
  induction segs generalizing acc with
  | nil => simp [mulFreqs, ha]
  | cons s segs ih =>
    have htQ : (0 : ℚ) < total := by exact_mod_cast ht
    have h0 : 0 ≤ (freq.get? s).getD 1 ∧ (freq.get? s).getD 1 ≤ total := by
      cases hx : PyDict.get? freq s with
      | none => simp; omega
      | some y => exact ⟨hn s y hx, hb s y hx⟩
    generalize hg : (freq.get? s).getD 1 = g at h0
    have e1 : (dblArith log).ofInt total = total := rnd_int _ (by rw [abs_of_pos ht]; exact hT)
    have e2 : (dblArith log).ofInt g = g := rnd_int _ (by rw [abs_of_nonneg h0.1]; omega)
    have hq0 : (0 : ℚ) ≤ g / total := div_nonneg (by exact_mod_cast h0.1) htQ.le
    have hq1 : (g : ℚ) / total ≤ 1 := by rw [div_le_one htQ]; exact_mod_cast h0.2
    have r1 : rnd (1 : ℚ) = 1 := by simpa using rnd_int 1 (by norm_num)
    have hr0 := rnd_nonneg hq0
    have hr1 : rnd ((g : ℚ) / total) ≤ 1 := by rw [← r1]; exact rnd_mono hq1
    have hrl := rnd_lower hq0
    have hm0 : 0 ≤ acc * rnd ((g : ℚ) / total) := mul_nonneg ha hr0
    have hstep : mulFreqs (dblArith log) freq ((dblArith log).ofInt total) acc (s :: segs) =
        mulFreqs (dblArith log) freq ((dblArith log).ofInt total) (rnd (acc * rnd ((g : ℚ) / total))) segs := by
      rw [mulFreqs, hg, e2, e1]; rfl
    rw [hstep]
    obtain ⟨i1, i2, i3⟩ := ih (rnd (acc * rnd ((g : ℚ) / total))) (rnd_nonneg hm0) (isDbl_rnd _)
    have hle : rnd (acc * rnd ((g : ℚ) / total)) ≤ acc := by
      calc rnd (acc * rnd ((g : ℚ) / total)) ≤ rnd acc := rnd_mono (mul_le_of_le_one_right ha hr1)
        _ = acc := hd
    refine ⟨le_trans ?_ i1, i2, le_trans i3 hle⟩
    have hc : (0 : ℚ) ≤ 1 - 1 / 2 ^ 53 := by norm_num
    have hP : 0 ≤ (segs.map (fun s => (((freq.get? s).getD 1 : Int) : ℚ) / total)).prod := by
      apply List.prod_nonneg
      intro a hmem
      obtain ⟨w, -, rfl⟩ := List.mem_map.mp hmem
      refine div_nonneg ?_ htQ.le
      cases hx : PyDict.get? freq w with
      | none => simp
      | some y => simpa using (by exact_mod_cast hn w y hx : (0 : ℚ) ≤ y)
    rw [List.map_cons, List.prod_cons, hg, List.length_cons]
    generalize (segs.map (fun s => (((freq.get? s).getD 1 : Int) : ℚ) / total)).prod = P at hP
    have hl2 : acc * ((g : ℚ) / total) * (1 - 1 / 2 ^ 53) ^ 2 ≤ rnd (acc * rnd ((g : ℚ) / total)) := by
      have := rnd_lower hm0
      refine le_trans ?_ this
      have : acc * ((g : ℚ) / total * (1 - 1 / 2 ^ 53)) ≤ acc * rnd ((g : ℚ) / total) := mul_le_mul_of_nonneg_left hrl ha
      calc acc * ((g : ℚ) / total) * (1 - 1 / 2 ^ 53) ^ 2 = acc * ((g : ℚ) / total * (1 - 1 / 2 ^ 53)) * (1 - 1 / 2 ^ 53) := by ring
        _ ≤ _ := mul_le_mul_of_nonneg_right this hc
    calc acc * ((g : ℚ) / total * P) * (1 - 1 / 2 ^ 53) ^ (2 * (segs.length + 1))
        = acc * ((g : ℚ) / total) * (1 - 1 / 2 ^ 53) ^ 2 * (P * (1 - 1 / 2 ^ 53) ^ (2 * segs.length)) := by
          rw [Nat.mul_add, pow_add]; ring
      _ ≤ rnd (acc * rnd ((g : ℚ) / total)) * (P * (1 - 1 / 2 ^ 53) ^ (2 * segs.length)) :=
          mul_le_mul_of_nonneg_right hl2 (mul_nonneg hP (pow_nonneg hc _))
      _ = _ := by ring

/-- What `int(freq * total)` is then. -/
theorem expectFreq_dbl (log : Nat → ℚ) (freq : Freq) (hn : NonNeg freq) (total : Int) (ht : 0 < total) (hT : total ≤ 2 ^ 53)
    (hb : ∀ w x, freq.get? w = some x → x ≤ total) (segs : List Str) (hne : segs ≠ []) :
    ∃ n, expectFreq (dblArith log) freq total segs = .ok n ∧ 0 ≤ n ∧ n ≤ total ∧
      ((segs.map (fun s => (((freq.get? s).getD 1 : Int) : ℝ) / total)).prod * total * (1 - 1 / 2 ^ 53) ^ (2 * segs.length + 1) ≤ n + 1) := by
  have htQ : (0 : ℚ) < total := by exact_mod_cast ht
  have e1 : (dblArith log).ofInt total = total := rnd_int _ (by rw [abs_of_pos ht]; exact hT)
  have e2 : (dblArith log).ofInt 1 = 1 := by
    have := rnd_int 1 (by norm_num)
    simpa [dblArith] using this
  have d1 : IsDbl (1 : ℚ) := by
    have := rnd_int 1 (by norm_num)
    simpa [IsDbl] using this
  obtain ⟨h1, h2, h3⟩ := mulFreqs_dbl log freq hn total ht hT hb segs 1 (by norm_num) d1
  unfold expectFreq
  rw [if_neg hne, if_neg ht.ne', e2]
  generalize mulFreqs (dblArith log) freq ((dblArith log).ofInt total) 1 segs = Q at h1 h2 h3
  rw [e1]
  have hx0 : 0 ≤ Q * total := mul_nonneg h2 htQ.le
  have hr0 := rnd_nonneg hx0
  have hr1 : rnd (Q * total) ≤ total := by
    have : rnd (total : ℚ) = total := rnd_int _ (by rw [abs_of_pos ht]; exact hT)
    rw [← this]
    refine rnd_mono ?_
    rw [this]
    exact mul_le_of_le_one_left htQ.le h3
  have hrl := rnd_lower hx0
  have htr : (dblArith log).trunc ((dblArith log).mul Q total) = ⌊rnd (Q * total)⌋ := by
    show (if 0 ≤ rnd (Q * total) then ⌊rnd (Q * total)⌋ else _) = _
    rw [if_pos hr0]
  rw [htr]
  refine ⟨_, rfl, Int.floor_nonneg.mpr hr0, ?_, ?_⟩
  · have : (⌊rnd (Q * total)⌋ : ℚ) ≤ total := le_trans (Int.floor_le _) hr1
    exact_mod_cast this
  · have hlt := (Int.lt_floor_add_one (rnd (Q * total))).le
    have hc : (0 : ℚ) ≤ 1 - 1 / 2 ^ 53 := by norm_num
    have key : (segs.map (fun s => (((freq.get? s).getD 1 : Int) : ℚ) / total)).prod * total * (1 - 1 / 2 ^ 53) ^ (2 * segs.length + 1) ≤
        (⌊rnd (Q * total)⌋ : ℚ) + 1 := by
      refine le_trans ?_ (le_trans hrl hlt)
      rw [one_mul] at h1
      have := mul_le_mul_of_nonneg_right (mul_le_mul_of_nonneg_right h1 htQ.le) hc
      refine le_trans (le_of_eq ?_) this
      ring
    have hcast : (((segs.map (fun s => (((freq.get? s).getD 1 : Int) : ℚ) / total)).prod : ℚ) : ℝ) =
        (segs.map (fun s => (((freq.get? s).getD 1 : Int) : ℝ) / total)).prod := by
      rw [Rat.cast_list_prod, List.map_map]
      congr 1
      apply List.map_congr_left
      intro s _
      simp
    have := (Rat.cast_le (K := ℝ)).mpr key
    push_cast at this
    rw [← hcast]
    push_cast
    exact this

/-- A word that is more probable than its other segmentations by more than the rounding is the best path in floats as well. -/
theorem isBest_dbl (log : Nat → ℚ) (hlog : GoodLog log) (freq : Freq) (total : Int) (hn : NonNeg freq) (ht : 0 < total) (N : ℕ)
    (hN : total ≤ N) (hf : ∀ w v, freq.get? w = some v → v ≤ N) (v : Str) (hv : v ≠ []) (hw : DictWord freq v) (hlen : v.length + 3 ≤ 2 ^ 52)
    (hclear : ∀ other, Admissible freq v other → other ≠ [v] →
      segProb freq total other * Real.exp (Real.log N / 2 ^ 51 * (v.length * (v.length + 6))) < segProb freq total [v]) :
    IsBest (dblArith log) freq total v [v] := by
  refine ⟨⟨hv, List.prefix_refl _, Or.inl hw⟩, by rw [List.drop_length]; rfl, ?_⟩
  intro w ws hadm
  by_cases ho : w :: ws = [v]
  · right
    rw [ho]
    exact ⟨rfl, hadm.1.2.1.length_le⟩
  · left
    have hc := hclear _ hadm ho
    obtain ⟨p1, e1⟩ := segScore_real freq hn total ht (w :: ws)
    obtain ⟨p2, e2⟩ := segScore_real freq hn total ht [v]
    have hl := Real.log_lt_log (mul_pos p1 (Real.exp_pos _)) hc
    rw [Real.log_mul p1.ne' (Real.exp_pos _).ne', Real.log_exp, ← e1, ← e2] at hl
    have hk1 := admissible_length freq _ v hadm
    have hk2 : ([v] : List Str).length ≤ v.length := List.length_pos_iff.mpr hv
    have hL : 0 ≤ Real.log N := Real.log_nonneg (by have : 1 ≤ N := by omega
                                                    exact_mod_cast this)
    have bnd : ∀ l : List Str, l.length ≤ v.length →
        |((segScore (dblArith log) freq total l : ℚ) : ℝ) - segScore realArith freq total l| ≤
          Real.log N / 2 ^ 52 * (v.length * (v.length + 6)) := by
      intro l hl
      refine le_trans (segScore_err log hlog freq hn total ht N hN hf l (by omega)).2 ?_
      have h1 : (l.length : ℝ) ≤ v.length := by exact_mod_cast hl
      have h0 : (0 : ℝ) ≤ l.length := Nat.cast_nonneg _
      exact mul_le_mul_of_nonneg_left (by nlinarith) (div_nonneg hL (by norm_num))
    have b1 := (abs_le.mp (bnd _ hk1)).2
    have b2 := (abs_le.mp (bnd _ hk2)).1
    have : ((segScore (dblArith log) freq total (w :: ws) : ℚ) : ℝ) < (segScore (dblArith log) freq total [v] : ℚ) := by
      have e : Real.log N / 2 ^ 51 * (v.length * (v.length + 6)) = 2 * (Real.log N / 2 ^ 52 * (v.length * (v.length + 6))) := by
        have : (2 : ℝ) ^ 52 = 2 * 2 ^ 51 := by norm_num
        rw [this]; field_simp
      rw [e] at hl
      linarith
    exact_mod_cast this

/-- The numbers: the rounding is less than what the new word adds to the total. -/
theorem margin (n : ℕ) (hn : n ≤ 900) (T : ℝ) (hT0 : 0 < T) (hT : T + 1 ≤ 2 ^ 26) (f : ℝ) (hf : 1 ≤ f) (k : ℕ) (hk : k ≤ 2 * n + 1) :
    T / (T + f) * (Real.exp (Real.log ((2 ^ 27 : ℕ) : ℝ) / 2 ^ 51 * (n * (n + 6))) * Real.exp (Real.log ((2 ^ 27 : ℕ) : ℝ) / 2 ^ 51 * (n * (n + 6)))) <
      (1 - 1 / 2 ^ 53) ^ k := by
  have hlog : Real.log ((2 ^ 27 : ℕ) : ℝ) ≤ 18.9 := by
    rw [show ((2 ^ 27 : ℕ) : ℝ) = 2 ^ 27 by norm_num, Real.log_pow]
    have := Real.log_two_lt_d9
    push_cast
    linarith
  have hlog0 : 0 ≤ Real.log ((2 ^ 27 : ℕ) : ℝ) := Real.log_nonneg (by norm_num)
  have hnR : (n : ℝ) ≤ 900 := by exact_mod_cast hn
  have hn0 : (0 : ℝ) ≤ n := Nat.cast_nonneg _
  rw [← Real.exp_add]
  set y := Real.log ((2 ^ 27 : ℕ) : ℝ) / 2 ^ 51 * (n * (n + 6)) + Real.log ((2 ^ 27 : ℕ) : ℝ) / 2 ^ 51 * (n * (n + 6)) with hy
  have hy1 : y ≤ 1.38 / 10 ^ 8 := by
    have h1 : (n : ℝ) * (n + 6) ≤ 900 * 906 := by nlinarith
    have h2 : Real.log ((2 ^ 27 : ℕ) : ℝ) / 2 ^ 51 * (n * (n + 6)) ≤ 18.9 / 2 ^ 51 * (900 * 906) := by
      apply mul_le_mul _ h1 (by positivity) (by positivity)
      exact div_le_div_of_nonneg_right hlog (by positivity)
    rw [hy]
    refine le_trans (add_le_add h2 h2) ?_
    norm_num
  have hexp : Real.exp y ≤ 1 / (1 - y) := by
    have h := Real.add_one_le_exp (-y)
    have h1 : 0 < 1 - y := by linarith
    rw [Real.exp_neg] at h
    rw [le_div_iff₀ h1]
    have h3 := Real.exp_pos y
    have := mul_le_mul_of_nonneg_left (show 1 - y ≤ (Real.exp y)⁻¹ by linarith) h3.le
    rwa [mul_inv_cancel₀ h3.ne'] at this
  have hpow : 1 - 1801 / 2 ^ 53 ≤ ((1 : ℝ) - 1 / 2 ^ 53) ^ k := by
    have h := one_add_mul_le_pow (a := -(1 / 2 ^ 53 : ℝ)) (by norm_num) k
    have hkR : (k : ℝ) ≤ 1801 := by
      have : k ≤ 1801 := by omega
      exact_mod_cast this
    have e : (1 : ℝ) - 1 / 2 ^ 53 = 1 + -(1 / 2 ^ 53) := by ring
    rw [e]
    refine le_trans ?_ h
    have : (k : ℝ) * (1 / 2 ^ 53) ≤ 1801 * (1 / 2 ^ 53) := mul_le_mul_of_nonneg_right hkR (by positivity)
    linarith
  have hr : T / (T + f) ≤ 1 - 1 / 2 ^ 26 := by
    rw [div_le_iff₀ (by linarith)]
    nlinarith
  refine lt_of_lt_of_le ?_ hpow
  have hy2 : 0 < 1 - y := by linarith
  calc T / (T + f) * Real.exp y ≤ (1 - 1 / 2 ^ 26) * (1 / (1 - y)) :=
        mul_le_mul hr hexp (Real.exp_pos _).le (by norm_num)
    _ < 1 - 1801 / 2 ^ 53 := by
        rw [mul_one_div, div_lt_iff₀ hy2]
        have : (1 - 1801 / 2 ^ 53 : ℝ) * (1 - 1.38 / 10 ^ 8) ≤ (1 - 1801 / 2 ^ 53) * (1 - y) :=
          mul_le_mul_of_nonneg_left (by linarith) (by norm_num)
        refine lt_of_lt_of_le ?_ this
        norm_num

end Jieba
