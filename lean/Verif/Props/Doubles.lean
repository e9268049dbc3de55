import Mathlib.Analysis.SpecialFunctions.Log.Basic
import Verif.Props.Segmentation
import Verif.Proofs.HmmUnknown
import Verif.Proofs.Recut
import Verif.Spec.Exact
/-!
# C90, C91 — segmentation with the floats that Python has
-/

namespace Jieba.Props
open Jieba Jieba.Spec Jieba.FinalSeg

/-! ## C90 -/

/-- A logarithm with an error of at most one unit in the last place (2^-52 of the result). -/
def GoodLog (log : Nat → ℚ) : Prop := ∀ n : ℕ, 1 ≤ n → |((log n : ℚ) : ℝ) - Real.log n| ≤ Real.log n / 2 ^ 52

theorem rnd_err_real (x : ℚ) : |((rnd x : ℚ) : ℝ) - (x : ℝ)| ≤ |(x : ℝ)| / 2 ^ 52 := by
  have h := rnd_err x
  have h' : (((|rnd x - x| : ℚ)) : ℝ) ≤ ((|x| / 2 ^ 53 : ℚ) : ℝ) := by exact_mod_cast h
  push_cast at h'
  refine le_trans h' ?_
  have := abs_nonneg (x : ℝ)
  rw [div_le_div_iff₀ (by norm_num) (by norm_num)]
  nlinarith

/-- How far the score in floats is from the exact one. -/
theorem segScore_err (log : Nat → ℚ) (hlog : GoodLog log) (freq : Freq) (hn : NonNeg freq) (total : Int) (ht : 0 < total) (N : ℕ)
    (hN : total ≤ N) (hf : ∀ w v, freq.get? w = some v → v ≤ N) (ws : List Str) (hk : ws.length + 3 ≤ 2 ^ 52) :
    |segScore realArith freq total ws| ≤ ws.length * Real.log N ∧
    |((segScore (dblArith log) freq total ws : ℚ) : ℝ) - segScore realArith freq total ws| ≤
      Real.log N / 2 ^ 52 * (ws.length * (ws.length + 6)) := by
  have hN1 : 1 ≤ N := by omega
  have hL : 0 ≤ Real.log N := Real.log_nonneg (by exact_mod_cast hN1)
  have bound : ∀ z : Int, 0 < z → z ≤ N → 0 ≤ Real.log z.toNat ∧ Real.log z.toNat ≤ Real.log N ∧
      |((log z.toNat : ℚ) : ℝ) - Real.log z.toNat| ≤ Real.log N / 2 ^ 52 := by
    intro z h0 h1
    have e1 : 1 ≤ z.toNat := by omega
    have e2 : z.toNat ≤ N := by omega
    have h3 : Real.log z.toNat ≤ Real.log N := Real.log_le_log (by exact_mod_cast e1) (by exact_mod_cast e2)
    refine ⟨Real.log_nonneg (by exact_mod_cast e1), h3, le_trans (hlog _ e1) ?_⟩
    exact div_le_div_of_nonneg_right h3 (by norm_num)
  induction ws with
  | nil => simp [segScore, realArith, dblArith]
  | cons w ws ih =>
    obtain ⟨ih1, ih2⟩ := ih (by simp at hk; omega)
    have hs := scoreFreq_pos freq hn w
    have hsN : scoreFreq freq w ≤ N := by
      unfold scoreFreq
      cases h : freq.get? w with
      | none => simp only; omega
      | some v => simp only; have := hf w v h; split <;> omega
    obtain ⟨a1, a2, a3⟩ := bound _ hs hsN
    obtain ⟨b1, b2, b3⟩ := bound _ ht hN
    have eR : segScore realArith freq total (w :: ws) =
      (Real.log (scoreFreq freq w).toNat - Real.log total.toNat) + segScore realArith freq total ws := rfl
    have eD : segScore (dblArith log) freq total (w :: ws) =
      rnd (rnd (log (scoreFreq freq w).toNat - log total.toNat) + segScore (dblArith log) freq total ws) := rfl
    rw [eR, eD]
    set L := Real.log N
    set f := Real.log (scoreFreq freq w).toNat
    set t := Real.log total.toNat
    set f' := log (scoreFreq freq w).toNat
    set t' := log total.toNat
    set S := segScore realArith freq total ws
    set S' := segScore (dblArith log) freq total ws
    have r1 := rnd_err_real (f' - t')
    set d' := rnd (f' - t')
    have r2 := rnd_err_real (d' + S')
    set e' := rnd (d' + S')
    push_cast at r1 r2
    simp only [List.length_cons]
    push_cast
    have hK : (ws.length : ℝ) + 4 ≤ 2 ^ 52 := by
      have : ws.length + 4 ≤ 2 ^ 52 := by simp at hk; omega
      exact_mod_cast this
    have hK0 : (0 : ℝ) ≤ ws.length := Nat.cast_nonneg _
    set K : ℝ := (ws.length : ℝ)
    have ft : |f - t| ≤ L := by rw [abs_le]; constructor <;> linarith
    constructor
    · calc |f - t + S| ≤ |f - t| + |S| := abs_add_le _ _
        _ ≤ (K + 1) * L := by linarith
    · -- the term of one word
      have u1 : |((f' : ℝ) - t') - (f - t)| ≤ 2 * (L / 2 ^ 52) := by
        have : ((f' : ℝ) - t') - (f - t) = ((f' : ℝ) - f) - ((t' : ℝ) - t) := by ring
        rw [this]
        refine le_trans (abs_sub _ _) ?_
        linarith
      have u2 : |(f' : ℝ) - t'| ≤ L + 2 * (L / 2 ^ 52) := by
        have := abs_sub_abs_le_abs_sub ((f' : ℝ) - t') (f - t)
        linarith
      have u3 : |(d' : ℝ) - (f - t)| ≤ 4 * (L / 2 ^ 52) := by
        have e : (d' : ℝ) - (f - t) = ((d' : ℝ) - ((f' : ℝ) - t')) + (((f' : ℝ) - t') - (f - t)) := by ring
        rw [e]
        refine le_trans (abs_add_le _ _) ?_
        have : |(f' : ℝ) - t'| / 2 ^ 52 ≤ (L + 2 * (L / 2 ^ 52)) / 2 ^ 52 := div_le_div_of_nonneg_right u2 (by norm_num)
        have e2 : (L + 2 * (L / 2 ^ 52)) / 2 ^ 52 ≤ 2 * (L / 2 ^ 52) := by
          have : 2 * (L / 2 ^ 52) ≤ L := by linarith
          have : (L + 2 * (L / 2 ^ 52)) / 2 ^ 52 ≤ (L + L) / 2 ^ 52 := div_le_div_of_nonneg_right (by linarith) (by norm_num)
          linarith
        linarith
      set q := L / 2 ^ 52 with hq
      have hq0 : 0 ≤ q := div_nonneg hL (by norm_num)
      have hLq : L = 2 ^ 52 * q := by rw [hq]; field_simp
      have u4 : |(d' : ℝ) + S' - (f - t + S)| ≤ 4 * q + q * (K * (K + 6)) := by
        have e : (d' : ℝ) + S' - (f - t + S) = ((d' : ℝ) - (f - t)) + ((S' : ℝ) - S) := by ring
        rw [e]
        refine le_trans (abs_add_le _ _) ?_
        linarith
      have u5 : |(d' : ℝ) + S'| ≤ (K + 1) * L + (4 * q + q * (K * (K + 6))) := by
        have := abs_sub_abs_le_abs_sub ((d' : ℝ) + S') (f - t + S)
        have : |f - t + S| ≤ |f - t| + |S| := abs_add_le _ _
        linarith
      have u6 : |(d' : ℝ) + S'| / 2 ^ 52 ≤ q * (2 * K + 3) := by
        rw [div_le_iff₀ (by norm_num)]
        refine le_trans u5 ?_
        rw [hLq]
        have h1 : q * (K * (K + 6)) ≤ q * ((K + 2 - 4 / 2 ^ 52) * 2 ^ 52) := by
          apply mul_le_mul_of_nonneg_left _ hq0
          nlinarith
        nlinarith
      have e : (e' : ℝ) - (f - t + S) = ((e' : ℝ) - ((d' : ℝ) + S')) + ((d' : ℝ) + S' - (f - t + S)) := by ring
      rw [e]
      refine le_trans (abs_add_le _ _) ?_
      have : q * ((K + 1) * (K + 1 + 6)) = q * (2 * K + 3) + (4 * q + q * (K * (K + 6))) := by ring
      linarith

theorem admissible_length (freq : Freq) (ws : List Str) (s : Str) (h : Admissible freq s ws) : ws.length ≤ s.length := by
  induction ws generalizing s with
  | nil => simp
  | cons w ws ih =>
    obtain ⟨⟨h1, h2, -⟩, h3⟩ := h
    have := ih _ h3
    have hw := List.length_pos_iff.mpr h1
    have := h2.length_le
    rw [List.length_drop] at *
    simp only [List.length_cons]
    omega

/-- C90: with Python's floats, the segmentation of a run of `n` characters that `cut(HMM=False)` chooses is as probable as any other up to
the factor exp(2^-51 · log N · n(n+6)), where `N` bounds total and frequencies.  For N = 10^8 and n = 1000 it is below 1.00000001. -/
theorem C90_almost_best (log : Nat → ℚ) (hlog : GoodLog log) (freq : Freq) (total : Int) (T : FinalSeg.Tables ℚ) (force : List Str)
    (hp : PrefixClosed freq) (hn : NonNeg freq) (ht : 0 < total) (N : ℕ) (hN : total ≤ N) (hf : ∀ w v, freq.get? w = some v → v ≤ N)
    (s : Str) (hne : s ≠ []) (hs : ∀ c ∈ s, isWordCh c = true ∧ isAlnum c = false) (hlen : s.length + 3 ≤ 2 ^ 52) :
    ∃ ts, cut ⟨dblArith log, freq, total, T, force⟩ false false s = Gen.ok ts ∧ Admissible freq s ts ∧
      ∀ other, Admissible freq s other →
        segProb freq total other ≤ segProb freq total ts * Real.exp (Real.log N / 2 ^ 51 * (s.length * (s.length + 6))) := by
  obtain ⟨ts, h1, h2, h3⟩ := C04_cut_optimal ⟨dblArith log, freq, total, T, force⟩ (dbl_mono log) hp hn ht s hne hs
  refine ⟨ts, h1, h2, ?_⟩
  intro other ho
  have h := h3 other ho
  simp only at h
  have hL : 0 ≤ Real.log N := Real.log_nonneg (by have : 1 ≤ N := by omega
                                                  exact_mod_cast this)
  have err : ∀ ws, Admissible freq s ws → |((segScore (dblArith log) freq total ws : ℚ) : ℝ) - segScore realArith freq total ws| ≤
      Real.log N / 2 ^ 52 * (s.length * (s.length + 6)) := by
    intro ws hw
    have hl := admissible_length freq ws s hw
    refine le_trans (segScore_err log hlog freq hn total ht N hN hf ws (by omega)).2 ?_
    apply mul_le_mul_of_nonneg_left _ (div_nonneg hL (by norm_num))
    have hl' : (ws.length : ℝ) ≤ s.length := by exact_mod_cast hl
    have : (0 : ℝ) ≤ ws.length := Nat.cast_nonneg _
    nlinarith
  have e1 := abs_le.mp (err other ho)
  have e2 := abs_le.mp (err ts h2)
  obtain ⟨p1, q1⟩ := segScore_real freq hn total ht other
  obtain ⟨p2, q2⟩ := segScore_real freq hn total ht ts
  have h' : ((segScore (dblArith log) freq total other : ℚ) : ℝ) ≤ ((segScore (dblArith log) freq total ts : ℚ) : ℝ) := by exact_mod_cast h
  have hfin : Real.log (segProb freq total other) ≤ Real.log (segProb freq total ts) + Real.log N / 2 ^ 51 * (s.length * (s.length + 6)) := by
    rw [← q1, ← q2]
    have : Real.log N / 2 ^ 51 * (s.length * (s.length + 6)) = 2 * (Real.log N / 2 ^ 52 * ((s.length : ℝ) * (s.length + 6))) := by ring
    linarith [e1.1, e1.2, e2.1, e2.2]
  rw [← Real.log_exp (Real.log N / 2 ^ 51 * (s.length * (s.length + 6))), ← Real.log_mul p2.ne' (Real.exp_pos _).ne'] at hfin
  exact (Real.log_le_log_iff p1 (mul_pos p2 (Real.exp_pos _))).mp hfin

/-- C90: so a segmentation that is more probable than all others by more than this factor is the one that is chosen. -/
theorem C90_clear_best (log : Nat → ℚ) (hlog : GoodLog log) (freq : Freq) (total : Int) (T : FinalSeg.Tables ℚ) (force : List Str)
    (hp : PrefixClosed freq) (hn : NonNeg freq) (ht : 0 < total) (N : ℕ) (hN : total ≤ N) (hf : ∀ w v, freq.get? w = some v → v ≤ N)
    (s : Str) (hne : s ≠ []) (hs : ∀ c ∈ s, isWordCh c = true ∧ isAlnum c = false) (hlen : s.length + 3 ≤ 2 ^ 52) (best : List Str)
    (hb : Admissible freq s best) (hclear : ∀ other, Admissible freq s other → other ≠ best →
      segProb freq total other * Real.exp (Real.log N / 2 ^ 51 * (s.length * (s.length + 6))) < segProb freq total best) :
    cut ⟨dblArith log, freq, total, T, force⟩ false false s = Gen.ok best := by
  obtain ⟨ts, h1, h2, h3⟩ := C90_almost_best log hlog freq total T force hp hn ht N hN hf s hne hs hlen
  by_contra hne'
  have h4 : ts ≠ best := by rintro rfl; exact hne' h1
  exact absurd (h3 best hb) (not_le.mpr (hclear ts h2 h4))

/-- There are such logarithms. -/
theorem exists_goodLog : ∃ log, GoodLog log := by
  have : ∀ n : ℕ, ∃ q : ℚ, 1 ≤ n → |(q : ℝ) - Real.log n| ≤ Real.log n / 2 ^ 52 := by
    intro n
    rcases Nat.lt_or_ge n 2 with h | h
    · refine ⟨0, fun h1 => ?_⟩
      have : n = 1 := by omega
      subst this; simp
    · have hl : 0 < Real.log n := Real.log_pos (by exact_mod_cast h)
      obtain ⟨q, h1, h2⟩ := exists_rat_btwn (show Real.log n < Real.log n + Real.log n / 2 ^ 52 by linarith [div_pos hl (show (0 : ℝ) < 2 ^ 52 by norm_num)])
      exact ⟨q, fun _ => by rw [abs_le]; constructor <;> linarith [div_pos hl (show (0 : ℝ) < 2 ^ 52 by norm_num)]⟩
  choose log hlog using this
  exact ⟨log, hlog⟩

/-- The hypotheses of `C90_almost_best`. -/
example : ∃ log, GoodLog log ∧ PrefixClosed sampleFreq ∧ NonNeg sampleFreq ∧ (161 : Int) ≤ (161 : ℕ) ∧
    (∀ w v, sampleFreq.get? w = some v → v ≤ (161 : ℕ)) ∧ (∀ c ∈ lit ['北', '京', '大', '学'], isWordCh c = true ∧ isAlnum c = false) := by
  obtain ⟨log, h⟩ := exists_goodLog
  refine ⟨log, h, sample_prefixClosed, nonNeg_of_all _ (by decide), by decide, ?_, by decide⟩
  intro w v hv
  have key : ∀ kv ∈ sampleFreq, kv.2 ≤ 161 := by decide
  exact_mod_cast key (w, v) ((PyDict.get?_eq_some_iff_mem _ (by decide) _ _).mp hv)

/-- C90: `int(x)` (used by `suggest_freq`) drops the fraction: it rounds towards zero. -/
theorem C90_int (log : Nat → ℚ) (x : ℚ) :
    (0 ≤ x → 0 ≤ (dblArith log).trunc x ∧ ((dblArith log).trunc x : ℚ) ≤ x ∧ x < (dblArith log).trunc x + 1) ∧
    (x ≤ 0 → (dblArith log).trunc x ≤ 0 ∧ x ≤ ((dblArith log).trunc x : ℚ) ∧ ((dblArith log).trunc x : ℚ) - 1 < x) := by
  show (0 ≤ x → 0 ≤ (if 0 ≤ x then ⌊x⌋ else ⌈x⌉) ∧ _) ∧ (x ≤ 0 → (if 0 ≤ x then ⌊x⌋ else ⌈x⌉) ≤ 0 ∧ _)
  simp only [dblArith]
  constructor
  · intro h
    rw [if_pos h]
    exact ⟨Int.floor_nonneg.mpr h, Int.floor_le x, Int.lt_floor_add_one x⟩
  · intro h
    by_cases h0 : 0 ≤ x
    · have : x = 0 := le_antisymm h h0
      subst this
      simp
    · rw [if_neg h0]
      refine ⟨Int.ceil_le.mpr (by simpa using h), Int.le_ceil x, ?_⟩
      have := Int.ceil_lt_add_one x
      linarith

/-- Python's floats are monotone, as C04 and C09 assume. -/
theorem C90_floats_monotone (log : Nat → ℚ) : MonoAdd (dblArith log) := dbl_mono log

/-! ## C91 -/

theorem wordsByTags_append (l r : List (Ch × St)) (acc : Str) (h : ∀ q, l.getLast? = some q → q.2 = .E ∨ q.2 = .S) (hacc : l = [] → acc = []) :
    wordsByTags (l ++ r) acc = wordsByTags l acc ++ wordsByTags r [] := by
  induction l generalizing acc with
  | nil => rw [hacc rfl]; simp [wordsByTags]
  | cons p l ih =>
    obtain ⟨c, t⟩ := p
    have hl : ∀ q, l.getLast? = some q → q.2 = .E ∨ q.2 = .S := by
      intro q hq
      apply h
      cases l with
      | nil => simp at hq
      | cons p l => rw [List.getLast?_cons_cons]; exact hq
    simp only [List.cons_append, wordsByTags]
    by_cases ht : t = .E ∨ t = .S
    · rw [if_pos ht, if_pos ht, ih [] hl (fun _ => rfl), List.cons_append]
    · rw [if_neg ht, if_neg ht]
      refine ih _ hl ?_
      rintro rfl
      exact absurd (h (c, t) rfl) ht

theorem wordsByTags_flatten (l : List (Ch × St)) (acc : Str) : (wordsByTags l acc).flatten = acc ++ l.map Prod.fst := by
  induction l generalizing acc with
  | nil => simp only [wordsByTags]; split <;> simp_all
  | cons p l ih =>
    obtain ⟨c, t⟩ := p
    simp only [wordsByTags]
    split
    · simp [ih]
    · rw [ih]; simp

theorem wordsByTags_singles (s : Str) (n : Nat) (h : n = s.length) : wordsByTags (s.zip (List.replicate n St.S)) [] = s.map (fun c => [c]) := by
  subst h
  induction s with
  | nil => rfl
  | cons c s ih =>
    simp only [List.length_cons, List.replicate_succ, List.zip_cons_cons, wordsByTags, List.map_cons, List.nil_append]
    rw [if_pos (by simp), ih]

theorem flatten_force (force : List Str) (l : List Str) :
    (l.flatMap (fun w => if w ∉ force then [w] else w.map (fun c => [c]))).flatten = l.flatten := by
  induction l with
  | nil => rfl
  | cons w l ih =>
    rw [List.flatMap_cons, List.flatten_append, ih, List.flatten_cons]
    congr 1
    split
    · simp
    · exact flatten_map_singleton w

/-- C91: in a run of Han characters, from the character before the first one that the HMM does not know, every character is a token of its
own, whatever the tables say about it. -/
theorem C91_unknown_character (log : Nat → ℚ) (T : FinalSeg.Tables ℚ) (hT : Moderate T) (force : List Str) (a : Str) (c : Ch) (b : Str)
    (hhan : ∀ x ∈ a ++ c :: b, isHan x = true) (ha : ∀ x ∈ a, (T.emit .S x).isSome = true) (hc : ∀ y, T.emit y c = none)
    (hb : ∀ x ∈ b, (T.emit .S x).isSome = true ∨ ∀ y, T.emit y x = none) (hlen : a.length ≤ 2 ^ 50) :
    ∃ ws, FinalSeg.cut (dblArith log) T force (a ++ c :: b) = Gen.ok (ws ++ (a.drop (a.length - 1) ++ c :: b).map (fun x => [x])) ∧
      ws.flatten = a.take (a.length - 1) := by
  have hne : a ++ c :: b ≠ [] := by simp
  obtain ⟨p, before, hv, hbl, hlast⟩ := viterbi_unknown log hT a c b ha hc hb hlen
  -- the tags
  have hst : ValidTags (before ++ List.replicate (b.length + 1) .S) := by
    cases hs : a ++ c :: b with
    | nil => exact absurd hs hne
    | cons x xs =>
      obtain ⟨p', tags, e1, -, e3⟩ := viterbi_struct (dblArith log) T x xs
      rw [← hs, hv] at e1
      cases e1
      exact e3
  -- the words
  have hw : hmmCut (dblArith log) T (a ++ c :: b) = Gen.ok (wordsByTags ((a ++ c :: b).zip (before ++ List.replicate (b.length + 1) .S)) []) := by
    obtain ⟨tags, hbt, hcut⟩ := hmmCut_words (dblArith log) (dbl_mono log) T (a ++ c :: b) hne
    unfold hmmCut
    rw [hv]
    show Gen.ok _ = _
    congr 1
    have hz : ((a ++ c :: b).zip (before ++ List.replicate (b.length + 1) .S)).map Prod.snd = before ++ List.replicate (b.length + 1) .S :=
      List.map_snd_zip (by simp [hbl])
    rw [cutLoop_words _ _ 0 0 0 (by rw [List.map_fst_zip (by simp [hbl])]; rfl) (by omega) (le_refl _) (by simp) (by simp) (by simp)
      (by rw [hz]; exact hst)]
    rfl
  -- where the single characters begin
  have hsplit : ∃ t0, before = t0 ++ List.replicate (a.drop (a.length - 1)).length .S ∧ t0.length = a.length - 1 ∧
      ∀ q, t0.getLast? = some q → q = .E ∨ q = .S := by
    cases ha0 : a with
    | nil => subst ha0; simp at hbl; subst hbl; exact ⟨[], by simp⟩
    | cons x xs =>
      rw [← ha0]
      have hane : a ≠ [] := by rw [ha0]; simp
      have hl := hlast hane
      have hbne : before ≠ [] := by rintro rfl; simp at hl
      refine ⟨before.dropLast, ?_, by simp [hbl], ?_⟩
      · have h1 : (a.drop (a.length - 1)).length = 1 := by
          have := List.length_pos_iff.mpr hane
          rw [List.length_drop]; omega
        rw [h1]
        have := List.dropLast_append_getLast? _ hl
        exact this.symm
      · intro q hq
        have h1 := hst.chain
        rw [← List.dropLast_append_getLast? _ hl, List.append_assoc, List.isChain_append] at h1
        have := h1.2.2 q hq .S (by simp)
        cases q <;> simp [mayFollow] at this ⊢
  obtain ⟨t0, e0, l0, hlast0⟩ := hsplit
  have hzip : (a ++ c :: b).zip (before ++ List.replicate (b.length + 1) .S) =
      (a.take (a.length - 1)).zip t0 ++ (a.drop (a.length - 1) ++ c :: b).zip (List.replicate (a.drop (a.length - 1) ++ c :: b).length .S) := by
    have e1 : a ++ c :: b = a.take (a.length - 1) ++ (a.drop (a.length - 1) ++ c :: b) := by
      rw [← List.append_assoc, List.take_append_drop]
    have e2 : before ++ List.replicate (b.length + 1) .S = t0 ++ List.replicate (a.drop (a.length - 1) ++ c :: b).length .S := by
      rw [e0, List.append_assoc, List.length_append, List.length_cons, ← List.replicate_add]
    rw [e2]
    nth_rw 1 [e1]
    rw [List.zip_append]
    rw [List.length_take, l0]; omega
  rw [hzip, wordsByTags_append _ _ _ ?_ (fun _ => rfl), wordsByTags_singles _ _ rfl] at hw
  · refine ⟨(wordsByTags ((a.take (a.length - 1)).zip t0) []).flatMap (fun w => if w ∉ force then [w] else w.map (fun x => [x])), ?_, ?_⟩
    · rw [FinalSeg.cut_eq_scan]
      have h := scan_word isHan
        (fun blk => (hmmCut (dblArith log) T blk).mapOut (fun word => if word ∉ force then [word] else word.map (fun c => [c])))
        (fun blk => Gen.ok ((reSkipFinal.split blk).filter (fun x => x ≠ []))) (a ++ c :: b) [] hne hhan (by simp)
      rw [List.append_nil] at h
      rw [h, hw]
      show Gen.andThen (Gen.ok _) (Gen.ok []) = _
      rw [Gen.ok_andThen_ok, List.append_nil, Gen.ok_out, List.flatMap_append]
      congr 2
      rw [List.flatMap_map]
      have : ∀ l : Str, (l.flatMap fun x => if [x] ∉ force then [[x]] else [x].map (fun c => [c])) = l.map (fun x => [x]) := by
        intro l
        induction l with
        | nil => rfl
        | cons x l ih => rw [List.flatMap_cons, ih]; split <;> rfl
      exact this _
    · rw [flatten_force, wordsByTags_flatten, List.nil_append, List.map_fst_zip]
      rw [List.length_take, l0]; omega
  · intro q hq
    apply hlast0
    have := congrArg (Option.map Prod.snd) hq
    rw [← List.getLast?_map, List.map_snd_zip (by rw [List.length_take, l0]; omega)] at this
    simpa using this

/-- 我 来 到 with a preference for 来到, and no emission probability for other characters. -/
def shortTables : FinalSeg.Tables ℚ where
  start := fun y => match y with | .B => -1 / 4 | .S => -3 / 2 | _ => minFloat
  trans := fun a b => if mayFollow a b then some (-3 / 4) else none
  emit := fun y c => if c ∈ lit ['我', '来', '到'] then (match y with | .B => some (-1) | .E => some (-1) | .S => some (-8) | .M => some (-9)) else none
  minFloat := minFloat

theorem shortTables_moderate : Moderate shortTables where
  min := rfl
  start := by intro y; cases y <;> decide +kernel
  startS := by decide +kernel
  trans := by
    intro y0 y v h
    simp only [shortTables] at h
    split at h
    · cases h; decide +kernel
    · simp at h
  transSS := by decide
  emit := by
    intro y c v h
    simp only [shortTables] at h
    split at h
    · cases y <;> cases h <;> decide +kernel
    · simp at h

/-- The hypotheses of `C91_unknown_character` with 来到 before and behind 鿕; and what comes out. -/
example : Moderate shortTables ∧ (∀ x ∈ lit ['来', '到', '鿕', '来', '到'], isHan x = true) ∧
    (∀ x ∈ lit ['来', '到'], (shortTables.emit .S x).isSome = true) ∧ (∀ y, shortTables.emit y ('鿕'.toNat) = none) ∧
    FinalSeg.cut (dblArith fun _ => 0) shortTables [] (lit ['来', '到', '鿕', '来', '到']) =
      Gen.ok [lit ['来'], lit ['到'], lit ['鿕'], lit ['来'], lit ['到']] ∧
    FinalSeg.cut (dblArith fun _ => 0) shortTables [] (lit ['来', '到', '来', '到']) = Gen.ok [lit ['来', '到'], lit ['来', '到']] :=
  ⟨shortTables_moderate, by decide, by decide, by intro y; cases y <;> decide, by decide +kernel, by decide +kernel⟩

/-- C91, what exact numbers would give: the tables do decide about the characters around the unknown one. -/
theorem C91_exact_differs : ∃ (A : Arith ℚ) (T : FinalSeg.Tables ℚ) (s : Str), Exact A ∧ Moderate T ∧
    FinalSeg.cut A T [] s = Gen.ok [lit ['来', '到'], lit ['鿕'], lit ['来', '到']] ∧
    FinalSeg.cut (dblArith fun _ => 0) T [] s = Gen.ok [lit ['来'], lit ['到'], lit ['鿕'], lit ['来'], lit ['到']] :=
  ⟨⟨0, (· + ·), (· - ·), (· * ·), (· / ·), fun _ => 0, fun n => n, fun _ => 0⟩, shortTables, lit ['来', '到', '鿕', '来', '到'],
    ⟨rfl, fun _ _ => rfl, fun _ _ => rfl, fun _ _ => rfl, fun _ _ => rfl, fun _ => rfl⟩, shortTables_moderate, by decide +kernel, by decide +kernel⟩

end Jieba.Props
