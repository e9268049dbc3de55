import Verif.Spec.Ieee
import Verif.Proofs.IeeePos
import Verif.Proofs.IeeeSuggest
import Verif.Props.SuggestDouble
import Verif.Props.DictSmall
import Verif.Props.PosUnknown
import Verif.Props.HmmShipped
/-!
# C102 — the limits of doubles are never reached
-/

namespace Jieba.Props
open Jieba Jieba.Spec Jieba.FinalSeg

theorem safe_of_moderate {x : ℚ} (h : ModerateDouble x) : Safe 1 x := by
  obtain ⟨⟨m, e, hx, he⟩, hb⟩ := h
  refine ⟨hx ▸ grid_of m e he, ?_⟩
  rw [Nat.cast_one, one_mul]
  exact hb

/-- The logarithms of the C library are far from the limits. -/
theorem libLog_safe (log : Nat → ℚ) (h : LibLog log) (n : ℕ) (h1 : 1 ≤ n) (hn : n ≤ 2 ^ 300) : Safe 1 (log n) := by
  have hc := h.close n h1
  have hn1 : (1 : ℝ) ≤ n := by exact_mod_cast h1
  have hl0 : 0 ≤ Real.log n := Real.log_nonneg hn1
  obtain ⟨c1, c2⟩ := abs_le.mp hc
  have hub : |((log n : ℚ) : ℝ)| ≤ 2 ^ 301 := by
    have hle : Real.log n ≤ 2 ^ 300 := (Real.log_le_self (by positivity)).trans (by exact_mod_cast hn)
    have : Real.log n / 2 ^ 52 ≤ Real.log n := div_le_self hl0 (by norm_num)
    rw [abs_le]
    have e : (2 : ℝ) ^ 301 = 2 ^ 300 + 2 ^ 300 := by rw [pow_succ]; ring
    rw [e]
    clear e
    generalize (2 : ℝ) ^ 300 = M at *
    generalize Real.log n / 2 ^ 52 = d at *
    constructor <;> linarith
  have hubq : |log n| ≤ 2 ^ 301 := by exact_mod_cast hub
  refine ⟨?_, ?_⟩
  · rw [← h.double n]
    apply rnd_normal_grid
    rcases Nat.lt_or_ge n 2 with h2 | h2
    · left
      have : n = 1 := by omega
      subst this
      simp at c1 c2
      exact le_antisymm c2 c1
    · right
      have hl2 : Real.log 2 ≤ Real.log n := Real.log_le_log (by norm_num) (by exact_mod_cast h2)
      have hl : (1 / 2 : ℝ) ≤ Real.log 2 := by linarith [Real.log_two_gt_d9]
      have hq : (1 / 4 : ℝ) ≤ ((log n : ℚ) : ℝ) := by
        have : Real.log n / 2 ^ 52 ≤ Real.log n / 2 := div_le_div_of_nonneg_left hl0 (by norm_num) (by norm_num)
        linarith
      have hq' : (1 / 4 : ℚ) ≤ log n := by
        have : (((1 / 4 : ℚ)) : ℝ) ≤ ((log n : ℚ) : ℝ) := by push_cast; linarith
        exact_mod_cast this
      refine le_trans ?_ (hq'.trans (le_abs_self _))
      have : (1 / 4 : ℚ) = 2 ^ (-2 : ℤ) := by norm_num
      rw [this]
      exact zpow_le_zpow_right₀ (by norm_num) (by norm_num)
  · rw [Nat.cast_one, one_mul]
    exact hubq.trans (pow_le_pow_right₀ (by norm_num) (by norm_num))

theorem logRange_of (log : Nat → ℚ) (h : LibLog log) (freq : Freq) (total : Int) (ht : total ≤ 2 ^ 300) (hf : ∀ w v, freq.get? w = some v → v ≤ 2 ^ 300) :
    LogRange log freq total (2 ^ 300) where
  logs := libLog_safe log h
  total := by exact_mod_cast ht
  freqs := fun w v hv => by exact_mod_cast hf w v hv

/-- The numbers in the tables of finalseg are far from the limits. -/
structure ModerateTables (T : FinalSeg.Tables ℚ) : Prop where
  start : ∀ y, ModerateDouble (T.start y)
  trans : ∀ y y' v, T.trans y y' = some v → ModerateDouble v
  emit : ∀ y c v, T.emit y c = some v → ModerateDouble v
  min : ModerateDouble T.minFloat

theorem safeTables_of {T : FinalSeg.Tables ℚ} (h : ModerateTables T) : SafeTables T :=
  ⟨fun y => safe_of_moderate (h.start y), fun y y' v hv => safe_of_moderate (h.trans y y' v hv),
    fun y c v hv => safe_of_moderate (h.emit y c v hv), safe_of_moderate h.min⟩

/-- C102: on texts of up to 2^50 characters, with frequencies and a total of up to 2^300 and tables of doubles of size up to 2^350, the smallest
and the largest exponent of IEEE doubles make no difference to `cut`, in any mode: no operation overflows (whatever it would return then) and
none loses bits below 2^-1022. -/
theorem C102_cut (log : Nat → ℚ) (hlog : LibLog log) (over : ℚ → ℚ) (freq : Freq) (total : Int) (ht : total ≤ 2 ^ 300)
    (hf : ∀ w v, freq.get? w = some v → v ≤ 2 ^ 300) (T : FinalSeg.Tables ℚ) (hT : ModerateTables T) (force : List Str) (ca hmm : Bool)
    (s : Str) (hs : s.length ≤ 2 ^ 50) :
    cut ⟨ieeeArith log over, freq, total, T, force⟩ ca hmm s = cut ⟨dblArith log, freq, total, T, force⟩ ca hmm s :=
  cut_ieee_eq log over (logRange_of log hlog freq total ht hf) T (safeTables_of hT) force ca hmm s hs

/-- C102: the same for `cut_for_search` and `tokenize`. -/
theorem C102_search (log : Nat → ℚ) (hlog : LibLog log) (over : ℚ → ℚ) (freq : Freq) (total : Int) (ht : total ≤ 2 ^ 300)
    (hf : ∀ w v, freq.get? w = some v → v ≤ 2 ^ 300) (T : FinalSeg.Tables ℚ) (hT : ModerateTables T) (force : List Str) (search hmm : Bool)
    (s : Str) (hs : s.length ≤ 2 ^ 50) :
    cutForSearch ⟨ieeeArith log over, freq, total, T, force⟩ hmm s = cutForSearch ⟨dblArith log, freq, total, T, force⟩ hmm s ∧
    tokenize ⟨ieeeArith log over, freq, total, T, force⟩ search hmm s = tokenize ⟨dblArith log, freq, total, T, force⟩ search hmm s := by
  have h := C102_cut log hlog over freq total ht hf T hT force false hmm s hs
  constructor
  · unfold cutForSearch
    rw [h]
  · unfold tokenize
    simp only [h]

/-- The numbers in the tables of posseg are far from the limits. -/
structure PosModerateTables (T : Pos.Tables ℚ) : Prop where
  start : ∀ y v, T.start.get? y = some v → ModerateDouble v
  trans : ∀ y d y' v, T.trans.get? y = some d → d.get? y' = some v → ModerateDouble v
  emit : ∀ y d c v, T.emit.get? y = some d → d.get? c = some v → ModerateDouble v
  min : ModerateDouble T.minFloat

/-- C102: the same for the POS tagger, with any iteration order of the sets. -/
theorem C102_posseg (log : Nat → ℚ) (hlog : LibLog log) (over : ℚ → ℚ) (freq : Freq) (total : Int) (ht : total ≤ 2 ^ 300)
    (hf : ∀ w v, freq.get? w = some v → v ≤ 2 ^ 300) (T : Pos.Tables ℚ) (hT : PosModerateTables T) (tab : PyDict Str Str)
    (σ : Str → Nat → List Pos.PState → List Pos.PState) (hmm : Bool) (s : Str) (hs : s.length ≤ 2 ^ 50) :
    Pos.cut ⟨ieeeArith log over, freq, total, T, tab, σ⟩ hmm s = Pos.cut ⟨dblArith log, freq, total, T, tab, σ⟩ hmm s :=
  Pos.cut_ieee_eq log over (logRange_of log hlog freq total ht hf)
    ⟨fun y v hv => safe_of_moderate (hT.start y v hv), fun y d y' v hd hv => safe_of_moderate (hT.trans y d y' v hd hv),
      fun y d c v hd hv => safe_of_moderate (hT.emit y d c v hd hv), safe_of_moderate hT.min⟩ tab σ hmm s hs

/-! ## The shipped tables -/

/-- A rounded number that is 0 or not tiny. -/
theorem moderate_rnd (x : ℚ) (h : x = 0 ∨ 2 ^ (-1022 : ℤ) ≤ |x|) (hb : |x| ≤ 2 ^ 350) : ModerateDouble (rnd x) := by
  obtain ⟨k, hk⟩ := rnd_normal_grid h
  exact ⟨⟨k, -1074, hk, le_refl _⟩, abs_rnd_le hb⟩

theorem moderate_ratio (k d : ℕ) (hd : 0 < d) (hd' : d ≤ 10 ^ 17) (hk : (k : ℚ) ≤ 2 ^ 350) : ModerateDouble (rnd (-((k : ℚ) / d))) := by
  have hdq : (1 : ℚ) ≤ d := by exact_mod_cast hd
  have h1 : (d : ℚ) ≤ 10 ^ 17 := by exact_mod_cast hd'
  apply moderate_rnd
  · rcases Nat.eq_zero_or_pos k with rfl | hp
    · left; simp
    · right
      have h2 : (1 : ℚ) ≤ k := by exact_mod_cast hp
      have h3 : ((2 : ℚ) ^ (-1022 : ℤ)) ≤ 2 ^ (-60 : ℤ) := zpow_le_zpow_right₀ (by norm_num) (by norm_num)
      rw [abs_neg, abs_of_nonneg (by positivity)]
      refine h3.trans ?_
      rw [le_div_iff₀ (by linarith)]
      calc (2 : ℚ) ^ (-60 : ℤ) * d ≤ 2 ^ (-60 : ℤ) * 10 ^ 17 := mul_le_mul_of_nonneg_left h1 (two_zpow_pos _).le
        _ ≤ 1 := by norm_num
        _ ≤ k := h2
  · rw [abs_neg, abs_of_nonneg (by positivity)]
    exact (div_le_self (by positivity) hdq).trans hk

theorem pow10_le : (10 : ℚ) ^ 18 ≤ 2 ^ 350 ∧ (314 * 10 ^ 98 : ℚ) ≤ 2 ^ 350 := by
  have e : (2 : ℚ) ^ 350 = 2 ^ 175 * 2 ^ 175 := by rw [← pow_add]
  rw [e]
  constructor <;> norm_num

theorem moderate_minFloat : ModerateDouble minFloat := by
  have e : ((314 * 10 ^ 98 : ℕ) : ℚ) = 314 * 10 ^ 98 := by norm_num
  have := moderate_ratio (314 * 10 ^ 98) 1 (by norm_num) (by norm_num) (e ▸ pow10_le.2)
  rw [e, Nat.cast_one, div_one] at this
  exact this

/-- C102: the tables that come with finalseg are such tables. -/
theorem C102_shipped_tables : ModerateTables HmmData.tables := by
  have h : ∀ (j : ℕ), j ≤ 17 → ∀ k : ℕ, k ≤ 10 ^ 18 → ModerateDouble (rnd (-(k : ℚ) / 10 ^ j)) := by
    intro j hj k hk
    have hkq : (k : ℚ) ≤ 10 ^ 18 := by exact_mod_cast hk
    have := moderate_ratio k (10 ^ j) (by positivity) (Nat.pow_le_pow_right (by norm_num) hj) (hkq.trans pow10_le.1)
    rw [Nat.cast_pow, Nat.cast_ofNat] at this
    rwa [neg_div]
  refine ⟨?_, ?_, ?_, moderate_minFloat⟩
  · intro y
    cases y
    · exact h 17 (by norm_num) 26268660809250016 (by norm_num)
    · exact moderate_minFloat
    · exact moderate_minFloat
    · exact h 16 (by norm_num) 14652633398537678 (by norm_num)
  · intro y y' v hv
    cases y <;> cases y' <;> first | (cases hv; done) | skip
    · injection hv with hv; exact hv ▸ h 15 (by norm_num) 916290731874155 (by norm_num)
    · injection hv with hv; exact hv ▸ h 15 (by norm_num) 510825623765990 (by norm_num)
    · injection hv with hv; exact hv ▸ h 16 (by norm_num) 12603623820268226 (by norm_num)
    · injection hv with hv; exact hv ▸ h 17 (by norm_num) 33344856811948514 (by norm_num)
    · injection hv with hv; exact hv ▸ h 16 (by norm_num) 5897149736854513 (by norm_num)
    · injection hv with hv; exact hv ▸ h 16 (by norm_num) 8085250474669937 (by norm_num)
    · injection hv with hv; exact hv ▸ h 16 (by norm_num) 7211965654669841 (by norm_num)
    · injection hv with hv; exact hv ▸ h 16 (by norm_num) 6658631448798212 (by norm_num)
  · intro y c v hv
    simp only [HmmData.tables, Option.map_eq_some_iff] at hv
    obtain ⟨e, -, rfl⟩ := hv
    unfold HmmData.value
    rw [← neg_div]
    exact h 16 (by norm_num) _ (Nat.mod_lt _ (by norm_num)).le

theorem le_2_300 : (2 : ℤ) ^ 54 ≤ 2 ^ 300 := pow_le_pow_right₀ (by norm_num) (by norm_num)

/-- C102: with the dictionary dict.txt.small and the tables of finalseg, `cut` on real doubles is `cut` on the doubles of C90 to C101, for every text
of up to 2^50 characters. -/
theorem C102_small_dictionary (log : Nat → ℚ) (hlog : LibLog log) (over : ℚ → ℚ) (freq : Freq) (hs : SmallTable freq) (force : List Str) (ca hmm : Bool)
    (s : Str) (hl : s.length ≤ 2 ^ 50) :
    cut ⟨ieeeArith log over, freq, 62485586, HmmData.tables, force⟩ ca hmm s = cut ⟨dblArith log, freq, 62485586, HmmData.tables, force⟩ ca hmm s :=
  C102_cut log hlog over freq 62485586 (le_trans (by norm_num) le_2_300) (fun v x hv => by
    have := hs.get v x hv
    exact le_trans (by omega) le_2_300) _ C102_shipped_tables force ca hmm s hl

/-- C102: C101 with IEEE doubles: with that dictionary `cut` without HMM finds a segmentation that is within 1 % of the best. -/
theorem C102_small_best (log : Nat → ℚ) (hlog : LibLog log) (over : ℚ → ℚ) (freq : Freq) (hs : SmallTable freq) (force : List Str)
    (s : Str) (hne : s ≠ []) (hc : ∀ c ∈ s, isHan c = true) (hlen : s.length ≤ 1000000) :
    ∃ ts, cut ⟨ieeeArith log over, freq, 62485586, HmmData.tables, force⟩ false false s = Gen.ok ts ∧ Admissible freq s ts ∧
      ∀ other, Admissible freq s other → segProb freq 62485586 other ≤ 1.01 * segProb freq 62485586 ts := by
  rw [C102_small_dictionary log hlog over freq hs force false false s (by omega)]
  exact C101_best log hlog.close freq hs HmmData.tables force s hne hc hlen

/-! ## Suggested frequencies -/

/-- C102: `suggest_freq` multiplies as many small numbers as there are segments, which may well get below 2^-1022 or become 0; but then the
result is `int` of a number below 1 anyway.  So the frequencies are the same, for any word or tuple, when no frequency exceeds the total and
the total is at most 2^53. -/
theorem C102_suggest (log : Nat → ℚ) (hlog : LibLog log) (over : ℚ → ℚ) (S : Sys ℚ) (hT : ModerateTables S.tables) (w : World) (t : Nat)
    (ht : 0 < (w.tok t).total) (ht' : (w.tok t).total ≤ 2 ^ 53) (hf : ∀ v x, (w.tok t).freq.get? v = some x → 0 ≤ x ∧ x ≤ (w.tok t).total) :
    (∀ segs, suggestSplit { S with A := ieeeArith log over } w t segs = suggestSplit { S with A := dblArith log } w t segs) ∧
    ∀ word, word.length ≤ 2 ^ 50 → suggestWord { S with A := ieeeArith log over } w t word = suggestWord { S with A := dblArith log } w t word := by
  have he := expectFreq_ieee log over (w.tok t).freq (w.tok t).total ht ht' hf
  have h2 : (2 : ℤ) ^ 53 ≤ 2 ^ 300 := le_trans (by norm_num) le_2_300
  constructor
  · intro segs
    unfold suggestSplit
    simp only
    rw [he]
  · intro word hw
    unfold suggestWord World.env
    simp only
    rw [C102_cut log hlog over (w.tok t).freq (w.tok t).total (ht'.trans h2) (fun v x hv => (hf v x hv).2.trans (ht'.trans h2)) S.tables hT w.force
      false false word hw, he]

/-- C102: C98 with IEEE doubles: after `add_word(v)` without a frequency, `cut(v)` yields `v` as one token. -/
theorem C102_add_word_whole (log : Nat → ℚ) (hlog : LibLog log) (over : ℚ → ℚ) (S : Sys ℚ) (hA : S.A = ieeeArith log over)
    (hTab : ModerateTables S.tables) (w w1 : World) (t : Nat) (word : PyText)
    (tag : Option Str) (io : Bool) (hc : checkInit S w t io = (w1, .ok ())) (hp : PrefixClosed (w1.tok t).freq)
    (hg : Good ((w1.tok t).freq, (w1.tok t).total)) (ht : 0 < (w1.tok t).total) (hT : (w1.tok t).total < 2 ^ 26)
    (v : Str) (hd : strdecode S.gbk word = v) (hv : v ≠ []) (hlen : v.length ≤ 900) (hs : ∀ c ∈ v, isWordCh c = true ∧ isAlnum c = false) :
    ∃ w', addWord S w t word .none tag io = (w', .ok ()) ∧
      ∀ hm io', (cutW S w' t false hm word io').2 = Gen.ok [v] := by
  have hpow : (2 : ℤ) ^ 26 ≤ 2 ^ 53 ∧ (2 : ℤ) ^ 54 ≤ 2 ^ 300 := ⟨by norm_num, le_2_300⟩
  have hb : ∀ u x, (w1.tok t).freq.get? u = some x → 0 ≤ x ∧ x ≤ (w1.tok t).total := fun u x hx => ⟨hg.nonneg u x hx, good_bound (_, _) hg u x hx⟩
  have hi := checkInit_initialized S w w1 t io hc
  have eS : S = { S with A := ieeeArith log over } := by rw [← hA]
  obtain ⟨w', h1, h2⟩ := C98_add_word_whole log hlog.close { S with A := dblArith log } rfl w w1 t word tag io hc hp hg ht hT v hd hv hlen hs
  have hsug := (C102_suggest log hlog over S hTab w1 t ht (by omega) hb).2 v (by omega)
  have hc0 : checkInit { S with A := dblArith log } w t io = (w1, .ok ()) := hc
  unfold addWord at h1
  rw [hc0] at h1
  simp only [addWordFreq] at h1
  have hd0 : strdecode { S with A := dblArith log }.gbk word = v := hd
  rw [hd] at h1
  cases hf : suggestWord { S with A := dblArith log } w1 t v with
  | error e => rw [hf] at h1; simp at h1
  | ok f =>
    rw [hf] at h1
    simp only [Prod.mk.injEq, and_true] at h1
    have hfT : f ≤ 2 ^ 53 + 1 := by
      unfold suggestWord at hf
      simp only at hf
      cases he : expectFreq (dblArith log) (w1.tok t).freq (w1.tok t).total (cut (w1.env { S with A := dblArith log } t) false false v).out with
      | error e => rw [he] at hf; cases hf
      | ok n =>
        have hn := expectFreq_le log _ _ ht (by omega) hb _ n he
        rw [he] at hf
        simp only at hf
        split at hf
        · cases hf
        · injection hf with hf
          rw [← hf]
          refine max_le (by omega) ?_
          cases hx : PyDict.get? (w1.tok t).freq v with
          | none => simp
          | some y => have := (hb v y hx).2; simp; omega
    refine ⟨w', ?_, ?_⟩
    · unfold addWord
      rw [hc]
      simp only [addWordFreq, hd]
      rw [eS] at hsug ⊢
      rw [hsug, hf]
      simp only [h1]
    · intro hm io'
      have h3 := h2 hm io'
      have hi' : (w'.tok t).initialized = true := by rw [← h1, addFreq_tok_self]; exact hi
      rw [cutW_of_init _ _ _ _ _ _ _ hi'] at h3 ⊢
      rw [← h3]
      show cut (w'.env S t) false hm (strdecode S.gbk word) = cut (w'.env { S with A := dblArith log } t) false hm (strdecode S.gbk word)
      unfold World.env
      rw [hA, hd]
      refine C102_cut log hlog over _ _ ?_ ?_ S.tables hTab _ false hm v (by omega)
      · rw [← h1, addFreq_tok_self]
        simp only
        omega
      · intro u x hx
        rw [← h1, addFreq_tok_self] at hx
        simp only [register_get?] at hx
        split at hx
        · injection hx with hx; omega
        · split at hx
          · next y hy => injection hx with hx; have := (hb u y hy).2; omega
          · split at hx
            · injection hx with hx; omega
            · cases hx

/-! ## The hypotheses -/

/-- There are such logarithms. -/
theorem exists_libLog : ∃ log, LibLog log := by
  have : ∀ n : ℕ, ∃ q : ℚ, rnd q = q ∧ (1 ≤ n → |(q : ℝ) - Real.log n| ≤ Real.log n / 2 ^ 52) := by
    intro n
    rcases Nat.lt_or_ge n 2 with h | h
    · refine ⟨0, rnd_zero, fun h1 => ?_⟩
      have : n = 1 := by omega
      subst this; simp
    · have hl : 0 < Real.log n := Real.log_pos (by exact_mod_cast h)
      have hd : 0 < Real.log n / 2 ^ 60 := div_pos hl (by norm_num)
      obtain ⟨q, h1, h2⟩ := exists_rat_btwn (show Real.log n < Real.log n + Real.log n / 2 ^ 60 by linarith)
      refine ⟨rnd q, isDbl_rnd q, fun _ => ?_⟩
      have he : |((rnd q : ℚ) : ℝ) - q| ≤ |(q : ℝ)| / 2 ^ 53 := by
        have := rnd_err q
        have h' : (((|rnd q - q| : ℚ)) : ℝ) ≤ ((|q| / 2 ^ 53 : ℚ) : ℝ) := by exact_mod_cast this
        push_cast at h'
        exact h'
      rw [abs_of_pos (show (0 : ℝ) < q by linarith)] at he
      obtain ⟨e1, e2⟩ := abs_le.mp he
      rw [abs_le]
      generalize Real.log n = L at *
      constructor <;> linarith
  choose log h1 h2 using this
  exact ⟨log, h2, h1⟩

/-- The hypotheses of `C102_cut`, `C102_search` and `C102_suggest` with a small dictionary and the shipped tables. -/
example : ∃ log, LibLog log ∧ (161 : Int) ≤ 2 ^ 300 ∧ (161 : Int) ≤ 2 ^ 53 ∧ (∀ w v, sampleFreq.get? w = some v → 0 ≤ v ∧ v ≤ 161) ∧
    ModerateTables HmmData.tables ∧ (lit ['北', '京', '大', '学']).length ≤ 2 ^ 50 := by
  obtain ⟨log, h⟩ := exists_libLog
  refine ⟨log, h, le_trans (by norm_num) le_2_300, by norm_num, ?_, C102_shipped_tables, by decide⟩
  intro w v hv
  have key : ∀ kv ∈ sampleFreq, 0 ≤ kv.2 ∧ kv.2 ≤ 161 := by decide
  exact_mod_cast key (w, v) ((PyDict.get?_eq_some_iff_mem _ (by decide) _ _).mp hv)

theorem moderate_int (m : ℤ) (h : |m| ≤ 10 ^ 18) : ModerateDouble m := by
  refine ⟨⟨m, 0, by simp, by norm_num⟩, ?_⟩
  have : (|m| : ℚ) ≤ 10 ^ 18 := by exact_mod_cast h
  exact this.trans pow10_le.1

/-- Tables of the tagger for `C102_posseg`. -/
example : PosModerateTables (twoTags 5) := by
  have h : ∀ x : ℚ, x = 5 ∨ x = -1 ∨ x = -2 → ModerateDouble x := by
    rintro x (rfl | rfl | rfl)
    · exact_mod_cast moderate_int 5 (by norm_num)
    · exact_mod_cast moderate_int (-1) (by norm_num)
    · exact_mod_cast moderate_int (-2) (by norm_num)
  refine ⟨?_, ?_, ?_, moderate_minFloat⟩
  · intro y v hv
    have hm := mem_of_get _ _ _ hv
    simp only [twoTags, List.mem_cons, List.not_mem_nil, or_false, Prod.mk.injEq] at hm
    rcases hm with ⟨-, rfl⟩ | ⟨-, rfl⟩ <;> exact h _ (by simp)
  · intro y d y' v hd hv
    have hm := mem_of_get _ _ _ hd
    have hm' := mem_of_get _ _ _ hv
    simp only [twoTags, List.mem_cons, List.not_mem_nil, or_false, Prod.mk.injEq] at hm
    rcases hm with ⟨-, rfl⟩ | ⟨-, rfl⟩ <;> simp only [List.mem_cons, List.not_mem_nil, or_false, Prod.mk.injEq] at hm' <;>
      rcases hm' with ⟨-, rfl⟩ | ⟨-, rfl⟩ <;> exact h _ (by simp)
  · intro y d c v hd hv
    have hm := mem_of_get _ _ _ hd
    have hm' := mem_of_get _ _ _ hv
    simp only [twoTags, List.mem_cons, List.not_mem_nil, or_false, Prod.mk.injEq] at hm
    rcases hm with ⟨-, rfl⟩ | ⟨-, rfl⟩ <;> simp only [List.mem_cons, List.not_mem_nil, or_false, Prod.mk.injEq] at hm' <;>
      rcases hm' with ⟨-, rfl⟩ <;> exact h _ (by simp)

/-- Tables of doubles of which three or four make a sum beyond the largest double. -/
def hugeTables : FinalSeg.Tables ℚ :=
  ⟨fun _ => 0, fun y y' => if y = .B ∧ y' = .E then some (-2 ^ 1023) else none, fun _ _ => some (-2 ^ 1023), -(3 * 2 ^ 1022)⟩

/-- C102: the bound on the tables is needed: with larger doubles in the tables the sums overflow (here to a number that is below all doubles, as
`-inf` is), the scores are the same then and another segmentation comes out. -/
theorem C102_size_needed : FinalSeg.cut (dblArith fun _ => 0) hugeTables [] (lit ['杭', '研']) = Gen.ok [lit ['杭', '研']] ∧
    FinalSeg.cut (ieeeArith (fun _ => 0) (fun _ => -2 ^ 1100)) hugeTables [] (lit ['杭', '研']) = Gen.ok [lit ['杭'], lit ['研']] :=
  ⟨by decide +kernel, by decide +kernel⟩

end Jieba.Props
