import Verif.Proofs.SuggestDouble
/-!
# C98 — `add_word` without a frequency, with the floats that Python has
-/

namespace Jieba.Props
open Jieba Jieba.Spec

/-- C98: C27 holds with Python's floats, for words of up to 900 characters and a total below 2^26 (that of the shipped dictionary is 60101967):
after `add_word(v)` without a frequency, `cut(v)` yields `v` as one token, with and without HMM, although frequency and path are computed with
rounding. -/
theorem C98_add_word_whole (log : Nat → ℚ) (hlog : GoodLog log) (S : Sys ℚ) (hS : S.A = dblArith log) (w w1 : World) (t : Nat) (word : PyText)
    (tag : Option Str) (io : Bool) (hc : checkInit S w t io = (w1, .ok ())) (hp : PrefixClosed (w1.tok t).freq)
    (hg : Good ((w1.tok t).freq, (w1.tok t).total)) (ht : 0 < (w1.tok t).total) (hT : (w1.tok t).total < 2 ^ 26)
    (v : Str) (hd : strdecode S.gbk word = v) (hv : v ≠ []) (hlen : v.length ≤ 900) (hs : ∀ c ∈ v, isWordCh c = true ∧ isAlnum c = false) :
    ∃ w', addWord S w t word .none tag io = (w', .ok ()) ∧
      ∀ hm io', (cutW S w' t false hm word io').2 = Gen.ok [v] := by
  have hi := checkInit_initialized S w w1 t io hc
  have hn := hg.nonneg
  simp only at hn
  have hb : ∀ u x, (w1.tok t).freq.get? u = some x → x ≤ (w1.tok t).total := fun u x hx => good_bound (_, _) hg u x hx
  have henv : w1.env S t = ⟨dblArith log, (w1.tok t).freq, (w1.tok t).total, S.tables, w1.force⟩ := by
    unfold World.env; rw [hS]
  obtain ⟨ts, hcut, hadm, hmax⟩ := C90_almost_best log hlog (w1.tok t).freq (w1.tok t).total S.tables w1.force hp hn ht (2 ^ 27)
    (by push_cast; omega) (fun u x hx => by have := hb u x hx; push_cast; omega) v hv hs (by omega)
  have htsne : ts ≠ [] := by rintro rfl; exact hv hadm
  have htl := admissible_length _ ts v hadm
  generalize hfr : (w1.tok t).freq = freq at *
  generalize hto : (w1.tok t).total = total at *
  have htR : (0 : ℝ) < total := by exact_mod_cast ht
  obtain ⟨n, hn1, hn2, hn3, hn4⟩ := expectFreq_dbl log freq hn total ht (by omega) hb ts htsne
  have hsug : ∃ f, suggestWord S w1 t v = .ok f ∧ 1 ≤ f ∧ f ≤ total + 1 ∧
      segProb freq total ts * total * (1 - 1 / 2 ^ 53) ^ (2 * ts.length + 1) ≤ f := by
    refine ⟨max (n + 1) ((freq.get? v).getD 1), ?_, ?_, ?_, ?_⟩
    · unfold suggestWord
      simp only [henv, hcut, hfr, hto, hS, Gen.ok, hn1]
    · have := le_max_left (n + 1) ((freq.get? v).getD 1); omega
    · refine max_le (by omega) ?_
      cases hx : PyDict.get? freq v with
      | none => simp; omega
      | some y => have := hb v y hx; simp; omega
    · have h1 : ((n + 1 : Int) : ℝ) ≤ ((max (n + 1) ((freq.get? v).getD 1) : Int) : ℝ) := by exact_mod_cast le_max_left _ _
      refine le_trans ?_ h1
      rcases prod_bound freq hn total ht hb ts with h | h
      · rw [← h]; push_cast; exact hn4
      · have hp0 : 0 ≤ segProb freq total ts * total := mul_nonneg (segScore_real freq hn total ht ts).1.le htR.le
        refine le_trans (mul_le_of_le_one_right hp0 (pow_le_one₀ (by norm_num) (by norm_num))) (le_trans h ?_)
        exact_mod_cast (by omega : (1 : Int) ≤ n + 1)
  obtain ⟨f, hf1, hf2, hf2', hf3⟩ := hsug
  refine ⟨addFreq w1 t v f tag, ?_, ?_⟩
  · unfold addWord
    rw [hc]
    simp only [hd, addWordFreq, hf1]
  · intro hm io'
    have hi' : ((addFreq w1 t v f tag).tok t).initialized = true := by rw [addFreq_tok_self]; exact hi
    rw [cutW_of_init S _ t _ _ _ _ hi', hd]
    have hnr : NonNeg (register freq v f) := nonNeg_register _ _ _ hn (by omega)
    have ht' : 0 < total + f := by omega
    have hbest : IsBest (dblArith log) (register freq v f) (total + f) v [v] := by
      refine isBest_dbl log hlog _ _ hnr ht' (2 ^ 27) (by push_cast; omega) ?_ v hv ?_ (by omega) ?_
      · intro u x hx
        have hgood := good_register (freq, total) v f hg (by omega)
        have := good_bound (register freq v f, total + f) hgood u x hx
        push_cast
        simp only at this
        omega
      · rw [register_dictWord, if_pos rfl]; omega
      · intro other ho hne
        rcases admissible_register_self freq v hv f (by omega) _ ho with h | ⟨h1, h2, h3⟩
        · exact absurd h hne
        have e : segProb (register freq v f) (total + f) [v] = (f : ℝ) / ((total + f : Int) : ℝ) := by
          simp [segProb, scoreFreq_register_self freq v f (by omega)]
        have hfR : (1 : ℝ) ≤ f := by exact_mod_cast hf2
        have hmar := margin v.length hlen total htR (by exact_mod_cast (by omega : total + 1 ≤ 2 ^ 26)) f hfR (2 * ts.length + 1) (by omega)
        have hm1 := hmax other h1
        rw [e, segProb_register freq v f total (total + f) ht _ h3]
        push_cast at hm1 hmar ⊢
        set X := Real.exp (Real.log 134217728 / 2 ^ 51 * (v.length * (v.length + 6)))
        have hX : 0 < X := Real.exp_pos _
        have hr0 : (0 : ℝ) < total / (total + f) := div_pos htR (by linarith)
        have hr1 : (total : ℝ) / (total + f) ≤ 1 := by rw [div_le_one (by linarith)]; linarith
        have hpow : ((total : ℝ) / (total + f)) ^ other.length ≤ ((total : ℝ) / (total + f)) ^ 2 :=
          pow_le_pow_of_le_one hr0.le hr1 h2
        have hts := (segScore_real freq hn total ht ts).1
        set P := segProb freq total ts
        set r := (total : ℝ) / (total + f) with hr
        set c := (1 - 1 / 2 ^ 53 : ℝ) ^ (2 * ts.length + 1)
        have hc0 : 0 < c := pow_pos (by norm_num) _
        calc segProb freq total other * r ^ other.length * X ≤ (P * X) * r ^ 2 * X := by
              apply mul_le_mul_of_nonneg_right _ hX.le
              exact mul_le_mul hm1 hpow (pow_nonneg hr0.le _) (mul_nonneg hts.le hX.le)
          _ = P * r * (r * (X * X)) := by ring
          _ < P * r * c := mul_lt_mul_of_pos_left hmar (mul_pos hts hr0)
          _ = (P * total * c) / (total + f) := by rw [hr]; ring
          _ ≤ (f : ℝ) / (total + f) := div_le_div_of_nonneg_right hf3 (by linarith)
    have henv' : (addFreq w1 t v f tag).env S t =
        ⟨dblArith log, register freq v f, total + f, S.tables, (addFreq w1 t v f tag).force⟩ := by
      unfold World.env; rw [hS, addFreq_tok_self]; simp only [hfr, hto]
    rw [henv']
    exact cut_whole ⟨dblArith log, register freq v f, total + f, S.tables, (addFreq w1 t v f tag).force⟩ (dbl_mono log)
      (prefixClosed_register _ _ _ hp) hnr ht' v hv hs hbest hm

/-- A system with Python's floats. -/
def floatSys (log : Nat → ℚ) : Sys ℚ where
  A := dblArith log
  tables := ⟨fun _ => 0, fun _ _ => none, fun _ _ => none, -1⟩
  gbk := id
  md5 := id
  tempdir := lit ['/', 't']
  abspath := id
  dump := sampleDump
  load := sampleLoad
  load_dump := sampleLoad_dump

/-- The hypotheses hold, for some logarithm, of the dictionary of C27, in which 北京 and 人 come out separately before. -/
example : ∃ log, GoodLog log ∧ (floatSys log).A = dblArith log ∧
    checkInit (floatSys log) (readyWorld boostFreq 100) 0 true = (readyWorld boostFreq 100, .ok ()) ∧
    PrefixClosed boostFreq ∧ Good (boostFreq, 100) ∧
    strdecode (floatSys log).gbk (.str (lit ['北', '京', '人'])) = lit ['北', '京', '人'] ∧
    (∀ c ∈ lit ['北', '京', '人'], isWordCh c = true ∧ isAlnum c = false) := by
  obtain ⟨log, h⟩ := exists_goodLog
  refine ⟨log, h, rfl, rfl, ?_, ⟨by decide, nonNeg_of_all _ (by decide), by decide⟩, rfl, by decide⟩
  have key : ∀ w ∈ boostFreq.map Prod.fst, ∀ p ∈ w.inits, p ≠ [] → PyDict.has boostFreq p = true := by decide +kernel
  intro w hw p hne hpre
  exact key w ((PyDict.mem_keys_iff _ _).mpr hw) p ((List.mem_inits _ _).mpr hpre) hne

end Jieba.Props
