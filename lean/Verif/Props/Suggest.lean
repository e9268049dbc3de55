import Verif.Proofs.Suggest
import Verif.Props.Totals
import Verif.Props.Dictionary
/-!
# C27, C28: frequencies suggested by `suggest_freq`, in exact arithmetic
-/

namespace Jieba.Props
open Jieba Jieba.Spec

/-! ## C27 -/

theorem checkInit_initialized {F : Type _} [LinearOrder F] (S : Sys F) (w w1 : World) (t : Nat) (io : Bool)
    (h : checkInit S w t io = (w1, .ok ())) : (w1.tok t).initialized = true := by
  rcases checkInit_prim S ⟨fun _ _ _ _ _ => False, fun _ => False, fun _ _ => False, fun _ => False, fun _ => False⟩ w t io with ⟨e, h1, -⟩ | ⟨w', h1, h2, -⟩
  · rw [h1] at h; simp at h
  · rw [h1] at h; simp at h; rw [← h]; exact h2

/-- In a good table no frequency exceeds the total. -/
theorem good_bound (x : Freq × Int) (h : Good x) (w : Str) (n : Int) (hw : x.1.get? w = some n) : n ≤ x.2 := by
  have hmem := (PyDict.get?_eq_some_iff_mem _ h.nodup w n).mp hw
  have hall : ∀ p ∈ x.1, 0 ≤ p.2 := fun p hp => h.nonneg p.1 p.2 ((PyDict.get?_eq_some_iff_mem _ h.nodup p.1 p.2).mpr hp)
  have key : ∀ d : Freq, (∀ p ∈ d, 0 ≤ p.2) → (w, n) ∈ d → 0 ≤ (d.map Prod.snd).sum ∧ n ≤ (d.map Prod.snd).sum := by
    intro d
    induction d with
    | nil => simp
    | cons p d ih =>
      intro hd hm
      have h0 : ∀ d : Freq, (∀ p ∈ d, 0 ≤ p.2) → 0 ≤ (d.map Prod.snd).sum := by
        intro d
        induction d with
        | nil => simp
        | cons q d ih =>
          intro hq
          have := ih (fun r hr => hq r (List.mem_cons_of_mem _ hr))
          have := hq q (by simp)
          simp only [List.map_cons, List.sum_cons]; omega
      have hd' : ∀ p ∈ d, 0 ≤ p.2 := fun q hq => hd q (List.mem_cons_of_mem _ hq)
      have hp := hd p (by simp)
      have hs := h0 d hd'
      simp only [List.map_cons, List.sum_cons]
      rcases List.mem_cons.mp hm with h | h
      · rw [← h] at hp ⊢; simp only at hp ⊢; omega
      · have := (ih hd' h).2; omega
  have := (key x.1 hall hmem).2
  have := h.total
  unfold sumFreq at this
  omega

/-- C27: in exact arithmetic, after `add_word(v)` without a frequency, for `v` made of word characters other than ASCII
letters and digits, `cut(v)` yields `v` as one token, with and without HMM.  The dictionary in use after initialisation
must be prefix-closed (C20) and good, i.e. no negative frequency and a positive total not below the sum (C22). -/
theorem C27_add_word_whole (S : Sys ℝ) (hS : S.A = realArith) (w w1 : World) (t : Nat) (word : PyText) (tag : Option Str)
    (io : Bool) (hc : checkInit S w t io = (w1, .ok ())) (hp : PrefixClosed (w1.tok t).freq)
    (hg : Good ((w1.tok t).freq, (w1.tok t).total)) (ht : 0 < (w1.tok t).total)
    (v : Str) (hd : strdecode S.gbk word = v) (hv : v ≠ []) (hs : ∀ c ∈ v, isWordCh c = true ∧ isAlnum c = false) :
    ∃ w', addWord S w t word .none tag io = (w', .ok ()) ∧
      ∀ hm io', (cutW S w' t false hm word io').2 = Gen.ok [v] := by
  have hi := checkInit_initialized S w w1 t io hc
  have hn := hg.nonneg
  simp only at hn
  obtain ⟨ts, hcut, hadm, hmax⟩ := C04_cut_max_probability (w1.tok t).freq (w1.tok t).total S.tables w1.force hp hn ht v hv hs
  have htsne : ts ≠ [] := by rintro rfl; exact hv hadm
  have henv : w1.env S t = ⟨realArith, (w1.tok t).freq, (w1.tok t).total, S.tables, w1.force⟩ := by
    unfold World.env; rw [hS]
  generalize hfr : (w1.tok t).freq = freq at *
  generalize hto : (w1.tok t).total = total at *
  have htR : (0 : ℝ) < total := by exact_mod_cast ht
  have hget : ∀ x, 0 ≤ (freq.get? x).getD 1 := by
    intro x
    cases hx : PyDict.get? freq x with
    | none => simp
    | some y => simpa using hn x y hx
  have hP0 : 0 ≤ (ts.map (fun s => (((freq.get? s).getD 1 : Int) : ℝ) / total)).prod := by
    clear hcut hadm hmax htsne
    induction ts with
    | nil => simp
    | cons x l ih =>
      rw [List.map_cons, List.prod_cons]
      exact mul_nonneg (div_nonneg (by exact_mod_cast hget x) (le_of_lt htR)) ih
  have hsug : ∃ f, suggestWord S w1 t v = .ok f ∧ 1 ≤ f ∧ segProb freq total ts * total ≤ f := by
    unfold suggestWord
    simp only [henv, hcut, hfr, hto, hS, Gen.ok]
    unfold expectFreq
    rw [if_neg htsne, if_neg (ne_of_gt ht)]
    refine ⟨_, rfl, ?_, ?_⟩
    all_goals
      rw [mulFreqs_real]
      generalize hP : (ts.map (fun s => (((freq.get? s).getD 1 : Int) : ℝ) / total)).prod = P at *
      have e : realArith.trunc (realArith.mul (realArith.ofInt 1 * P) (realArith.ofInt total)) = ⌊P * total⌋ := by
        simp only [realArith]
        rw [if_pos (by simpa using mul_nonneg hP0 (le_of_lt htR))]
        simp
      rw [e]
      have hfl : 0 ≤ ⌊P * total⌋ := Int.floor_nonneg.mpr (mul_nonneg hP0 (le_of_lt htR))
    · have := le_max_left (⌊P * (total : ℝ)⌋ + 1) ((freq.get? v).getD 1)
      omega
    · have h1 : ((⌊P * (total : ℝ)⌋ + 1 : Int) : ℝ) ≤ ((max (⌊P * (total : ℝ)⌋ + 1) ((freq.get? v).getD 1) : Int) : ℝ) := by
        exact_mod_cast le_max_left _ _
      refine le_trans ?_ h1
      rcases prod_bound freq hn total ht (fun w x hx => good_bound (freq, total) hg w x hx) ts with h | h
      · rw [← h, hP]
        push_cast
        exact le_of_lt (Int.lt_floor_add_one _)
      · refine le_trans h ?_
        exact_mod_cast (by omega : (1 : Int) ≤ ⌊P * (total : ℝ)⌋ + 1)
  obtain ⟨f, hf1, hf2, hf3⟩ := hsug
  refine ⟨addFreq w1 t v f tag, ?_, ?_⟩
  · unfold addWord
    rw [hc]
    simp only [hd, addWordFreq, hf1]
  · intro hm io'
    have hi' : ((addFreq w1 t v f tag).tok t).initialized = true := by rw [addFreq_tok_self]; exact hi
    rw [cutW_of_init S _ t _ _ _ _ hi', hd]
    have hbest := isBest_after_suggest freq total hn ht v hv f hf2 ts hmax hf3
    have henv' : (addFreq w1 t v f tag).env S t =
        ⟨realArith, register freq v f, total + f, S.tables, (addFreq w1 t v f tag).force⟩ := by
      unfold World.env; rw [hS, addFreq_tok_self]; simp only [hfr, hto]
    rw [henv']
    exact cut_whole ⟨realArith, register freq v f, total + f, S.tables, (addFreq w1 t v f tag).force⟩ realArith_mono
      (prefixClosed_register _ _ _ hp) (nonNeg_register _ _ _ hn (by omega)) (by show 0 < total + f; omega) v hv hs hbest hm

/-- A system with exact arithmetic. -/
noncomputable def realSys : Sys ℝ where
  A := realArith
  tables := ⟨fun _ => 0, fun _ _ => none, fun _ _ => none, -1⟩
  gbk := id
  md5 := id
  tempdir := lit ['/', 't']
  abspath := id
  dump := sampleDump
  load := sampleLoad
  load_dump := sampleLoad_dump

/-- A world where tokenizer 0 is initialised with the given table. -/
def readyWorld (freq : Freq) (total : Int) : World :=
  { sampleWorld with tok := fun _ => ⟨none, freq, total, [], true, none, none⟩ }

/-- A dictionary where 北京 is so frequent that 北京人 needs a real boost; its hypotheses are those of C27. -/
def boostFreq : Freq := [(lit ['北'], 0), (lit ['北', '京'], 60), (lit ['人'], 40)]

example : checkInit realSys (readyWorld boostFreq 100) 0 true = (readyWorld boostFreq 100, .ok ()) ∧
    PrefixClosed boostFreq ∧ Good (boostFreq, 100) ∧
    (∀ c ∈ lit ['北', '京', '人'], isWordCh c = true ∧ isAlnum c = false) := by
  refine ⟨rfl, ?_, ⟨by decide, nonNeg_of_all _ (by decide), by decide⟩, by decide⟩
  have key : ∀ w ∈ boostFreq.map Prod.fst, ∀ p ∈ w.inits, p ≠ [] → PyDict.has boostFreq p = true := by decide +kernel
  intro w hw p hne hpre
  exact key w ((PyDict.mem_keys_iff _ _).mpr hw) p ((List.mem_inits _ _).mpr hpre) hne

/-- `a`, `b` and `中` are words. -/
def abzFreq : Freq := [(lit ['a'], 10), (lit ['b'], 10), (lit ['中'], 10)]

theorem cut_real (freq : Freq) (total : Int) (T : FinalSeg.Tables ℝ) (force : List Str) (s : Str) :
    cut ⟨realArith, freq, total, T, force⟩ false false s =
      cut ⟨posRatArith, freq, total, ⟨fun _ => posRatArith.zero, fun _ _ => none, fun _ _ => none, posRatArith.zero⟩, []⟩
        false false s := cut_hom posRat_real _ _ _ _ _ _ _

/-- C27 is false for words with ASCII letters: `add_word("ab中")` joins the letters before asking for the frequency of the
split, so the suggested frequency is too small and "ab中" is still cut into "ab" and "中". -/
theorem C27_fails_with_letters :
    (addWord realSys (readyWorld abzFreq 30) 0 (.str (lit ['a', 'b', '中'])) .none none true).2 = .ok () ∧
    (cutW realSys (addWord realSys (readyWorld abzFreq 30) 0 (.str (lit ['a', 'b', '中'])) .none none true).1 0 false false
      (.str (lit ['a', 'b', '中'])) true).2 = Gen.ok [lit ['a', 'b'], lit ['中']] := by
  have hc : cut ((readyWorld abzFreq 30).env realSys 0) false false (lit ['a', 'b', '中']) =
      Gen.ok [lit ['a', 'b'], lit ['中']] := by
    show cut ⟨realArith, abzFreq, 30, realSys.tables, []⟩ false false _ = _
    rw [cut_real]; decide +kernel
  have hf : suggestWord realSys (readyWorld abzFreq 30) 0 (lit ['a', 'b', '中']) = .ok 1 := by
    unfold suggestWord
    simp only [hc, Gen.ok]
    unfold expectFreq
    rw [if_neg (by simp), if_neg (show ¬ ((readyWorld abzFreq 30).tok 0).total = 0 by decide)]
    show Except.ok _ = _
    have e : mulFreqs realSys.A ((readyWorld abzFreq 30).tok 0).freq (realSys.A.ofInt ((readyWorld abzFreq 30).tok 0).total)
        (realSys.A.ofInt 1) [lit ['a', 'b'], lit ['中']] = 1 / 90 := by
      show mulFreqs realArith abzFreq (realArith.ofInt 30) (realArith.ofInt 1) _ = _
      rw [mulFreqs_real]
      have e1 : (abzFreq.get? (lit ['a', 'b'])).getD 1 = 1 := by decide
      have e2 : (abzFreq.get? (lit ['中'])).getD 1 = 10 := by decide
      simp only [List.map_cons, List.map_nil, e1, e2, realArith]
      norm_num
    rw [e]
    have e2 : realSys.A.trunc (realSys.A.mul (1 / 90) (realSys.A.ofInt ((readyWorld abzFreq 30).tok 0).total)) = 0 := by
      show realArith.trunc (realArith.mul (1 / 90) (realArith.ofInt 30)) = 0
      simp only [realArith]
      rw [if_pos (by norm_num), Int.floor_eq_zero_iff]
      norm_num
    rw [e2]
    rfl
  have ha : addWord realSys (readyWorld abzFreq 30) 0 (.str (lit ['a', 'b', '中'])) .none none true =
      (addFreq (readyWorld abzFreq 30) 0 (lit ['a', 'b', '中']) 1 none, .ok ()) := by
    unfold addWord
    rw [checkInit_of_init _ _ _ _ rfl]
    simp only [strdecode, addWordFreq, hf]
  rw [ha]
  refine ⟨rfl, ?_⟩
  rw [cutW_of_init _ _ _ _ _ _ _ (by rw [addFreq_tok_self]; rfl)]
  have he : (addFreq (readyWorld abzFreq 30) 0 (lit ['a', 'b', '中']) 1 none).env realSys 0 =
      ⟨realArith, register abzFreq (lit ['a', 'b', '中']) 1, 31, realSys.tables, []⟩ := by
    unfold World.env; rw [addFreq_tok_self]; rfl
  rw [he, cut_real]
  decide +kernel

/-! ## C28 -/

/-- C28: if `suggest_freq(segments, tune=True)` returns 0, no accurate-mode cut (HMM on or off) outputs the joined word
any more, provided it has at least two characters, one of them Han. -/
theorem C28_zero_forces_split {F : Type _} [LinearOrder F] (S : Sys F) (w w' : World) (t : Nat) (segs : List PyText) (io : Bool)
    (h : suggestFreq S w t (.tuple segs) true io = (w', .ok 0)) (v : Str) (hd : (segs.map (strdecode S.gbk)).flatten = v)
    (hl : 2 ≤ v.length) (hh : ∃ c ∈ v, isHan c = true) (hm : Bool) (text : PyText) (io' : Bool) :
    v ∉ (cutW S w' t false hm text io').2.out := by
  unfold suggestFreq at h
  cases hc : checkInit S w t io with
  | mk w1 r =>
    rw [hc] at h
    cases r with
    | error e => simp at h
    | ok u =>
      have hi := checkInit_initialized S w w1 t io hc
      simp only [suggestCore] at h
      cases hs : suggestSplit S w1 t (segs.map (strdecode S.gbk)) with
      | error e => rw [hs] at h; simp [Except.map] at h
      | ok f =>
        rw [hs] at h
        simp [Except.map, hd] at h
        obtain ⟨rfl, rfl⟩ := h
        rw [cutW_of_init S _ t _ _ _ _ (by rw [addFreq_tok_self]; exact hi)]
        refine not_output _ hm _ v ?_ ?_ hl hh
        · show ¬ DictWord ((addFreq w1 t v 0 none).tok t).freq v
          rw [addFreq_tok_self]; simp [register_dictWord]
        · exact (mem_addFreq_force _ _ _ _ _ _).mpr (Or.inr ⟨rfl, rfl⟩)

/-- 中, 将 and the more frequent 中将. -/
def rareFreq : Freq := [(lit ['中'], 10), (lit ['将'], 10), (lit ['中', '将'], 80)]

theorem suggestSplit_real (freq : Freq) (total : Int) (ht : 0 < total) (segs : List Str) (hne : segs ≠ [])
    (f : Int) (h : f = min ⌊(segs.map (fun s => (((freq.get? s).getD 1 : Int) : ℝ) / total)).prod * total⌋
      ((freq.get? segs.flatten).getD 0))
    (hP0 : 0 ≤ (segs.map (fun s => (((freq.get? s).getD 1 : Int) : ℝ) / total)).prod)
    (S : Sys ℝ) (hS : S.A = realArith) (w : World) (t : Nat) (hfr : (w.tok t).freq = freq) (hto : (w.tok t).total = total) :
    suggestSplit S w t segs = .ok f := by
  unfold suggestSplit expectFreq
  rw [if_neg hne, hto, if_neg (ne_of_gt ht), hS, hfr, mulFreqs_real]
  have htR : (0 : ℝ) < total := by exact_mod_cast ht
  generalize (segs.map (fun s => (((freq.get? s).getD 1 : Int) : ℝ) / total)).prod = P at *
  have e : realArith.trunc (realArith.mul (realArith.ofInt 1 * P) (realArith.ofInt total)) = ⌊P * total⌋ := by
    simp only [realArith]
    rw [if_pos (by simpa using mul_nonneg hP0 (le_of_lt htR))]
    simp
  rw [e, h]; rfl

theorem rare_suggest (total : Int) (ht : 0 < total) (f : Int) (hf : f = min ⌊(100 : ℝ) / total⌋ 80) (tune : Bool) :
    suggestFreq realSys (readyWorld rareFreq total) 0 (.tuple [.str (lit ['中']), .str (lit ['将'])]) tune true =
      (if tune then addFreq (readyWorld rareFreq total) 0 (lit ['中', '将']) f none else readyWorld rareFreq total, .ok f) := by
  unfold suggestFreq
  rw [checkInit_of_init _ _ _ _ rfl]
  simp only [suggestCore, List.map_cons, List.map_nil, strdecode]
  have htR : (0 : ℝ) < total := by exact_mod_cast ht
  have e1 : (rareFreq.get? (lit ['中'])).getD 1 = 10 := by decide
  have e2 : (rareFreq.get? (lit ['将'])).getD 1 = 10 := by decide
  have e3 : (rareFreq.get? ([lit ['中'], lit ['将']].flatten)).getD 0 = 80 := by decide
  rw [suggestSplit_real rareFreq total ht [lit ['中'], lit ['将']] (by simp) f ?_ ?_ realSys rfl _ 0 rfl rfl]
  · rfl
  · rw [e3, hf]
    congr 2
    simp only [List.map_cons, List.map_nil, e1, e2, List.prod_cons, List.prod_nil]
    push_cast
    field_simp
    norm_num
  · simp only [List.map_cons, List.map_nil, e1, e2, List.prod_cons, List.prod_nil]
    positivity

/-- The hypotheses of `C28_zero_forces_split` are met with total 101; before, 中将 was output. -/
example : (∃ w', suggestFreq realSys (readyWorld rareFreq 101) 0 (.tuple [.str (lit ['中']), .str (lit ['将'])]) true true =
      (w', .ok 0)) ∧
    (cutW realSys (readyWorld rareFreq 101) 0 false false (.str (lit ['中', '将'])) true).2 = Gen.ok [lit ['中', '将']] := by
  constructor
  · refine ⟨_, rare_suggest 101 (by norm_num) 0 ?_ true⟩
    have : ⌊(100 : ℝ) / ((101 : Int) : ℝ)⌋ = 0 := by rw [Int.floor_eq_zero_iff]; norm_num
    rw [this]; rfl
  · rw [cutW_of_init _ _ _ _ _ _ _ rfl]
    show cut ⟨realArith, rareFreq, 101, realSys.tables, []⟩ false false (lit ['中', '将']) = _
    rw [cut_real]; decide +kernel

/-- C28 is false in general: with total 100 the suggested frequency is 1, and 中将 with frequency 1 still beats 中 / 将. -/
theorem C28_does_not_force_split :
    (suggestFreq realSys (readyWorld rareFreq 100) 0 (.tuple [.str (lit ['中']), .str (lit ['将'])]) true true).2 = .ok 1 ∧
    (cutW realSys (suggestFreq realSys (readyWorld rareFreq 100) 0 (.tuple [.str (lit ['中']), .str (lit ['将'])]) true true).1
      0 false false (.str (lit ['中', '将'])) true).2 = Gen.ok [lit ['中', '将']] := by
  have h := rare_suggest 100 (by norm_num) 1 (by
    have : ⌊(100 : ℝ) / ((100 : Int) : ℝ)⌋ = 1 := by norm_num
    rw [this]; rfl) true
  rw [h]
  refine ⟨rfl, ?_⟩
  simp only [if_true]
  rw [cutW_of_init _ _ _ _ _ _ _ (by rw [addFreq_tok_self]; rfl)]
  have he : (addFreq (readyWorld rareFreq 100) 0 (lit ['中', '将']) 1 none).env realSys 0 =
      ⟨realArith, register rareFreq (lit ['中', '将']) 1, 101, realSys.tables, []⟩ := by
    unfold World.env; rw [addFreq_tok_self]; rfl
  rw [he, cut_real]
  decide +kernel

/-- A token list that is just the text can only come from the path that is just the text, if the text is a word. -/
theorem path_of_whole {F : Type _} [LinearOrder F] (E : Env F) (hA : MonoAdd E.A) (hp : PrefixClosed E.freq)
    (hn : NonNeg E.freq) (ht : 0 < E.total) (v : Str) (hv : v ≠ []) (hs : ∀ c ∈ v, isWordCh c = true ∧ isAlnum c = false)
    (hd : DictWord E.freq v) (hm : Bool) (h : cut E false hm v = Gen.ok [v]) : IsBest E.A E.freq E.total v [v] := by
  have hs' : ∀ c ∈ v, isWordCh c = true := fun c hc => (hs c hc).1
  have finish : ∀ path, IsBest E.A E.freq E.total v path → path.head? = some v → IsBest E.A E.freq E.total v [v] := by
    intro path hb hh
    cases path with
    | nil => simp at hh
    | cons x ps =>
      simp only [List.head?_cons, Option.some.injEq] at hh
      subst hh
      have := (isBest_admissible _ _ _ _ _ hb).2
      rw [List.drop_length] at this
      rw [admissible_nil _ _ this] at hb
      exact hb
  cases hm with
  | false =>
    obtain ⟨path, ts, h1, h2, h3⟩ := C05_cut_follows_best_path E hA hp hn ht v hv hs'
    have hfl := (isBest_admissible _ _ _ _ _ h1)
    have hpath : ts = path := by
      refine regrouped_no_single h3 ?_
      rintro w hw ⟨c, rfl, hc⟩
      have hmem : ∀ (ws : List Str) (s : Str), Admissible E.freq s ws → ∀ w ∈ ws, ∀ c ∈ w, c ∈ s := by
        intro ws
        induction ws with
        | nil => simp
        | cons x ws ih =>
          intro s hs w hw c hc
          rcases List.mem_cons.mp hw with rfl | hw
          · exact hs.1.2.1.subset hc
          · exact List.mem_of_mem_drop (ih _ hs.2 w hw c hc)
      have := (hs c (hmem _ _ hfl _ hw c (by simp))).2
      rw [hc] at this; exact Bool.noConfusion this
    rw [h] at h2
    have : ts = [v] := by injection h2 with h2 _; exact h2.symm
    rw [← hpath, this] at h1
    exact h1
  | true =>
    obtain ⟨path, ts, h1, h2, h3⟩ := hmm_regrouped E hA hp hn ht v hv hs'
    rw [h] at h2
    have hts : ts = [v] := by injection h2 with h2 _; exact h2.symm
    refine finish path h1 ?_
    have hflat : ∀ path ts, Regrouped (fun w : Str => w.length = 1)
          (fun r => if r.length = 1 ∨ DictWord E.freq r.flatten then r
                    else (FinalSeg.cut E.A E.tables E.force r.flatten).out) path ts → ts.flatten = path.flatten := by
      intro path ts h
      induction h with
      | nil => rfl
      | word w ps ts _ _ ih => simp [ih]
      | run r ps ts _ _ _ _ ih =>
        rw [List.flatten_append, List.flatten_append, ih]
        congr 1
        split
        · rfl
        · obtain ⟨ws, e1, e2⟩ := FinalSeg.cut_spec E.A E.tables E.force r.flatten
          rw [e1]; exact e2.1
    clear h1 h2
    cases h3 with
    | nil => simp at hts
    | word w ps ts' hw _ => injection hts with hts _; simp [hts]
    | run r ps ts' hr1 hr2 _ h4 =>
      have keep : (if r.length = 1 ∨ DictWord E.freq r.flatten then r
          else (FinalSeg.cut E.A E.tables E.force r.flatten).out) = r := by
        split
        · rfl
        · next hne =>
          exfalso
          rw [if_neg hne] at hts
          push Not at hne
          obtain ⟨ws, e1, e2⟩ := FinalSeg.cut_spec E.A E.tables E.force r.flatten
          rw [e1] at hts
          simp only [Gen.ok] at hts
          have hrf : r.flatten ≠ [] := by
            cases r with
            | nil => exact absurd rfl hr1
            | cons x r =>
              intro e
              have hx := hr2 x (by simp)
              rw [List.flatten_cons] at e
              rw [(List.append_eq_nil_iff.mp e).1] at hx
              simp at hx
          cases ws with
          | nil => exact hrf e2.1.symm
          | cons x ws =>
            injection hts with hx hr
            obtain ⟨rfl, -⟩ := List.append_eq_nil_iff.mp hr
            subst hx
            have := e2.1
            simp at this
            rw [← this] at hne
            exact hne.2 hd
      rw [keep] at hts
      cases r with
      | nil => exact absurd rfl hr1
      | cons x r => injection hts with hx _; simp [hx]

/-- C28, exact arithmetic: let `suggest_freq(segments, tune=True)` return `f ≥ 1` for at least two segments that are
dictionary words.  If `f * (total+f)^(n-1)` is smaller than the product of the segment frequencies, the joined word is not
output whole; otherwise the requested split is not what `cut` without HMM gives. -/
theorem C28_split_criterion (S : Sys ℝ) (hS : S.A = realArith) (w w1 w' : World) (t : Nat) (segs : List PyText) (io : Bool)
    (f : Int) (hc : checkInit S w t io = (w1, .ok ())) (h : suggestFreq S w t (.tuple segs) true io = (w', .ok f))
    (hf : 1 ≤ f) (hp : PrefixClosed (w1.tok t).freq) (hn : NonNeg (w1.tok t).freq) (ht : 0 < (w1.tok t).total)
    (ss : List Str) (hss : segs.map (strdecode S.gbk) = ss) (hlen : 2 ≤ ss.length) (hne : ∀ s ∈ ss, s ≠ [])
    (hdw : ∀ s ∈ ss, DictWord (w1.tok t).freq s)
    (hs : ∀ c ∈ ss.flatten, isWordCh c = true ∧ isAlnum c = false) :
    (f * ((w1.tok t).total + f) ^ (ss.length - 1) < (ss.map (scoreFreq (w1.tok t).freq)).prod →
      ∀ hm io', (cutW S w' t false hm (.str ss.flatten) io').2 ≠ Gen.ok [ss.flatten]) ∧
    ((ss.map (scoreFreq (w1.tok t).freq)).prod ≤ f * ((w1.tok t).total + f) ^ (ss.length - 1) →
      ∀ io', (cutW S w' t false false (.str ss.flatten) io').2 ≠ Gen.ok ss) := by
  have hi := checkInit_initialized S w w1 t io hc
  generalize hfr : (w1.tok t).freq = freq at *
  generalize hto : (w1.tok t).total = total at *
  have hw' : w' = addFreq w1 t ss.flatten f none := by
    unfold suggestFreq at h
    rw [hc] at h
    simp only [suggestCore, hss] at h
    cases hg : suggestSplit S w1 t ss with
    | error e => rw [hg] at h; simp [Except.map] at h
    | ok g =>
      rw [hg] at h
      simp [Except.map] at h
      rw [← h.1, h.2]
  subst hw'
  generalize hv : ss.flatten = v at *
  have hshort : ∀ s ∈ ss, s.length < v.length := by
    intro s hmem
    rw [← hv]
    obtain ⟨a, b, rfl⟩ := List.append_of_mem hmem
    have : 0 < a.flatten.length + b.flatten.length := by
      cases a with
      | cons x a =>
        have := List.length_pos_of_ne_nil (hne x (by simp))
        simp only [List.flatten_cons, List.length_append]; omega
      | nil =>
        cases b with
        | nil => simp at hlen
        | cons x b =>
          have := List.length_pos_of_ne_nil (hne x (by simp))
          simp only [List.flatten_cons, List.length_append]; omega
    simp only [List.flatten_append, List.flatten_cons, List.length_append]; omega
  have hvne : v ≠ [] := by
    rintro rfl
    cases ss with
    | nil => simp at hlen
    | cons x ss => have := hshort x (by simp); simp at this
  have hneq : ∀ s ∈ ss, s ≠ v := by rintro s hmem rfl; exact absurd (hshort s hmem) (lt_irrefl _)
  have hn' : NonNeg (register freq v f) := nonNeg_register _ _ _ hn (by omega)
  have hp' := prefixClosed_register freq v f hp
  have ht' : 0 < total + f := by omega
  have hdv : DictWord (register freq v f) v := by rw [register_dictWord, if_pos rfl]; omega
  have hadmSS : Admissible (register freq v f) v ss := by
    have key : ∀ l : List Str, (∀ s ∈ l, s ≠ [] ∧ DictWord (register freq v f) s) → Admissible (register freq v f) l.flatten l := by
      intro l
      induction l with
      | nil => intro _; rfl
      | cons x l ih =>
        intro hl
        refine ⟨⟨(hl x (by simp)).1, by simp, Or.inl (hl x (by simp)).2⟩, ?_⟩
        rw [List.flatten_cons, List.drop_left]
        exact ih (fun s hs => hl s (List.mem_cons_of_mem _ hs))
    have := key ss (fun s hmem => ⟨hne s hmem, by rw [register_dictWord, if_neg (hneq s hmem)]; exact hdw s hmem⟩)
    rwa [hv] at this
  have hadmV : Admissible (register freq v f) v [v] :=
    ⟨⟨hvne, List.prefix_refl _, Or.inl hdv⟩, by rw [List.drop_length]; rfl⟩
  obtain ⟨p1, e1⟩ := segScore_real (register freq v f) hn' (total + f) ht' ss
  obtain ⟨p2, e2⟩ := segScore_real (register freq v f) hn' (total + f) ht' [v]
  have htR' : (0 : ℝ) < ((total + f : Int) : ℝ) := by exact_mod_cast ht'
  have q2 : segProb (register freq v f) (total + f) [v] = (f : ℝ) / ((total + f : Int) : ℝ) := by
    simp [segProb, scoreFreq_register_self freq v f (by omega)]
  have q1 : segProb (register freq v f) (total + f) ss =
      (((ss.map (scoreFreq freq)).prod : Int) : ℝ) / ((total + f : Int) : ℝ) ^ ss.length := by
    have key : ∀ l : List Str, (∀ s ∈ l, s ≠ v) → segProb (register freq v f) (total + f) l =
        (((l.map (scoreFreq freq)).prod : Int) : ℝ) / ((total + f : Int) : ℝ) ^ l.length := by
      intro l
      induction l with
      | nil => intro _; simp [segProb]
      | cons x l ih =>
        intro hl
        have ih := ih (fun s hs => hl s (List.mem_cons_of_mem _ hs))
        unfold segProb at ih ⊢
        rw [List.map_cons, List.prod_cons, ih, scoreFreq_register _ _ _ _ (hl x (by simp)), List.map_cons, List.prod_cons,
          List.length_cons, pow_succ]
        push_cast
        field_simp
    exact key ss hneq
  have hcmp : (segProb (register freq v f) (total + f) ss ≤ segProb (register freq v f) (total + f) [v] ↔
      (ss.map (scoreFreq freq)).prod ≤ f * (total + f) ^ (ss.length - 1)) := by
    rw [q1, q2, div_le_div_iff₀ (pow_pos htR' _) htR']
    have : ((total + f : Int) : ℝ) ^ ss.length = ((total + f : Int) : ℝ) ^ (ss.length - 1) * ((total + f : Int) : ℝ) := by
      rw [← pow_succ]; congr 1; omega
    rw [this, ← mul_assoc]
    rw [mul_le_mul_iff_left₀ htR']
    exact_mod_cast Iff.rfl
  have henv' : (addFreq w1 t v f none).env S t =
      ⟨realArith, register freq v f, total + f, S.tables, (addFreq w1 t v f none).force⟩ := by
    unfold World.env; rw [hS, addFreq_tok_self]; simp only [hfr, hto]
  have hcutW : ∀ hm io', (cutW S (addFreq w1 t v f none) t false hm (.str v) io').2 =
      cut ⟨realArith, register freq v f, total + f, S.tables, (addFreq w1 t v f none).force⟩ false hm v := by
    intro hm io'
    rw [cutW_of_init S _ t _ _ _ _ (by rw [addFreq_tok_self]; exact hi), henv']
    simp only [strdecode]
  constructor
  · intro hlt hm io' he
    rw [hcutW] at he
    have hb := path_of_whole ⟨realArith, register freq v f, total + f, S.tables, (addFreq w1 t v f none).force⟩
      realArith_mono hp' hn' ht' v hvne hs hdv hm he
    have := isBest_max _ _ _ _ _ _ hb hadmSS
    simp only [e1, e2] at this
    rw [Real.log_le_log_iff p1 p2, hcmp] at this
    omega
  · intro hle io' he
    rw [hcutW] at he
    obtain ⟨path, ts, h1, h2, h3⟩ := C05_cut_follows_best_path
      ⟨realArith, register freq v f, total + f, S.tables, (addFreq w1 t v f none).force⟩ realArith_mono hp' hn' ht' v hvne
      (fun c hc => (hs c hc).1)
    rw [he] at h2
    have hts : ts = ss := by injection h2 with h2 _; exact h2.symm
    have hpath : ts = path := by
      refine regrouped_no_single h3 ?_
      rintro x hx ⟨c, rfl, hc⟩
      have hmem : ∀ (ws : List Str) (s : Str), Admissible (register freq v f) s ws → ∀ w ∈ ws, ∀ c ∈ w, c ∈ s := by
        intro ws
        induction ws with
        | nil => simp
        | cons x ws ih =>
          intro s hs w hw c hc
          rcases List.mem_cons.mp hw with rfl | hw
          · exact hs.1.2.1.subset hc
          · exact List.mem_of_mem_drop (ih _ hs.2 w hw c hc)
      have := (hs c (hmem _ _ (isBest_admissible _ _ _ _ _ h1) _ hx c (by simp))).2
      rw [hc] at this; exact Bool.noConfusion this
    rw [← hpath, hts] at h1
    cases ss with
    | nil => simp at hlen
    | cons x ss =>
      rcases h1.2.2 v [] hadmV with h | ⟨-, h⟩
      · simp only [e1, e2] at h
        rw [Real.log_lt_log_iff p2 p1] at h
        exact absurd (hcmp.mpr hle) (not_le.mpr h)
      · have := hshort x (by simp); omega

/-- Both cases of the criterion occur.  With the frequencies 10, 10 of 中, 将 and total 100 the suggested frequency is 1
and `1 * 101 ≥ 100`, so the split is not obtained; if 中将 has frequency 1 and 中, 将 have 20 (total 100), the suggested
frequency is 1 and `1 * 101 < 400`. -/
example : ([lit ['中'], lit ['将']].map (scoreFreq rareFreq)).prod ≤ 1 * (100 + 1) ^ ([lit ['中'], lit ['将']].length - 1) ∧
    1 * (100 + 1) ^ ([lit ['中'], lit ['将']].length - 1) <
      ([lit ['中'], lit ['将']].map (scoreFreq [(lit ['中'], 20), (lit ['将'], 20), (lit ['中', '将'], 1)])).prod := by
  decide +kernel

end Jieba.Props
