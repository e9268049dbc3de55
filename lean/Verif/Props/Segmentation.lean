import Verif.Proofs.Path
import Verif.Proofs.HmmWords
import Verif.Proofs.HmmTies
import Verif.Props.Sample
import Mathlib.Analysis.SpecialFunctions.Log.Basic
/-!
# C01–C09, C15: accurate-mode segmentation
-/

set_option linter.unusedSectionVars false

namespace Jieba.Props
open Jieba Jieba.Spec

variable {F : Type _} [LinearOrder F]

/-! ## C01, C02 -/

/-- C01: accurate-mode segmentation is lossless, for every dictionary, HMM table, arithmetic and flag. -/
theorem C01_cut_lossless (E : Env F) (hmm : Bool) (s : Str) :
    (cut E false hmm s).out.flatten <+: s ∧
      ((cut E false hmm s).err = none → (cut E false hmm s).out.flatten = s) :=
  ⟨(cut_lossless E hmm s).isPrefix, (cut_lossless E hmm s).complete⟩

/-- The non-raising case is reachable and the tokens are non-trivial. -/
example : cut sampleEnv false true (lit ['我', '来', '到', ',', ' ', '北', '京', '大', '学', '\r', '\n', 'T', '恤']) =
    Gen.ok [lit ['我', '来'], lit ['到'], lit [','], lit [' '], lit ['北', '京', '大', '学'], lit ['\r', '\n'],
      lit ['T', '恤']] := by decide +kernel

/-- The raising case is reachable with tokens already yielded. -/
example : (cut { sampleEnv with total := 0 } false true (lit [',', '北'])) = ⟨[lit [',']], some .valueError⟩ := by
  decide +kernel

/-- C02: no empty token in accurate mode. -/
theorem C02_cut_no_empty_token (E : Env F) (hmm : Bool) (s : Str) : ∀ w ∈ (cut E false hmm s).out, w ≠ [] :=
  (cut_lossless E hmm s).nonempty

/-- C02, negative part: in full mode a text of one space yields empty tokens, whatever the dictionary. -/
theorem C02_full_mode_yields_empty (E : Env F) (hmm : Bool) : [] ∈ (cut E true hmm [0x20]).out := by
  rw [cut_eq_scan]
  rw [show scan isWordCh (cutBlock E true hmm) (fun b => Gen.ok (cutSkip true b)) [0x20] =
    Gen.ok (cutSkip true [0x20]) from rfl]
  decide

/-! ## C03 -/

theorem pathFrom_mem (A : Arith F) (freq : Freq) (total : Int) (s : Str) (route : List (F × Nat))
    (h : calcRoute A freq total s (getDAG freq s) = .ok route) (fuel x : Nat) :
    ∀ w ∈ pathFrom s route fuel x, DictWord freq w ∨ w.length = 1 := by
  obtain ⟨_, _, _, hrow⟩ := calcRoute_ok A freq total s _ route h
  induction fuel generalizing x with
  | zero => simp [pathFrom]
  | succ fuel ih =>
    unfold pathFrom
    by_cases hx : x < s.length
    · rw [if_pos hx]
      obtain ⟨L, best, nxt, h1, h2, h3, h4, -⟩ := (hrow x hx).exists_best
      rw [getDAG_get freq s x hx] at h1
      simp at h1; subst h1
      rw [h2]
      intro w hw
      rcases List.mem_cons.mp hw with rfl | hw
      · rcases dagRow_mem freq s x _ hx h3 with h | ⟨h, _⟩
        · exact Or.inl h
        · right; rw [h, slice_length _ _ _ (by omega)]; omega
      · exact ih _ w hw
    · rw [if_neg hx]; simp

theorem regrouped_mem {single : Str → Prop} {f : List Str → List Str} {path ts : List Str}
    (h : Regrouped single f path ts) :
    ∀ w ∈ ts, w ∈ path ∨ ∃ r, r ≠ [] ∧ (∀ x ∈ r, single x ∧ x ∈ path) ∧ w ∈ f r := by
  induction h with
  | nil => simp
  | word w ps ts hw _ ih =>
    intro x hx
    rcases List.mem_cons.mp hx with rfl | hx
    · simp
    · rcases ih x hx with h | ⟨r, h1, h2, h3⟩
      · simp [h]
      · exact Or.inr ⟨r, h1, fun y hy => ⟨(h2 y hy).1, by simp [(h2 y hy).2]⟩, h3⟩
  | run r ps ts h1 h2 h3 _ ih =>
    intro x hx
    rcases List.mem_append.mp hx with hx | hx
    · exact Or.inr ⟨r, h1, fun y hy => ⟨h2 y hy, by simp [hy]⟩, hx⟩
    · rcases ih x hx with h | ⟨r', g1, g2, g3⟩
      · simp [h]
      · exact Or.inr ⟨r', g1, fun y hy => ⟨(g2 y hy).1, by simp [(g2 y hy).2]⟩, g3⟩

theorem charTokens_mem (s : Str) : ∀ w ∈ charTokens s, w.length = 1 ∨ w = [0x0D, 0x0A] := by
  induction s using charTokens.induct with
  | case1 s ih => intro w hw; simp [charTokens] at hw; rcases hw with rfl | hw; right; rfl; exact ih w hw
  | case2 c s h ih =>
    intro w hw; rw [charTokens.eq_2 c s h] at hw; simp at hw
    rcases hw with rfl | hw
    · left; rfl
    · exact ih w hw
  | case3 => simp [charTokens]

theorem forEach_out_mem {α β} (l : List α) (f : α → Gen β) (x : β) (h : x ∈ (Gen.forEach l f).out) :
    ∃ a ∈ l, x ∈ (f a).out := by
  induction l with
  | nil => simp at h
  | cons a l ih =>
    rw [Gen.forEach_cons] at h
    unfold Gen.andThen at h
    split at h
    · exact ⟨a, by simp, h⟩
    · simp only at h
      rcases List.mem_append.mp h with h | h
      · exact ⟨a, by simp, h⟩
      · obtain ⟨b, hb, h⟩ := ih h
        exact ⟨b, by simp [hb], h⟩

theorem scan_out_mem {β} (p : Ch → Bool) (fW fN : Str → Gen β) (s : Str) (x : β) (h : x ∈ (scan p fW fN s).out) :
    ∃ b ∈ chunks p s, b ≠ [] ∧
      (((∀ c ∈ b, p c = true) ∧ x ∈ (fW b).out) ∨ ((∀ c ∈ b, p c = false) ∧ x ∈ (fN b).out)) := by
  obtain ⟨b, hb, h⟩ := forEach_out_mem _ _ _ h
  have hne := chunks_ne_nil p s b hb
  refine ⟨b, hb, hne, ?_⟩
  rcases chunks_uniform p s b hb with hu | hu
  · left
    have : b.any p = true := by
      cases b with
      | nil => exact absurd rfl hne
      | cons c u => simp [hu c (by simp)]
    rw [if_pos this] at h
    exact ⟨hu, h⟩
  · right
    have : ¬ b.any p = true := by
      intro h'
      obtain ⟨c, hc, h'⟩ := List.any_eq_true.mp h'
      rw [hu c hc] at h'; exact Bool.noConfusion h'
    rw [if_neg this] at h
    exact ⟨hu, h⟩

/-- C03: where a token of `cut(text, HMM=False)` can come from. -/
theorem C03_no_hmm_token_provenance (E : Env F) (s : Str) :
    ∀ w ∈ (cut E false false s).out,
      DictWord E.freq w ∨ w.length = 1 ∨ w = [0x0D, 0x0A] ∨ (w ≠ [] ∧ ∀ c ∈ w, isAlnum c = true) := by
  intro w hw
  rw [cut_accurate_eq_scan] at hw
  obtain ⟨b, -, -, ⟨-, h⟩ | ⟨-, h⟩⟩ := scan_out_mem _ _ _ _ _ hw
  · unfold cutBlock cutDAGNoHMM at h
    simp only [Bool.false_eq_true, if_false] at h
    cases hr : calcRoute E.A E.freq E.total b (getDAG E.freq b) with
    | error e => rw [hr] at h; simp at h
    | ok route =>
      rw [hr] at h
      simp only [Gen.ofExcept_ok] at h
      rw [noHmmLoop_eq b route (routeWF_of_calc _ _ _ _ _ hr) _ _ _ (by omega)] at h
      rcases regrouped_mem (mergeEng_regrouped _) w h with h | ⟨r, h1, h2, h3⟩
      · rcases pathFrom_mem _ _ _ _ _ hr _ _ w h with h | h
        · exact Or.inl h
        · exact Or.inr (Or.inl h)
      · right; right; right
        simp at h3; subst h3
        constructor
        · cases r with
          | nil => exact absurd rfl h1
          | cons x r => obtain ⟨⟨c, rfl, _⟩, _⟩ := h2 x (by simp); simp
        · intro c hc
          rw [List.mem_flatten] at hc
          obtain ⟨x, hx, hc⟩ := hc
          obtain ⟨⟨d, rfl, hd⟩, _⟩ := h2 x hx
          simp at hc; subst hc; exact hd
  · rcases charTokens_mem b w h with h | h
    · exact Or.inr (Or.inl h)
    · exact Or.inr (Or.inr (Or.inl h))

/-- All four kinds of tokens occur. -/
example : cut sampleEnv false false (lit ['北', '京', 'a', 'b', '1', '我', '\r', '\n']) =
    Gen.ok [lit ['北', '京'], lit ['a', 'b', '1'], lit ['我'], lit ['\r', '\n']] := by decide +kernel

/-! ## C04, C05 -/

/-- C04 and C05: a block of word characters is segmented along the best path: the tokens (without HMM) are the words of a
best segmentation, except that consecutive single ASCII letters/digits are joined.  `IsBest` says: no admissible
segmentation of any remaining text scores higher, and among equally good first words the longest is taken. -/
theorem C05_cut_follows_best_path (E : Env F) (hA : MonoAdd E.A) (hp : PrefixClosed E.freq) (hn : NonNeg E.freq)
    (ht : 0 < E.total) (s : Str) (hne : s ≠ []) (hs : ∀ c ∈ s, isWordCh c = true) :
    ∃ path ts, IsBest E.A E.freq E.total s path ∧ cut E false false s = Gen.ok ts ∧
      Regrouped IsLetter (fun r => [r.flatten]) path ts := by
  obtain ⟨route, hr, hwf, path, hpath, -, -, ⟨ts, h1, h2⟩, -⟩ := blocks_from_path E hn ht s
  obtain ⟨r, -, -, hbest, -⟩ := route_best E.A hA E.freq hp E.total s route hr s.length 0 s.length (by omega) (by simp) (le_refl _)
  refine ⟨path, ts, by rw [hpath]; simpa using hbest, ?_, h2⟩
  rw [cut_of_word_block E false s hne hs, h1]

/-- C05: the best path is unique, so the segmentation does not depend on the order in which candidates are enumerated. -/
theorem C05_best_path_unique (A : Arith F) (freq : Freq) (total : Int) (s : Str) (p q : List Str)
    (hp : IsBest A freq total s p) (hq : IsBest A freq total s q) : p = q :=
  isBest_unique A freq total s p q hp hq

theorem regrouped_no_single {single : Str → Prop} {f : List Str → List Str} {path ts : List Str}
    (h : Regrouped single f path ts) (hs : ∀ w ∈ path, ¬ single w) : ts = path := by
  induction h with
  | nil => rfl
  | word w ps ts _ _ ih => rw [ih (fun x hx => hs x (by simp [hx]))]
  | run r ps ts h1 h2 _ _ _ =>
    cases r with
    | nil => exact absurd rfl h1
    | cons w r => exact absurd (h2 w (by simp)) (hs w (by simp))

/-- C04: for a block without ASCII letters/digits the tokens of `cut(HMM=False)` are an admissible segmentation of
maximal score. -/
theorem C04_cut_optimal (E : Env F) (hA : MonoAdd E.A) (hp : PrefixClosed E.freq) (hn : NonNeg E.freq)
    (ht : 0 < E.total) (s : Str) (hne : s ≠ []) (hs : ∀ c ∈ s, isWordCh c = true ∧ isAlnum c = false) :
    ∃ ts, cut E false false s = Gen.ok ts ∧ Admissible E.freq s ts ∧
      ∀ other, Admissible E.freq s other → segScore E.A E.freq E.total other ≤ segScore E.A E.freq E.total ts := by
  obtain ⟨route, hr, hwf, path, hpath, hfl, -, ⟨ts, h1, h2⟩, -⟩ := blocks_from_path E hn ht s
  obtain ⟨r, -, -, hbest, -⟩ := route_best E.A hA E.freq hp E.total s route hr s.length 0 s.length (by omega) (by simp) (le_refl _)
  have hbest' : IsBest E.A E.freq E.total s path := by rw [hpath]; simpa using hbest
  have hts : ts = path := regrouped_no_single h2 (by
    rintro w hw ⟨c, rfl, hc⟩
    have : c ∈ s := by rw [← hfl]; exact List.mem_flatten.mpr ⟨_, hw, by simp⟩
    have := (hs c this).2
    rw [hc] at this; exact Bool.noConfusion this)
  subst hts
  refine ⟨ts, ?_, isBest_admissible _ _ _ _ _ hbest', fun other ho => isBest_max _ _ _ _ _ _ hbest' ho⟩
  rw [cut_of_word_block E false s hne (fun c hc => (hs c hc).1), h1]

/-- C04 for every block, also with ASCII letters/digits: the words chosen are an admissible segmentation of maximal score;
the tokens are these words with consecutive single ASCII letters/digits joined. -/
theorem C04_path_optimal (E : Env F) (hA : MonoAdd E.A) (hp : PrefixClosed E.freq) (hn : NonNeg E.freq)
    (ht : 0 < E.total) (s : Str) (hne : s ≠ []) (hs : ∀ c ∈ s, isWordCh c = true) :
    ∃ path ts, cut E false false s = Gen.ok ts ∧ Regrouped IsLetter (fun r => [r.flatten]) path ts ∧
      Admissible E.freq s path ∧
      ∀ other, Admissible E.freq s other → segScore E.A E.freq E.total other ≤ segScore E.A E.freq E.total path := by
  obtain ⟨path, ts, h1, h2, h3⟩ := C05_cut_follows_best_path E hA hp hn ht s hne hs
  exact ⟨path, ts, h2, h3, isBest_admissible _ _ _ _ _ h1, fun other ho => isBest_max _ _ _ _ _ _ h1 ho⟩

theorem sample_prefixClosed : PrefixClosed sampleFreq := by
  have key : ∀ w ∈ sampleFreq.map Prod.fst, ∀ p ∈ w.inits, p ≠ [] → PyDict.has sampleFreq p = true := by decide +kernel
  intro w hw p hne hpre
  exact key w ((PyDict.mem_keys_iff _ _).mpr hw) p ((List.mem_inits _ _).mpr hpre) hne

theorem nonNeg_of_all (freq : Freq) (h : ∀ kv ∈ freq, 0 ≤ kv.2) : NonNeg freq := by
  intro w v hv
  induction freq with
  | nil => simp at hv
  | cons kv d ih =>
    obtain ⟨k, v'⟩ := kv
    simp only [PyDict.get?] at hv
    split at hv
    · simp at hv; subst hv; exact h _ (List.mem_cons_self ..)
    · exact ih (fun kv hkv => h kv (by simp [hkv])) hv

theorem sample_nonNeg : NonNeg sampleFreq := nonNeg_of_all _ (by decide)

/-- The hypotheses of C04/C05 are met by a concrete dictionary and text with several competing segmentations. -/
example : MonoAdd sampleEnv.A ∧ PrefixClosed sampleEnv.freq ∧ NonNeg sampleEnv.freq ∧ 0 < sampleEnv.total ∧
    (∀ c ∈ lit ['北', '京', '大', '学'], isWordCh c = true ∧ isAlnum c = false) :=
  ⟨intArith_mono, sample_prefixClosed, sample_nonNeg, by decide, by decide⟩

/-- A block with letters meets the hypotheses of `C04_path_optimal`. -/
example : ∀ c ∈ lit ['北', '京', 'a', 'b', '大', '学'], isWordCh c = true := by decide

/-- Exact real arithmetic with natural logarithms. -/
noncomputable def realArith : Arith ℝ where
  zero := 0
  add := (· + ·)
  sub := (· - ·)
  mul := (· * ·)
  div := (· / ·)
  log n := Real.log n
  ofInt n := n
  trunc x := if 0 ≤ x then ⌊x⌋ else ⌈x⌉

theorem realArith_mono : MonoAdd realArith :=
  ⟨fun _ _ c h => add_le_add_left h c, fun _ _ c h => add_le_add_right h c⟩

/-- Probability of a segmentation: product of `freq/total`. -/
noncomputable def segProb (freq : Freq) (total : Int) (ws : List Str) : ℝ :=
  (ws.map (fun w => (scoreFreq freq w : ℝ) / total)).prod

theorem segScore_real (freq : Freq) (hn : NonNeg freq) (total : Int) (ht : 0 < total) (ws : List Str) :
    0 < segProb freq total ws ∧ segScore realArith freq total ws = Real.log (segProb freq total ws) := by
  induction ws with
  | nil => simp [segProb, segScore, realArith]
  | cons w ws ih =>
    have hf := scoreFreq_pos freq hn w
    have hf' : (0 : ℝ) < (scoreFreq freq w : ℝ) := by exact_mod_cast hf
    have ht' : (0 : ℝ) < (total : ℝ) := by exact_mod_cast ht
    have hq : 0 < (scoreFreq freq w : ℝ) / total := div_pos hf' ht'
    have hprod : segProb freq total (w :: ws) = (scoreFreq freq w : ℝ) / total * segProb freq total ws := by
      simp [segProb]
    refine ⟨by rw [hprod]; exact mul_pos hq ih.1, ?_⟩
    rw [hprod, Real.log_mul (ne_of_gt hq) (ne_of_gt ih.1), Real.log_div (ne_of_gt hf') (ne_of_gt ht')]
    have e1 : ((scoreFreq freq w).toNat : ℝ) = (scoreFreq freq w : ℝ) := by
      have : ((scoreFreq freq w).toNat : Int) = scoreFreq freq w := Int.toNat_of_nonneg (le_of_lt hf)
      exact_mod_cast congrArg (fun z : Int => (z : ℝ)) this
    have e2 : (total.toNat : ℝ) = (total : ℝ) := by
      have : (total.toNat : Int) = total := Int.toNat_of_nonneg (le_of_lt ht)
      exact_mod_cast congrArg (fun z : Int => (z : ℝ)) this
    show (Real.log _ - Real.log _) + segScore realArith freq total ws = _
    rw [ih.2, e1, e2]

/-- C04 in exact arithmetic: the product of `freq/total` over the tokens is maximal. -/
theorem C04_cut_max_probability (freq : Freq) (total : Int) (T : FinalSeg.Tables ℝ) (force : List Str)
    (hp : PrefixClosed freq) (hn : NonNeg freq) (ht : 0 < total) (s : Str) (hne : s ≠ [])
    (hs : ∀ c ∈ s, isWordCh c = true ∧ isAlnum c = false) :
    ∃ ts, cut ⟨realArith, freq, total, T, force⟩ false false s = Gen.ok ts ∧ Admissible freq s ts ∧
      ∀ other, Admissible freq s other → segProb freq total other ≤ segProb freq total ts := by
  obtain ⟨ts, h1, h2, h3⟩ := C04_cut_optimal ⟨realArith, freq, total, T, force⟩ realArith_mono hp hn ht s hne hs
  refine ⟨ts, h1, h2, ?_⟩
  intro other ho
  have h := h3 other ho
  obtain ⟨p1, e1⟩ := segScore_real freq hn total ht other
  obtain ⟨p2, e2⟩ := segScore_real freq hn total ht ts
  simp only at h
  rw [e1, e2] at h
  exact (Real.log_le_log_iff p1 p2).mp h

/-! ## C06 -/

theorem forEach_err_none {α β} (l : List α) (f : α → Gen β) (h : ∀ a ∈ l, (f a).err = none) :
    (Gen.forEach l f).err = none := by
  rw [Gen.forEach_eq_ok l f h]; rfl

/-- C06: with positive total and no negative frequency `cut` never raises. -/
theorem C06_cut_never_raises (E : Env F) (hn : NonNeg E.freq) (ht : 0 < E.total) (ca hmm : Bool) (s : Str) :
    (cut E ca hmm s).err = none := by
  rw [cut_eq_scan]
  unfold scan
  apply forEach_err_none
  intro b _
  split
  · cases ca
    · obtain ⟨_, _, _, _, _, _, _, ⟨ts, h1, _⟩, ⟨ts', h2, _⟩⟩ := blocks_from_path E hn ht b
      cases hmm
      · rw [h1]; rfl
      · rw [h2]; rfl
    · rfl
  · rfl

/-- C06: with a non-positive total, any text containing a word character makes accurate mode raise ValueError
(after the tokens before that character have been yielded). -/
theorem C06_cut_raises (E : Env F) (ht : ¬ 0 < E.total) (hmm : Bool) (a b : Str) (c : Ch)
    (ha : ∀ d ∈ a, isWordCh d = false) (hc : isWordCh c = true) :
    cut E false hmm (a ++ c :: b) = ⟨charTokens a, some .valueError⟩ := by
  have hcut : ∀ s, isWordCh c = true → cut E false hmm (c :: s) = Gen.raise .valueError := by
    intro s hc
    obtain ⟨u, rest, hsplit, hu, hr⟩ := split_at_class isWordCh true (c :: s)
    have hu0 : u ≠ [] := by
      rintro rfl
      simp at hsplit
      have := hr c (by rw [← hsplit]; rfl)
      rw [hc] at this; exact Bool.noConfusion this
    rw [cut_accurate_eq_scan, hsplit, scan_word _ _ _ u rest hu0 hu (by simpa using hr)]
    have hb : cutBlock E false hmm u = Gen.raise .valueError := by
      unfold cutBlock cutDAG cutDAGNoHMM
      rw [calcRoute_raises _ _ _ ht]
      cases hmm <;> rfl
    rw [hb]; rfl
  rw [cut_append E hmm a (c :: b), hcut b hc]
  · have : cut E false hmm a = Gen.ok (charTokens a) := by
      rw [cut_accurate_eq_scan]
      by_cases h0 : a = []
      · subst h0; rfl
      · have := scan_nonword isWordCh (cutBlock E false hmm) (fun b => Gen.ok (charTokens b)) a [] h0 ha (by simp)
        rw [List.append_nil] at this
        rw [this, scan_nil]; simp
    rw [this]; simp [Gen.ok_andThen]
  · intro x y hx hy
    simp at hy; subst hy
    have hx' := ha x (List.mem_of_getLast? hx)
    refine ⟨by simp [hx'], ?_⟩
    rintro ⟨-, rfl⟩
    simp [isWordCh, isHan, isAlnum, isLower, isUpper, isDigit] at hc

/-- An empty dictionary has total 0, so the hypothesis of `C06_cut_raises` is met by a freshly loaded empty file. -/
example : ¬ 0 < ({ sampleEnv with freq := [], total := 0 } : Env Int).total := by decide

/-! ## C07 -/

theorem spans_mem_regrouped {single : Str → Prop} {f : List Str → List Str} {path ts : List Str}
    (h : Regrouped single f path ts)
    (hf : ∀ r, r ≠ [] → (∀ w ∈ r, single w) → (f r).flatten = r.flatten) :
    ∀ o k w, (k, w) ∈ spans o path → ¬ single w → (k, w) ∈ spans o ts := by
  have spans_append : ∀ (a b : List Str) (o : Nat), spans o (a ++ b) = spans o a ++ spans (o + a.flatten.length) b := by
    intro a
    induction a with
    | nil => simp [spans]
    | cons x a ih => intro b o; simp [spans, ih]; congr 1; omega
  have spans_word : ∀ (a : List Str) (o k : Nat) (w : Str), (k, w) ∈ spans o a → w ∈ a := by
    intro a
    induction a with
    | nil => simp [spans]
    | cons x a ih =>
      intro o k w hm
      simp [spans] at hm
      rcases hm with ⟨-, rfl⟩ | hm
      · simp
      · simp [ih _ _ _ hm]
  induction h with
  | nil => simp [spans]
  | word w ps ts hw _ ih =>
    intro o k x hx hs
    simp only [spans, List.mem_cons] at hx ⊢
    rcases hx with hx | hx
    · exact Or.inl hx
    · exact Or.inr (ih _ _ _ hx hs)
  | run r ps ts h1 h2 _ _ ih =>
    intro o k x hx hs
    rw [spans_append] at hx ⊢
    rcases List.mem_append.mp hx with hx | hx
    · exact absurd (h2 _ (spans_word _ _ _ _ hx)) hs
    · rw [hf r h1 h2]
      exact List.mem_append_right _ (ih _ _ _ hx hs)

/-- The same with the tokens of `finalseg.cut`. -/
theorem hmm_regrouped (E : Env F) (hA : MonoAdd E.A) (hp : PrefixClosed E.freq) (hn : NonNeg E.freq)
    (ht : 0 < E.total) (s : Str) (hne : s ≠ []) (hs : ∀ c ∈ s, isWordCh c = true) :
    ∃ path ts, IsBest E.A E.freq E.total s path ∧ cut E false true s = Gen.ok ts ∧
      Regrouped (fun w => w.length = 1)
        (fun r => if r.length = 1 ∨ DictWord E.freq r.flatten then r
                  else (FinalSeg.cut E.A E.tables E.force r.flatten).out) path ts := by
  obtain ⟨route, hr, hwf, path, hpath, -, -, -, ⟨ts, h1, h2⟩⟩ := blocks_from_path E hn ht s
  obtain ⟨r, -, -, hbest, -⟩ := route_best E.A hA E.freq hp E.total s route hr s.length 0 s.length (by omega) (by simp) (le_refl _)
  refine ⟨path, ts, by rw [hpath]; simpa using hbest, ?_, ?_⟩
  · rw [cut_of_word_block E true s hne hs, h1]
  · have : runTokens E.freq (hmmTokens E) = (fun r => if r.length = 1 ∨ DictWord E.freq r.flatten then r
                  else (FinalSeg.cut E.A E.tables E.force r.flatten).out) := by
      funext r
      unfold runTokens
      by_cases h : r.length = 1 ∨ DictWord E.freq r.flatten
      · rw [if_pos h, if_pos (h.imp_right (truthy_iff _ _).mpr)]
      · rw [if_neg h, if_neg (fun h' => h (h'.imp_right (truthy_iff _ _).mp))]; rfl
    rw [← this]; exact h2

/-- C07: with HMM, the tokens of a block come from the best path by re-segmenting only maximal runs of
single-character path words: a run of one character, or one that is itself a dictionary word, gives single characters; any other
run is replaced by the HMM segmentation of that run (`FinalTokens`: the words of a best tagging). -/
theorem C07_hmm_only_inside_single_runs (E : Env F) (hA : MonoAdd E.A) (hp : PrefixClosed E.freq) (hn : NonNeg E.freq)
    (ht : 0 < E.total) (s : Str) (hne : s ≠ []) (hs : ∀ c ∈ s, isWordCh c = true) :
    ∃ (path ts : List Str) (hmmWords : Str → List Str), (∀ b, FinalTokens E.A E.tables E.force b (hmmWords b)) ∧
      IsBest E.A E.freq E.total s path ∧ cut E false true s = Gen.ok ts ∧
      Regrouped (fun w => w.length = 1)
        (fun r => if r.length = 1 ∨ DictWord E.freq r.flatten then r else hmmWords r.flatten) path ts := by
  obtain ⟨path, ts, h1, h2, h3⟩ := hmm_regrouped E hA hp hn ht s hne hs
  refine ⟨path, ts, fun b => (FinalSeg.cut E.A E.tables E.force b).out, ?_, h1, h2, h3⟩
  intro b
  obtain ⟨ws, e1, e2⟩ := FinalSeg.cut_tokens E.A hA E.tables E.force b
  simp only [e1]; exact e2

/-- C07: every multi-character word of the best path is output at the same offset with HMM on (and, when it is not a
single letter, also with HMM off). -/
theorem C07_multichar_words_kept (E : Env F) (hA : MonoAdd E.A) (hp : PrefixClosed E.freq) (hn : NonNeg E.freq)
    (ht : 0 < E.total) (s : Str) (hne : s ≠ []) (hs : ∀ c ∈ s, isWordCh c = true) (hmm : Bool) :
    ∃ path ts, IsBest E.A E.freq E.total s path ∧ cut E false hmm s = Gen.ok ts ∧
      ∀ k w, (k, w) ∈ spans 0 path → w.length ≠ 1 → (k, w) ∈ spans 0 ts := by
  cases hmm with
  | true =>
    obtain ⟨path, ts, h1, h2, h3⟩ := hmm_regrouped E hA hp hn ht s hne hs
    refine ⟨path, ts, h1, h2, fun k w hw hl => spans_mem_regrouped h3 ?_ 0 k w hw hl⟩
    intro r _ _
    by_cases h : r.length = 1 ∨ DictWord E.freq r.flatten
    · rw [if_pos h]
    · rw [if_neg h]
      obtain ⟨ws, e1, e2⟩ := FinalSeg.cut_spec E.A E.tables E.force r.flatten
      rw [e1]; exact e2.1
  | false =>
    obtain ⟨path, ts, h1, h2, h3⟩ := C05_cut_follows_best_path E hA hp hn ht s hne hs
    refine ⟨path, ts, h1, h2, fun k w hw hl => spans_mem_regrouped h3 ?_ 0 k w hw ?_⟩
    · intro r _ _; simp
    · rintro ⟨c, rfl, _⟩; exact hl rfl

/-- A block where the HMM joins two single-character path words next to a kept dictionary word. -/
example : cut sampleEnv false true (lit ['我', '来', '北', '京']) = Gen.ok [lit ['我', '来'], lit ['北', '京']] ∧
    cut sampleEnv false false (lit ['我', '来', '北', '京']) = Gen.ok [lit ['我'], lit ['来'], lit ['北', '京']] := by
  decide +kernel

/-! ## C08, C09 -/

/-- C08: the HMM segmenter never raises, loses nothing and yields no empty token. -/
theorem C08_finalseg_lossless (A : Arith F) (T : FinalSeg.Tables F) (force : List Str) (s : Str) :
    (FinalSeg.cut A T force s).err = none ∧ (FinalSeg.cut A T force s).out.flatten = s ∧
      ∀ w ∈ (FinalSeg.cut A T force s).out, w ≠ [] := by
  obtain ⟨ws, h1, h2⟩ := FinalSeg.cut_spec A T force s
  rw [h1]; exact ⟨rfl, h2.1, h2.2⟩

/-- Mixed text, with a force-split word. -/
example : FinalSeg.cut intArith sampleTables [lit ['我', '来']] (lit ['我', '来', '3', '.', '5', '%', '到', '了', '-']) =
    Gen.ok [lit ['我'], lit ['来'], lit ['3', '.', '5', '%'], lit ['到', '了'], lit ['-']] := by decide +kernel

/-- C09: the Viterbi tag sequence is complete, allowed, closed and of maximal score. -/
theorem C09_viterbi_valid_optimal (A : Arith F) (hA : MonoAdd A) (T : FinalSeg.Tables F) (s : Str) (hne : s ≠ []) :
    ∃ p tags, FinalSeg.viterbi A T s = .ok (p, tags) ∧ tags.length = s.length ∧ ValidTags tags ∧
      p = tagScore A T (s.zip tags) ∧
      ∀ tags', tags'.length = s.length → ValidTags tags' → tagScore A T (s.zip tags') ≤ tagScore A T (s.zip tags) := by
  cases s with
  | nil => exact absurd rfl hne
  | cons c cs =>
    obtain ⟨p, tags, h1, h2, h3⟩ := FinalSeg.viterbi_struct A T c cs
    obtain ⟨p', tags', h1', h4, h5⟩ := FinalSeg.viterbi_opt A T hA c cs
    rw [h1] at h1'
    simp at h1'
    obtain ⟨rfl, rfl⟩ := h1'
    exact ⟨p, tags, h1, h2, h3, h4, fun t ht hv => h4 ▸ h5 t ht hv⟩

example : FinalSeg.viterbi intArith sampleTables (lit ['我', '来', '到']) = .ok (-6, [.B, .E, .S]) := by decide +kernel

/-- C09, ties: with exact addition, of several taggings with the maximal score the one is taken that has, at the last difference, the
tag later in the alphabet. -/
theorem C09_ties (A : Arith F) (hA : MonoAdd A) (hst : ∀ a b c : F, a < b → A.add a c < A.add b c) (T : FinalSeg.Tables F) (s : Str)
    (hne : s ≠ []) : ∃ p tags, FinalSeg.viterbi A T s = .ok (p, tags) ∧
      ∀ tags', tags'.length = s.length → ValidTags tags' → tagScore A T (s.zip tags') = p →
        tags' = tags ∨ LastLetterLarger tags tags' := by
  cases s with
  | nil => exact absurd rfl hne
  | cons c cs => exact FinalSeg.viterbi_tie A hA hst T c cs

/-- With constant tables all taggings are equal, and S, the last letter, wins everywhere. -/
example : FinalSeg.viterbi intArith ⟨fun _ => -1, fun _ _ => some (-1), fun _ _ => some (-1), -9⟩ (lit ['我', '来']) =
    .ok (-4, [.S, .S]) ∧ tagScore intArith ⟨fun _ => -1, fun _ _ => some (-1), fun _ _ => some (-1), -9⟩
      ((lit ['我', '来']).zip [.B, .E]) = -4 ∧ ∀ a b c : Int, a < b → intArith.add a c < intArith.add b c := by
  refine ⟨by decide +kernel, by decide +kernel, fun a b c h => ?_⟩
  show a + c < b + c
  omega

/-- C09: the words that `finalseg.cut` yields are those of a best tagging of each run of Han characters (a word ends after each 'E'
and 'S'), words of `Force_Split_Words` taken apart; numbers and other text between the runs as described by `NumberTokens`. -/
theorem C09_words_of_best_tagging (A : Arith F) (hA : MonoAdd A) (T : FinalSeg.Tables F) (force : List Str) (s : Str) :
    ∃ ts, FinalSeg.cut A T force s = Gen.ok ts ∧ FinalTokens A T force s ts :=
  FinalSeg.cut_tokens A hA T force s

/-- Decimals and a percent sign stay with the number, what comes between numbers is one token. -/
example : FinalSeg.cut intArith sampleTables [] (lit ['v', '3', '.', '5', '%', '.', '-', '7', '.', 'x', '2']) =
    Gen.ok [lit ['v', '3', '.', '5', '%'], lit ['.', '-'], lit ['7'], lit ['.'], lit ['x', '2']] := by decide +kernel

/-! ## C15 -/

/-- C15 (general form): if cutting between `a` and `b` separates neither two word characters nor a CR LF pair, then
segmenting the whole is segmenting the parts (an exception in the first part stops everything). -/
theorem C15_cut_local (E : Env F) (hmm : Bool) (a b : Str) (h : CleanBoundary isWordCh a b) :
    cut E false hmm (a ++ b) = Gen.andThen (cut E false hmm a) (cut E false hmm b) :=
  cut_append E hmm a b h

/-- C15: around a separator character `c`. -/
theorem C15_cut_around_separator (E : Env F) (hmm : Bool) (a b : Str) (c : Ch) (hc : isWordCh c = false)
    (h1 : ¬ (a.getLast? = some 0x0D ∧ c = 0x0A)) (h2 : ¬ (c = 0x0D ∧ b.head? = some 0x0A)) :
    cut E false hmm (a ++ c :: b) =
      Gen.andThen (cut E false hmm a) (Gen.andThen (Gen.ok [[c]]) (cut E false hmm b)) := by
  have hcut : cut E false hmm [c] = Gen.ok [[c]] := by
    rw [cut_accurate_eq_scan]
    have := scan_nonword isWordCh (cutBlock E false hmm) (fun b => Gen.ok (charTokens b)) [c] [] (by simp) (by simpa using hc) (by simp)
    rw [List.append_nil] at this
    rw [this, scan_nil, charTokens.eq_2 c [] (by simp)]
    simp [charTokens]
  rw [cut_append E hmm a (c :: b), show c :: b = [c] ++ b from rfl, cut_append E hmm [c] b, hcut]
  · intro x y hx hy
    simp at hx; subst hx
    exact ⟨by simp [hc], fun h => h2 ⟨h.1, h.2 ▸ hy⟩⟩
  · intro x y hx hy
    simp at hy; subst hy
    exact ⟨by simp [hc], fun h => h1 ⟨h.1 ▸ hx, h.2⟩⟩

/-- C15: a CR LF pair is one token, and separates what is before it from what is after it. -/
theorem C15_cut_around_crlf (E : Env F) (hmm : Bool) (a b : Str) :
    cut E false hmm (a ++ 0x0D :: 0x0A :: b) =
      Gen.andThen (cut E false hmm a) (Gen.andThen (Gen.ok [[0x0D, 0x0A]]) (cut E false hmm b)) := by
  have hcut : cut E false hmm [0x0D, 0x0A] = Gen.ok [[0x0D, 0x0A]] := by
    rw [cut_accurate_eq_scan]
    have := scan_nonword isWordCh (cutBlock E false hmm) (fun b => Gen.ok (charTokens b)) [0x0D, 0x0A] [] (by simp) (by decide) (by simp)
    rw [List.append_nil] at this
    rw [this, scan_nil]
    simp [charTokens]
  rw [cut_append E hmm a (0x0D :: 0x0A :: b), show (0x0D :: 0x0A :: b : Str) = [0x0D, 0x0A] ++ b from rfl, cut_append E hmm [0x0D, 0x0A] b, hcut]
  · intro x y hx hy
    simp at hx; subst hx
    exact ⟨fun h => absurd h.1 (by decide), fun h => absurd h.1 (by decide)⟩
  · intro x y hx hy
    simp at hy; subst hy
    exact ⟨fun h => absurd h.2 (by decide), fun h => absurd h.2 (by decide)⟩

example : isWordCh 0x3002 = false ∧ ¬ ((lit ['北', '京']).getLast? = some 0x0D ∧ (0x3002 : Ch) = 0x0A) := by decide

end Jieba.Props
