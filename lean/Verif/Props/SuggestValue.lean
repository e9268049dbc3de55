import Verif.Props.Suggest
/-!
# C74: the frequency that `suggest_freq` computes
-/

set_option linter.unusedSectionVars false

namespace Jieba.Props
open Jieba Jieba.Spec

/-- The frequency used for a segment: 1 if it is not registered, 0 if it is only the beginning of a word. -/
def segFreq (freq : Freq) (s : Str) : Int := (freq.get? s).getD 1

/-- The expected number of occurrences of the segments one after the other, `total · ∏ (freq / total)`, rounded down. -/
def expected (freq : Freq) (total : Int) (ss : List Str) : Int := (ss.map (segFreq freq)).prod / total ^ (ss.length - 1)

theorem segFreq_nonneg (freq : Freq) (hn : NonNeg freq) (s : Str) : 0 ≤ segFreq freq s := by
  unfold segFreq
  cases h : PyDict.get? freq s with
  | none => simp
  | some x => simpa using hn s x h

theorem expectFreq_real (freq : Freq) (hn : NonNeg freq) (total : Int) (ht : 0 < total) (ss : List Str) (hne : ss ≠ []) :
    expectFreq realArith freq total ss = .ok (expected freq total ss) := by
  unfold expectFreq expected
  rw [if_neg hne, if_neg (ne_of_gt ht), mulFreqs_real]
  congr 1
  have htR : (0 : ℝ) < total := by exact_mod_cast ht
  have hP : (0 : ℝ) ≤ (((ss.map (segFreq freq)).prod : Int) : ℝ) := by
    have : 0 ≤ (ss.map (segFreq freq)).prod := by
      apply List.prod_nonneg
      intro x hx
      obtain ⟨s, -, rfl⟩ := List.mem_map.mp hx
      exact segFreq_nonneg freq hn s
    exact_mod_cast this
  have hprod : ∀ l : List Str, (l.map (fun s => (((freq.get? s).getD 1 : Int) : ℝ) / total)).prod =
      (((l.map (segFreq freq)).prod : Int) : ℝ) / (total : ℝ) ^ l.length := by
    intro l
    induction l with
    | nil => simp
    | cons s l ih =>
      simp only [List.map_cons, List.prod_cons, ih, List.length_cons, segFreq]
      push_cast
      rw [pow_succ]
      field_simp
  obtain ⟨k, hk⟩ : ∃ k, ss.length = k + 1 := ⟨ss.length - 1, by have := List.length_pos_iff.mpr hne; omega⟩
  have e : realArith.mul (realArith.ofInt 1 * (ss.map (fun s => (((freq.get? s).getD 1 : Int) : ℝ) / total)).prod)
      (realArith.ofInt total) = (((ss.map (segFreq freq)).prod : Int) : ℝ) / ((total ^ k : Int) : ℝ) := by
    show ((1 : Int) : ℝ) * _ * _ = _
    rw [hprod, hk]
    push_cast
    rw [pow_succ]
    field_simp
    rfl
  rw [e]
  have hpow : (0 : ℝ) < ((total ^ k : Int) : ℝ) := by push_cast; positivity
  show (if _ then _ else _) = _
  rw [if_pos (div_nonneg hP hpow.le), Int.floor_div_cast_of_nonneg (by positivity), Int.floor_intCast, hk]
  rfl

/-- C74: `suggest_freq(segments)` for a tuple returns the expected number of occurrences of the segments, but not more than the
present frequency of the joined word. -/
theorem C74_split_value (S : Sys ℝ) (hS : S.A = realArith) (w w1 : World) (t : Nat) (segs : List PyText) (tune io : Bool)
    (hc : checkInit S w t io = (w1, .ok ())) (hn : NonNeg (w1.tok t).freq) (ht : 0 < (w1.tok t).total) (hne : segs ≠ [])
    (ss : List Str) (hss : segs.map (strdecode S.gbk) = ss) :
    (suggestFreq S w t (.tuple segs) tune io).2 =
      .ok (min (expected (w1.tok t).freq (w1.tok t).total ss) (((w1.tok t).freq.get? ss.flatten).getD 0)) := by
  unfold suggestFreq
  rw [hc]
  simp only [suggestCore, suggestSplit, hss, hS]
  rw [expectFreq_real _ hn _ ht ss (by rw [← hss]; simpa using hne)]
  rfl

/-- C74: `suggest_freq(word)` for a text returns one more than the expected number of occurrences of the tokens into which the
word is now cut (without HMM), but not less than the present frequency of the word. -/
theorem C74_word_value (S : Sys ℝ) (hS : S.A = realArith) (w w1 : World) (t : Nat) (word : Str) (tune io : Bool)
    (hc : checkInit S w t io = (w1, .ok ())) (hn : NonNeg (w1.tok t).freq) (ht : 0 < (w1.tok t).total) (hne : word ≠ []) :
    ∃ ts, (cutW S w1 t false false (.str word) io).2 = Gen.ok ts ∧ IsSegmentation ts word ∧
      (suggestFreq S w t (.text (.str word)) tune io).2 =
        .ok (max (expected (w1.tok t).freq (w1.tok t).total ts + 1) (((w1.tok t).freq.get? word).getD 1)) := by
  have hi := checkInit_initialized S w w1 t io hc
  have herr := C06_cut_never_raises (w1.env S t) hn ht false false word
  have hl := cut_lossless (w1.env S t) false word
  refine ⟨(cut (w1.env S t) false false word).out, ?_, ⟨hl.complete herr, hl.nonempty⟩, ?_⟩
  · rw [cutW_of_init _ _ _ _ _ _ _ hi]
    show cut (w1.env S t) false false word = _
    cases h : cut (w1.env S t) false false word with
    | mk o e => rw [h] at herr; simp at herr; rw [herr]; rfl
  · unfold suggestFreq
    rw [hc]
    simp only [suggestCore, suggestWord, hS]
    rw [expectFreq_real _ hn _ ht _ (by
      intro h0
      have := hl.complete herr
      rw [h0] at this; exact hne (by simpa using this.symm))]
    simp only [herr]
    rfl

/-- C74: `bytes` are taken inside a tuple only.  On their own they raise AttributeError (unless empty) and add nothing. -/
theorem C74_bytes {F : Type _} [LinearOrder F] (S : Sys F) (w w1 : World) (t : Nat) (b : Bytes) (hb : b ≠ []) (tune io : Bool)
    (hc : checkInit S w t io = (w1, .ok ())) :
    suggestFreq S w t (.text (.bytes b)) tune io = (w1, .error .attributeError) ∧
    suggestFreq S w t (.tuple [.bytes b]) tune io = suggestFreq S w t (.tuple [.str (strdecode S.gbk (.bytes b))]) tune io := by
  unfold suggestFreq
  rw [hc]
  simp only [suggestCore, if_neg hb, List.map_cons, List.map_nil]
  exact ⟨trivial, rfl⟩

/-- C74: with `tune=True` the returned value is what the word has afterwards, and everything else is as after `add_word`. -/
theorem C74_tune_stores_value {F : Type _} [LinearOrder F] (S : Sys F) (w w1 : World) (t : Nat) (seg : Segment) (io : Bool) (f : Int)
    (hc : checkInit S w t io = (w1, .ok ())) (h : (suggestFreq S w t seg true io).2 = .ok f) :
    ∃ word, (suggestFreq S w t seg true io).1 = (addWord S w1 t (.str word) (.int f) none io).1 ∧
      (((suggestFreq S w t seg true io).1).tok t).freq.get? word = some f ∧
      (∀ x, seg = .text (.str x) → word = x) ∧ (∀ l, seg = .tuple l → word = (l.map (strdecode S.gbk)).flatten) := by
  have hi := checkInit_initialized S w w1 t io hc
  unfold suggestFreq at h ⊢
  rw [hc] at h ⊢
  simp only at h ⊢
  cases hs : suggestCore S w1 t seg with
  | error e => rw [hs] at h; simp at h
  | ok r =>
    obtain ⟨word, g⟩ := r
    rw [hs] at h
    simp at h
    subst h
    obtain ⟨w', e1, e2, -⟩ := C24_add_word_map S w1 t (.str word) g none io hi
    have e3 : addWord S w1 t (.str word) (.int g) none io = (addFreq w1 t word g none, .ok ()) := by
      unfold addWord
      rw [checkInit_of_init _ _ _ _ hi]
      rfl
    refine ⟨word, by rw [e3]; rfl, ?_, ?_, ?_⟩
    · rw [e3] at e1
      simp at e1
      rw [← e1] at e2
      exact e2
    · rintro x rfl
      simp only [suggestCore] at hs
      cases hq : suggestWord S w1 t x with
      | error e => rw [hq] at hs; simp [Except.map] at hs
      | ok v => rw [hq] at hs; simp [Except.map] at hs; exact hs.1.symm
    · rintro l rfl
      simp only [suggestCore] at hs
      cases hq : suggestSplit S w1 t (l.map (strdecode S.gbk)) with
      | error e => rw [hq] at hs; simp [Except.map] at hs
      | ok v => rw [hq] at hs; simp [Except.map] at hs; exact hs.1.symm

/-- C74, consequence: if one of the segments is only the beginning of a dictionary word (registered with frequency 0), the value
is 0, so with `tune=True` the joined word is deleted. -/
theorem C74_prefix_segment_gives_zero (S : Sys ℝ) (hS : S.A = realArith) (w w1 : World) (t : Nat) (segs : List PyText) (tune io : Bool)
    (hc : checkInit S w t io = (w1, .ok ())) (hn : NonNeg (w1.tok t).freq) (ht : 0 < (w1.tok t).total)
    (x : PyText) (hx : x ∈ segs) (h0 : (w1.tok t).freq.get? (strdecode S.gbk x) = some 0) :
    (suggestFreq S w t (.tuple segs) tune io).2 = .ok 0 := by
  rw [C74_split_value S hS w w1 t segs tune io hc hn ht (by rintro rfl; simp at hx) _ rfl]
  have : expected (w1.tok t).freq (w1.tok t).total (segs.map (strdecode S.gbk)) = 0 := by
    unfold expected
    rw [List.prod_eq_zero, Int.zero_ediv]
    rw [List.map_map]
    exact List.mem_map.mpr ⟨x, hx, by simp [segFreq, h0]⟩
  rw [this]
  congr 1
  apply min_eq_left
  cases h : PyDict.get? (w1.tok t).freq ((segs.map (strdecode S.gbk)).flatten) with
  | none => simp
  | some y => simpa using hn _ _ h

/-- C74: the empty word.  `add_word('')` registers it with one more than the total, which more than doubles the total. -/
theorem C74_empty_word {F : Type _} [LinearOrder F] (S : Sys F) (w : World) (t : Nat) (io : Bool) (hi : (w.tok t).initialized = true)
    (h0 : (w.tok t).freq.get? [] = none) (ht : 0 ≤ (w.tok t).total) :
    (suggestFreq S w t (.text (.str [])) false io).2 = .ok ((w.tok t).total + 1) ∧
    (((addWord S w t (.str []) .none none io).1).tok t).total = 2 * (w.tok t).total + 1 := by
  have hw : suggestWord S w t [] = .ok ((w.tok t).total + 1) := by
    show (match expectFreq S.A (w.tok t).freq (w.tok t).total [] with
      | .error e => Except.error e
      | .ok n => _) = _
    simp only [expectFreq, if_true]
    show Except.ok (max _ (((w.tok t).freq.get? []).getD 1)) = _
    rw [h0]
    congr 1
    simp; omega
  constructor
  · unfold suggestFreq
    rw [checkInit_of_init _ _ _ _ hi]
    simp only [suggestCore, hw]
    rfl
  · unfold addWord
    rw [checkInit_of_init _ _ _ _ hi]
    simp only [strdecode, addWordFreq, hw]
    rw [addFreq_tok_self]
    show (w.tok t).total + ((w.tok t).total + 1) = _
    omega

/-- boostFreq with total 100: 北京 / 人 is expected 60·40/100 = 24 times, so `suggest_freq("北京人")` is 25;
`suggest_freq(("北京", "人"))` is 0, because 北京人 is not in the dictionary. -/
example : (suggestFreq realSys (readyWorld boostFreq 100) 0 (.text (.str (lit ['北', '京', '人']))) true true).2 = .ok 25 ∧
    (suggestFreq realSys (readyWorld boostFreq 100) 0 (.tuple [.str (lit ['北', '京']), .str (lit ['人'])]) true true).2 = .ok 0 ∧
    (suggestFreq realSys (readyWorld rareFreq 50) 0 (.tuple [.str (lit ['中']), .str (lit ['将'])]) true true).2 = .ok 2 := by
  refine ⟨?_, ?_, ?_⟩
  · obtain ⟨ts, e1, -, e2⟩ := C74_word_value realSys rfl (readyWorld boostFreq 100) (readyWorld boostFreq 100) 0
      (lit ['北', '京', '人']) true true rfl (nonNeg_of_all _ (by decide)) (by decide) (by decide)
    rw [cutW_of_init _ _ _ _ _ _ _ rfl] at e1
    have : Gen.ok [lit ['北', '京'], lit ['人']] = Gen.ok ts := by
      rw [← e1]
      show _ = cut ⟨realArith, boostFreq, 100, realSys.tables, []⟩ false false _
      rw [cut_real]; decide +kernel
    have h2 : [lit ['北', '京'], lit ['人']] = ts := congrArg Gen.out this
    rw [e2, ← h2]
    decide +kernel
  · rw [C74_split_value realSys rfl (readyWorld boostFreq 100) (readyWorld boostFreq 100) 0 _ true true rfl
      (nonNeg_of_all _ (by decide)) (by decide) (by simp) _ rfl]
    decide +kernel
  · rw [C74_split_value realSys rfl (readyWorld rareFreq 50) (readyWorld rareFreq 50) 0 _ true true rfl
      (nonNeg_of_all _ (by decide)) (by decide) (by simp) _ rfl]
    decide +kernel

/-- 北 is only the beginning of 北京: splitting 北京 into 北 / 京 is suggested by the value 0. -/
example : (suggestFreq realSys (readyWorld boostFreq 100) 0 (.tuple [.str (lit ['北']), .str (lit ['京'])]) true true).2 = .ok 0 :=
  C74_prefix_segment_gives_zero realSys rfl _ (readyWorld boostFreq 100) 0 _ true true rfl (nonNeg_of_all _ (by decide)) (by decide)
    (.str (lit ['北'])) (by simp) (by decide)

example : ((readyWorld boostFreq 100).tok 0).freq.get? [] = none := by decide

end Jieba.Props
