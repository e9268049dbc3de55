import Verif.Proofs.CutAllLetters
import Verif.Proofs.CutAllExact
import Verif.Props.Sample
import Verif.Props.Segmentation
/-!
# C10, C11: full mode
-/

set_option linter.unusedSectionVars false

namespace Jieba.Props
open Jieba Jieba.Spec

variable {F : Type _} [LinearOrder F]

/-- C10: on a text without ASCII letters/digits full mode yields every dictionary word (of at least two word characters)
exactly as often as it occurs in the text. -/
theorem C10_full_mode_complete (E : Env F) (hmm : Bool) (hp : PrefixClosed E.freq) (s : Str)
    (hs : ∀ c ∈ s, isAlnum c = false) (w : Str) (hd : DictWord E.freq w) (hw : 2 ≤ w.length)
    (hww : ∀ c ∈ w, isWordCh c = true) :
    (cut E true hmm s).err = none ∧ (cut E true hmm s).out.count w = occurrences w s :=
  ⟨cut_full_ok E hmm s, cut_full_count E hmm hp w hw hd hww s hs⟩

/-- Overlapping words are all found. -/
example : PrefixClosed sampleEnv.freq ∧ DictWord sampleEnv.freq (lit ['大', '学']) ∧
    occurrences (lit ['大', '学']) (lit ['北', '京', '大', '学', '。', '大', '学']) = 2 ∧
    (cut sampleEnv true true (lit ['北', '京', '大', '学', '。', '大', '学'])).out =
      [lit ['北', '京'], lit ['北', '京', '大', '学'], lit ['大', '学'], lit ['。'], lit ['大', '学']] :=
  ⟨sample_prefixClosed, by decide +kernel, by decide +kernel, by decide +kernel⟩

/-- C10, negative part: the restriction to texts without ASCII letters/digits is needed.  With the dictionary
`T恤` (plus its prefix entry) the text `aT恤` contains the word, but full mode does not yield it. -/
theorem C10_fails_with_letters :
    PrefixClosed sampleEnv.freq ∧ DictWord sampleEnv.freq (lit ['T', '恤']) ∧
    occurrences (lit ['T', '恤']) (lit ['a', 'T', '恤']) = 1 ∧
    lit ['T', '恤'] ∉ (cut sampleEnv true true (lit ['a', 'T', '恤'])).out :=
  ⟨sample_prefixClosed, by decide +kernel, by decide +kernel, by decide +kernel⟩

/-- C11: on a text without ASCII letters/digits every full-mode token is an occurrence in the text (offsets can be
assigned to all tokens), together they cover every character, and each is a dictionary word, a single character
or made of non-word characters only. -/
theorem C11_full_mode_covers (E : Env F) (hmm : Bool) (s : Str) (hs : ∀ c ∈ s, isAlnum c = false) :
    ∃ l : List (Nat × Str), cut E true hmm s = Gen.ok (l.map Prod.snd) ∧ Cover s l ∧
      ∀ p ∈ l, DictWord E.freq p.2 ∨ p.2.length = 1 ∨ ∀ c ∈ p.2, isWordCh c = false := by
  obtain ⟨l, h1, h2⟩ := cut_full_cover E hmm s hs
  refine ⟨l, h1, h2, ?_⟩
  intro p hp
  apply cut_full_sound E hmm s hs
  rw [h1]
  exact List.mem_map_of_mem (f := Prod.snd) hp

example : ∀ c ∈ lit ['北', '京', '，', '大', '学'], isAlnum c = false := by decide

def letterFreq : Freq := [(lit ['b'], 3), (lit ['b', 'c'], 3)]

/-- C11, negative part: with ASCII words in the dictionary full mode can yield a token that does not occur in the text
(`ad` from `abcd`). -/
theorem C11_fails_with_letters :
    lit ['a', 'd'] ∈ (cut { sampleEnv with freq := letterFreq } true true (lit ['a', 'b', 'c', 'd'])).out ∧
    ¬ lit ['a', 'd'] <:+: lit ['a', 'b', 'c', 'd'] := by decide +kernel

/-- C11: on every text full mode ends without an exception; its tokens are concatenations of pieces that occur in the text.  A token with
several pieces lies in a run of ASCII letters and digits; the pieces of all tokens cover the text; every piece is a dictionary word, a single
character or made of non-word characters; and each occurrence of a dictionary word (of at least two word characters) is a piece. -/
theorem C11_full_mode_pieces (E : Env F) (hmm : Bool) (s : Str) :
    ∃ gs : List (List (Nat × Str)), cut E true hmm s = Gen.ok (gs.map (fun g => (g.map Prod.snd).flatten)) ∧
      Cover s gs.flatten ∧ (∀ g ∈ gs, MergedPieces s g) ∧
      (∀ p ∈ gs.flatten, DictWord E.freq p.2 ∨ p.2.length = 1 ∨ ∀ c ∈ p.2, isWordCh c = false) ∧
      ∀ w, 2 ≤ w.length → (∀ c ∈ w, isWordCh c = true) → PrefixClosed E.freq → DictWord E.freq w → ∀ k, w <+: s.drop k →
        (k, w) ∈ gs.flatten :=
  cut_full_pieces E hmm s

/-- C11: a maximal run of ASCII letters and digits that meets no word of two or more characters is a token. -/
theorem C11_letter_run (E : Env F) (hmm : Bool) (x u y : Str) (hu : u ≠ []) (hal : ∀ c ∈ u, isAlnum c = true)
    (hx : ∀ c, x.getLast? = some c → isAlnum c = false) (hy : ∀ c, y.head? = some c → isAlnum c = false)
    (hno : NoWordMeets E.freq (x ++ u ++ y) x.length (x.length + u.length)) : u ∈ (cut E true hmm (x ++ u ++ y)).out :=
  cut_full_run E hmm u hu hal _ x y rfl hx hy hno

/-- `R2D2` between Han characters, and what full mode yields. -/
example : lit ['R', '2', 'D', '2'] ∈ (cut sampleEnv true true (lit ['北', '京', 'R', '2', 'D', '2', '大'])).out := by
  refine C11_letter_run sampleEnv true (lit ['北', '京']) (lit ['R', '2', 'D', '2']) (lit ['大']) (by decide) (by decide) (by decide)
    (by decide) ?_
  intro i j h1 h2 h3 h4
  simp only [lit, List.length_append, List.length_map, List.length_cons, List.length_nil] at h2 h3 h4
  have key : ∀ i < 6, ∀ j < 8, i + 2 ≤ j → 2 < j →
      ¬ DictWord sampleEnv.freq (slice (lit ['北', '京'] ++ lit ['R', '2', 'D', '2'] ++ lit ['大']) i j) := by decide +kernel
  exact key i (by omega) j (by omega) h1 h4

/-- C10: on every text, with letters or not, full mode yields every dictionary word whose first character is not an ASCII letter or digit
exactly as often as it occurs in the text. -/
theorem C10_complete_with_letters (E : Env F) (hmm : Bool) (hp : PrefixClosed E.freq) (s : Str) (c : Ch) (w : Str)
    (hc : isAlnum c = false) (hw : w ≠ []) (hd : DictWord E.freq (c :: w)) (hww : ∀ d ∈ c :: w, isWordCh d = true) :
    (cut E true hmm s).out.count (c :: w) = occurrences (c :: w) s :=
  cut_full_count_letters E hmm hp c w hc hw hd hww s

/-- C10: on every text each dictionary word of at least two word characters that occurs in it is part of a token of full mode. -/
theorem C10_part_of_token (E : Env F) (hmm : Bool) (hp : PrefixClosed E.freq) (s w : Str) (hd : DictWord E.freq w) (hw : 2 ≤ w.length)
    (hww : ∀ c ∈ w, isWordCh c = true) (ho : w <:+: s) : ∃ t ∈ (cut E true hmm s).out, w <:+: t := by
  obtain ⟨gs, h1, -, -, -, h5⟩ := cut_full_pieces E hmm s
  obtain ⟨a, b, rfl⟩ := ho
  have hm := h5 w hw hww hp hd a.length (by simp)
  rw [List.mem_flatten] at hm
  obtain ⟨g, hg, hm⟩ := hm
  refine ⟨joinG g, by rw [h1]; exact List.mem_map_of_mem hg, ?_⟩
  obtain ⟨g1, g2, rfl⟩ := List.append_of_mem hm
  exact ⟨joinG g1, joinG g2, by simp [joinG]⟩

/-- 北京 in a text with letters; T恤 becomes part of the token aT恤. -/
example : (cut sampleEnv true true (lit ['a', 'T', '恤', '北', '京', 'b'])).out =
    [lit ['a', 'T', '恤'], lit ['北', '京'], lit ['b']] := by decide +kernel

def overlapFreq : Freq :=
  [(lit ['a'], 0), (lit ['a', 'b'], 0), (lit ['a', 'b', 'c'], 0), (lit ['a', 'b', 'c', 'd'], 3), (lit ['b'], 3), (lit ['b', 'c'], 3)]

/-- C11, negative part: pieces of one token can overlap, so full mode can repeat a letter of the text (`abcdd` from `abcd`). -/
theorem C11_repeats_letters :
    (cut { sampleEnv with freq := overlapFreq } true true (lit ['a', 'b', 'c', 'd'])).out =
      [lit ['b', 'c'], lit ['a', 'b', 'c', 'd', 'd']] := by decide +kernel

/-- C11: full mode on a run of word characters without ASCII letters/digits, exactly: in the order of their offsets and then of their
lengths, all words of at least two characters, and those characters at which no such word starts and which are not inside a word that
starts at the last offset before where words start. -/
theorem C11_full_mode_exact (E : Env F) (hmm : Bool) (hp : PrefixClosed E.freq) (s : Str) (hw : ∀ c ∈ s, isWordCh c = true)
    (hs : ∀ c ∈ s, isAlnum c = false) :
    ∃ l : List (Nat × Str), cut E true hmm s = Gen.ok (l.map Prod.snd) ∧
      l.Pairwise (fun a b => a.1 < b.1 ∨ a.1 = b.1 ∧ a.2.length < b.2.length) ∧
      ∀ k w, (k, w) ∈ l ↔ k < s.length ∧ FullAt E.freq s k w := by
  by_cases hne : s = []
  · subst hne
    exact ⟨[], rfl, List.Pairwise.nil, by simp⟩
  obtain ⟨l, h1, h2, h3⟩ := cutAll_exact E.freq hp s hs
  refine ⟨l, ?_, h2, h3⟩
  have := cut_full_word E hmm s [] hne hw (by simp)
  rw [List.append_nil, h1] at this
  rw [this]
  show Gen.andThen (Gen.ok (l.map Prod.snd)) (Gen.ok []) = _
  simp [Gen.andThen, Gen.ok]

/-- C11: full mode on characters that are not word characters: the text is split at white space, which is kept; the stretches between
can be empty (this is where empty tokens come from). -/
theorem C11_full_mode_separators (E : Env F) (hmm : Bool) (s : Str) (hne : s ≠ []) (hw : ∀ c ∈ s, isWordCh c = false) :
    ∃ l, cut E true hmm s = Gen.ok l ∧ SpaceSplit s l := by
  refine ⟨reSkipDefault.split s, ?_, skip_split s⟩
  have := cut_full_nonword E hmm s [] hne hw (by simp)
  rw [List.append_nil, cutSkip_true] at this
  rw [this]
  show Gen.andThen (Gen.ok _) (Gen.ok []) = _
  simp [Gen.andThen, Gen.ok]

/-- C11: full mode treats maximal runs of word characters and of other characters separately. -/
theorem C11_full_mode_runs (E : Env F) (hmm : Bool) (a b : Str)
    (h : ∀ x y, a.getLast? = some x → b.head? = some y → isWordCh x ≠ isWordCh y) :
    cut E true hmm (a ++ b) = Gen.andThen (cut E true hmm a) (cut E true hmm b) := by
  revert h
  have head : ∀ (rest b : Str) (v : Bool), (∀ d, rest.head? = some d → isWordCh d = v) → (rest = [] → ∀ d, b.head? = some d → isWordCh d = v) →
      ∀ d, (rest ++ b).head? = some d → isWordCh d = v := by
    intro rest b v h1 h2 d hd
    cases rest with
    | nil => exact h2 rfl d hd
    | cons c rest => exact h1 d hd
  have last : ∀ (u : Str) (v : Bool), u ≠ [] → (∀ c ∈ u, isWordCh c = v) →
      (∀ x y, u.getLast? = some x → b.head? = some y → isWordCh x ≠ isWordCh y) → ∀ d, b.head? = some d → isWordCh d = !v := by
    intro u v hu hv hb d hd
    have := hb _ d (List.getLast?_eq_some_getLast hu) hd
    rw [hv _ (List.getLast_mem hu)] at this
    cases v <;> cases hd' : isWordCh d <;> simp_all
  refine scan_ind (P := fun a => (∀ x y, a.getLast? = some x → b.head? = some y → isWordCh x ≠ isWordCh y) →
    cut E true hmm (a ++ b) = Gen.andThen (cut E true hmm a) (cut E true hmm b)) isWordCh ?_ ?_ ?_ a
  · intro _
    show cut E true hmm b = Gen.andThen (Gen.ok []) (cut E true hmm b)
    simp
  · intro u rest hu hp hr ih h
    have hrest : ∀ x y, rest.getLast? = some x → b.head? = some y → isWordCh x ≠ isWordCh y := by
      intro x y hx hy
      refine h x y ?_ hy
      rw [List.getLast?_append_of_ne_nil _ (by rintro rfl; cases hx)]; exact hx
    rw [List.append_assoc, cut_full_word E hmm u (rest ++ b) hu hp (head rest b false hr (by
      rintro rfl
      rw [List.append_nil] at h
      simpa using last u true hu hp h)), ih hrest, cut_full_word E hmm u rest hu hp hr, Gen.andThen_assoc]
  · intro u rest hu hp hr ih h
    have hrest : ∀ x y, rest.getLast? = some x → b.head? = some y → isWordCh x ≠ isWordCh y := by
      intro x y hx hy
      refine h x y ?_ hy
      rw [List.getLast?_append_of_ne_nil _ (by rintro rfl; cases hx)]; exact hx
    rw [List.append_assoc, cut_full_nonword E hmm u (rest ++ b) hu hp (head rest b true hr (by
      rintro rfl
      rw [List.append_nil] at h
      simpa using last u false hu hp h)), ih hrest, cut_full_nonword E hmm u rest hu hp hr, Gen.andThen_assoc]

def nestedFreq : Freq :=
  [(lit ['甲'], 0), (lit ['甲', '乙'], 0), (lit ['甲', '乙', '丙'], 0), (lit ['甲', '乙', '丙', '丁'], 3), (lit ['乙'], 3), (lit ['乙', '丙'], 3),
   (lit ['丁'], 3)]

/-- 丁 is yielded although the first word contains it: the last word start before it is that of 乙丙, which ends before 丁.  丙 is not. -/
example : (∀ v ∈ nestedFreq.map Prod.fst, ∀ n ∈ List.range v.length, v.take (n + 1) ∈ nestedFreq.map Prod.fst) ∧
    (cut { sampleEnv with freq := nestedFreq } true true (lit ['甲', '乙', '丙', '丁'])).out =
      [lit ['甲', '乙', '丙', '丁'], lit ['乙', '丙'], lit ['丁']] := by decide +kernel

/-- Two full stops, a space and a CR LF pair. -/
example : (cut sampleEnv true true [0x3002, 0x3002, 0x20, 0x0D, 0x0A]).out = [[0x3002, 0x3002], [0x20], [], [0x0D, 0x0A], []] := by decide +kernel

end Jieba.Props
