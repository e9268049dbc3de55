import Verif.Proofs.Search
import Verif.Props.Sample
/-!
# C12–C14: search mode and tokenize
-/

set_option linter.unusedSectionVars false

namespace Jieba.Props
open Jieba Jieba.Spec

variable {F : Type _} [LinearOrder F]

/-- C12: search mode yields each accurate-mode token, preceded by its inner dictionary words of 2 and (then) 3 characters:
exactly the 2/3-character dictionary words that are proper substrings of the token, once per occurrence.  It fails exactly when
accurate mode does. -/
theorem C12_search_extends_accurate (E : Env F) (hmm : Bool) (s : Str) :
    ∃ two three : Str → List Str,
      (cutForSearch E hmm s).out = (cut E false hmm s).out.flatMap (fun w => two w ++ three w ++ [w]) ∧
      (cutForSearch E hmm s).err = (cut E false hmm s).err ∧
      (∀ w x, x ∈ two w ↔ 2 < w.length ∧ x.length = 2 ∧ x <:+: w ∧ DictWord E.freq x) ∧
      (∀ w x, x ∈ three w ↔ 3 < w.length ∧ x.length = 3 ∧ x <:+: w ∧ DictWord E.freq x) ∧
      (∀ w x, x ∈ two w → (two w).count x = occurrences x w) ∧
      (∀ w x, x ∈ three w → (three w).count x = occurrences x w) := by
  refine ⟨grams E.freq 2, grams E.freq 3, rfl, rfl, fun w x => mem_grams _ 2 (by omega) w x,
    fun w x => mem_grams _ 3 (by omega) w x, ?_, ?_⟩
  · intro w x hx
    obtain ⟨h1, h2, -, h3⟩ := (mem_grams _ 2 (by omega) w x).mp hx
    exact count_grams _ 2 (by omega) w x h1 h2 h3
  · intro w x hx
    obtain ⟨h1, h2, -, h3⟩ := (mem_grams _ 3 (by omega) w x).mp hx
    exact count_grams _ 3 (by omega) w x h1 h2 h3

/-- C12: dropping the extra tokens gives accurate mode back: the accurate tokens are a subsequence. -/
theorem C12_accurate_is_subsequence (E : Env F) (hmm : Bool) (s : Str) :
    (cut E false hmm s).out.Sublist (cutForSearch E hmm s).out := by
  show List.Sublist _ ((cut E false hmm s).out.flatMap _)
  generalize (cut E false hmm s).out = l
  induction l with
  | nil => simp
  | cons w l ih =>
    rw [List.flatMap_cons]
    have h1 : [w].Sublist (grams E.freq 2 w ++ grams E.freq 3 w ++ [w]) := List.sublist_append_right _ _
    simpa using h1.append ih

/-- Extra tokens really occur. -/
example : cutForSearch sampleEnv true (lit ['北', '京', '大', '学', ',']) =
    Gen.ok [lit ['北', '京'], lit ['大', '学'], lit ['北', '京', '大', '学'], lit [',']] := by decide +kernel

/-- C13: default mode: the words are those of `cut`, spans are exact, contiguous from 0 and end at the end of the text. -/
theorem C13_tokenize_default (E : Env F) (hmm : Bool) (s : Str) :
    (tokenize E false hmm s).err = (cut E false hmm s).err ∧
    (tokenize E false hmm s).out.map (fun t => t.1) = (cut E false hmm s).out ∧
    (∀ t ∈ (tokenize E false hmm s).out, ExactSpan s t) ∧
    ∃ e, Contiguous 0 (tokenize E false hmm s).out e ∧ ((tokenize E false hmm s).err = none → e = s.length) := by
  have hl := cut_lossless E hmm s
  obtain ⟨h1, h2⟩ := tokenizeLoop_default E.freq (cut E false hmm s).out 0
  refine ⟨rfl, h1, tokenizeLoop_exact E.freq false s _ [] (by simpa using hl.isPrefix), _, h2, ?_⟩
  intro he
  have := hl.complete he
  rw [this]; simp

example : tokenize sampleEnv false true (lit ['我', '来', ',', '北', '京']) =
    Gen.ok [(lit ['我', '来'], 0, 2), (lit [','], 2, 3), (lit ['北', '京'], 3, 5)] := by decide +kernel

/-- C14: search mode: every entry is exact and the words are those of `cut_for_search`. -/
theorem C14_tokenize_search (E : Env F) (hmm : Bool) (s : Str) :
    (tokenize E true hmm s).err = (cutForSearch E hmm s).err ∧
    (tokenize E true hmm s).out.map (fun t => t.1) = (cutForSearch E hmm s).out ∧
    ∀ t ∈ (tokenize E true hmm s).out, ExactSpan s t :=
  ⟨rfl, tokenizeLoop_search_words _ _ _,
    tokenizeLoop_exact E.freq true s _ [] (by simpa using (cut_lossless E hmm s).isPrefix)⟩

/-- C14: search mode lists, before each token of the default mode, the dictionary words of two and then of three characters inside it,
from left to right, with their own offsets. -/
theorem C14_search_offsets (E : Env F) (hmm : Bool) (s : Str) :
    ∃ two three : Str × Nat × Nat → List (Str × Nat × Nat),
      (tokenize E true hmm s).out = (tokenize E false hmm s).out.flatMap (fun t => two t ++ three t ++ [t]) ∧
      ∀ t ∈ (tokenize E false hmm s).out, InnerSpans E.freq 2 t (two t) ∧ InnerSpans E.freq 3 t (three t) := by
  refine ⟨fun t => gramSpans E.freq 2 t.1 t.2.1, fun t => gramSpans E.freq 3 t.1 t.2.1, tokenizeLoop_flatMap _ _ _, ?_⟩
  intro t ht
  have hw := tokenizeLoop_width E.freq _ _ t ht
  obtain ⟨w, a, b⟩ := t
  simp only at hw
  subst hw
  exact ⟨gramSpans_inner _ 2 (by omega) w a, gramSpans_inner _ 3 (by omega) w a⟩

example : tokenize sampleEnv true true (lit [',', '北', '京', '大', '学']) =
    Gen.ok [(lit [','], 0, 1), (lit ['北', '京'], 1, 3), (lit ['大', '学'], 3, 5), (lit ['北', '京', '大', '学'], 1, 5)] := by
  decide +kernel

end Jieba.Props
