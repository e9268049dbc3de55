import Verif.Props.FullMode
import Verif.Props.Search
import Verif.Props.Suggest
/-!
# C78: the three modes compared
-/

set_option linter.unusedSectionVars false

namespace Jieba.Props
open Jieba Jieba.Spec

variable {F : Type _} [LinearOrder F]

theorem occurrences_add_le (w a b : Str) : occurrences w a + occurrences w b ≤ occurrences w (a ++ b) := by
  rw [occurrences_eq_countP, occurrences_eq_countP, occurrences_eq_countP, List.length_append, List.range_add,
    List.countP_append, List.countP_map]
  refine Nat.add_le_add ?_ ?_
  · apply List.countP_mono_left
    intro k hk h
    rw [List.mem_range] at hk
    rw [List.isPrefixOf_iff_prefix] at h ⊢
    rw [List.drop_append]
    exact h.trans (List.prefix_append _ _)
  · apply List.countP_mono_left
    intro k hk h
    simpa using h

theorem occurrences_self_pos (w : Str) (hw : w ≠ []) : 0 < occurrences w w := by
  rw [occurrences_eq_countP, List.countP_pos_iff]
  exact ⟨0, List.mem_range.mpr (List.length_pos_iff.mpr hw), by simp⟩

theorem search_token_count (freq : Freq) (w t : Str) (hw : w ≠ []) :
    (grams freq 2 t ++ grams freq 3 t ++ [t]).count w ≤ occurrences w t := by
  rw [List.count_append, List.count_append]
  have hg : ∀ n, 0 < n → (grams freq n t).count w = 0 ∨
      (n < t.length ∧ w.length = n ∧ (grams freq n t).count w = occurrences w t) := by
    intro n hn
    by_cases hm : w ∈ grams freq n t
    · obtain ⟨h1, h2, -, h3⟩ := (mem_grams _ n hn t w).mp hm
      exact Or.inr ⟨h1, h2, count_grams _ n hn t w h1 h2 h3⟩
    · exact Or.inl (List.count_eq_zero.mpr hm)
  have ht : [t].count w = 0 ∨ (w = t ∧ [t].count w = 1) := by
    by_cases h : w = t
    · subst h; exact Or.inr ⟨rfl, by simp⟩
    · left; rw [List.count_eq_zero]; simpa using h
  rcases hg 2 (by omega) with h2 | ⟨h2, h2', h2''⟩ <;> rcases hg 3 (by omega) with h3 | ⟨h3, h3', h3''⟩ <;>
    rcases ht with h1 | ⟨rfl, h1⟩ <;> try omega
  have := occurrences_self_pos w hw
  omega

theorem search_count (freq : Freq) (w : Str) (hw : w ≠ []) (l : List Str) :
    (l.flatMap (fun t => grams freq 2 t ++ grams freq 3 t ++ [t])).count w ≤ occurrences w l.flatten := by
  induction l with
  | nil => simp
  | cons t l ih =>
    rw [List.flatMap_cons, List.flatten_cons, List.count_append]
    exact (Nat.add_le_add (search_token_count freq w t hw) ih).trans (occurrences_add_le w t l.flatten)

theorem search_count_le (E : Env F) (hmm : Bool) (s w : Str) (hw : w ≠ []) :
    (cutForSearch E hmm s).out.count w ≤ occurrences w s := by
  obtain ⟨r, hr⟩ := (cut_lossless E hmm s).isPrefix
  have h1 := search_count E.freq w hw (cut E false hmm s).out
  have h2 := occurrences_add_le w (cut E false hmm s).out.flatten r
  rw [hr] at h2
  exact h1.trans (by omega)

/-- C78: a word of at least two word characters that does not begin with an ASCII letter or digit is yielded by accurate mode at most
as often as by search mode, and, if it is a dictionary word or the HMM segmenter is off, by search mode at most as often as by full
mode. -/
theorem C78_modes_nested (E : Env F) (hmm hmm' : Bool) (hp : PrefixClosed E.freq) (s : Str) (c : Ch) (w : Str)
    (hc : isAlnum c = false) (hw : w ≠ []) (hww : ∀ d ∈ c :: w, isWordCh d = true) :
    (cut E false hmm s).out.count (c :: w) ≤ (cutForSearch E hmm s).out.count (c :: w) ∧
    (DictWord E.freq (c :: w) ∨ hmm = false → (cutForSearch E hmm s).out.count (c :: w) ≤ (cut E true hmm' s).out.count (c :: w)) := by
  refine ⟨(C12_accurate_is_subsequence E hmm s).count_le _, ?_⟩
  intro h
  by_cases hd : DictWord E.freq (c :: w)
  · rw [C10_complete_with_letters E hmm' hp s c w hc hw hd hww]
    exact search_count_le E hmm s (c :: w) (by simp)
  · have hm : hmm = false := h.resolve_left hd
    subst hm
    rw [List.count_eq_zero.mpr]
    · exact Nat.zero_le _
    · intro hmem
      change _ ∈ (cut E false false s).out.flatMap _ at hmem
      rw [List.mem_flatMap] at hmem
      obtain ⟨t, ht, hm⟩ := hmem
      rw [List.mem_append, List.mem_append] at hm
      rcases hm with (hm | hm) | hm
      · exact hd ((mem_grams _ 2 (by omega) _ _).mp hm).2.2.2
      · exact hd ((mem_grams _ 3 (by omega) _ _).mp hm).2.2.2
      · rw [List.mem_singleton] at hm
        subst hm
        rcases C03_no_hmm_token_provenance E s _ ht with h | h | h | ⟨-, h⟩
        · exact hd h
        · cases w with
          | nil => exact hw rfl
          | cons x w => simp at h
        · injection h with h1 h2
          subst h1
          exact absurd (hww 0x0D (by simp)) (by decide)
        · rw [h c (by simp)] at hc; cases hc

/-- 大学 in 北京大学 is yielded by search and full mode, not by accurate mode. -/
example : (cut sampleEnv false false (lit ['北', '京', '大', '学'])).out.count (lit ['大', '学']) = 0 ∧
    (cutForSearch sampleEnv false (lit ['北', '京', '大', '学'])).out.count (lit ['大', '学']) = 1 ∧
    (cut sampleEnv true false (lit ['北', '京', '大', '学'])).out.count (lit ['大', '学']) = 1 := by decide +kernel

def blockedFreq : Freq := [(lit ['甲'], 5), (lit ['甲', '乙'], 50), (lit ['乙'], 5), (lit ['乙', '丙'], 2), (lit ['丙'], 5)]

/-- 乙丙 is yielded by full mode but not by search mode. -/
example : (cutForSearch { sampleEnv with freq := blockedFreq, total := 67 } false (lit ['甲', '乙', '丙'])).out.count (lit ['乙', '丙']) = 0 ∧
    (cut { sampleEnv with freq := blockedFreq, total := 67 } true false (lit ['甲', '乙', '丙'])).out.count (lit ['乙', '丙']) = 1 := by
  decide +kernel

/-- C78, negative part: with an ASCII letter or digit at the beginning the inclusion fails: the word T恤 is yielded by accurate mode on
`aT恤`, but not by full mode. -/
theorem C78_fails_with_letters :
    PrefixClosed sampleEnv.freq ∧ DictWord sampleEnv.freq (lit ['T', '恤']) ∧
    (cut sampleEnv false false (lit ['a', 'T', '恤'])).out.count (lit ['T', '恤']) = 1 ∧
    (cut sampleEnv true false (lit ['a', 'T', '恤'])).out.count (lit ['T', '恤']) = 0 :=
  ⟨sample_prefixClosed, by decide +kernel, by decide +kernel, by decide +kernel⟩

/-- C78: `add_word` and `del_word` (`f = 0`) do not change how often full mode yields other words: unlike accurate mode it yields each
as often as it occurs, whatever else there is. -/
theorem C78_full_mode_words_independent (S : Sys F) (w : World) (t : Nat) (word : PyText) (f : Int) (tag : Option Str) (io : Bool)
    (hi : (w.tok t).initialized = true) (hp : PrefixClosed (w.tok t).freq) (c : Ch) (v : Str) (hne : c :: v ≠ strdecode S.gbk word)
    (hd : DictWord (w.tok t).freq (c :: v)) (hc : isAlnum c = false) (hv : v ≠ []) (hww : ∀ d ∈ c :: v, isWordCh d = true) :
    ∃ w', addWord S w t word (.int f) tag io = (w', .ok ()) ∧ ∀ hmm text io',
      (cutW S w' t true hmm text io').2.out.count (c :: v) = (cutW S w t true hmm text io').2.out.count (c :: v) := by
  obtain ⟨w', h1, -, h2, -⟩ := C24_add_word_map S w t word f tag io hi
  obtain ⟨w'', h1', -, -, -, -, -, hi', -⟩ := C24_add_word_rest S w t word f tag io hi
  rw [h1] at h1'
  cases h1'
  refine ⟨w', h1, fun hmm text io' => ?_⟩
  rw [cutW_of_init S w' t true hmm io' text hi', cutW_of_init S w t true hmm io' text hi]
  have hp' : PrefixClosed (w'.env S t).freq := by
    show PrefixClosed (w'.tok t).freq
    unfold addWord at h1
    rw [checkInit_of_init S w t io hi] at h1
    simp only [addWordFreq] at h1
    rw [← (Prod.mk.inj h1).1, addFreq_tok_self]
    exact prefixClosed_register _ _ _ hp
  have hd' : DictWord (w'.env S t).freq (c :: v) := by
    obtain ⟨n, hn, hn0⟩ := hd
    exact ⟨n, (h2 _ hne n hn0).mpr hn, hn0⟩
  rw [C10_complete_with_letters (w'.env S t) hmm hp' _ c v hc hv hd' hww,
    C10_complete_with_letters (w.env S t) hmm hp _ c v hc hv hd hww]

/-- Deleting 北京 in the sample dictionary leaves 大学 alone in full mode. -/
example : ((readyWorld sampleFreq 100).tok 0).initialized = true ∧ PrefixClosed ((readyWorld sampleFreq 100).tok 0).freq ∧
    DictWord ((readyWorld sampleFreq 100).tok 0).freq (lit ['大', '学']) :=
  ⟨rfl, sample_prefixClosed, by decide +kernel⟩

end Jieba.Props
