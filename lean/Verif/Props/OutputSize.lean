import Verif.Proofs.OutputSize
import Verif.Props.FullMode
import Verif.Props.AnyState
import Verif.Props.Search
/-!
# C126 — how much output there is
-/

namespace Jieba.Props
open Jieba Jieba.Spec Jieba.Pos

variable {F : Type _} [LinearOrder F]

/-- C126: `cut` in accurate mode and `posseg.cut` yield at most as many tokens as the text has characters, in every state of the process. -/
theorem C126_accurate (S : Sys F) (w : World) (t : Nat) (hmm : Bool) (s : PyText) (io : Bool) :
    (cutW S w t false hmm s io).2.out.length ≤ (strdecode S.gbk s).length := by
  obtain ⟨h1, h2, -⟩ := C01_cut_lossless_any_state S w t hmm s io
  exact le_trans (length_le_flatten _ h1) h2.length_le

theorem C126_tagging (P : PSys F) (hT : PosData.Shipped P.tables) (hσ : ∀ s t l, (P.σ s t l).Perm l) (p : PWorld) (k : Nat) (hmm : Bool)
    (s : PyText) (io : Bool) : (cutPW P p k hmm s io).2.out.length ≤ (strdecode P.sys.gbk s).length := by
  obtain ⟨h1, h2, -⟩ := C40_posseg_lossless_any_state P hT hσ p k hmm s io
  have := length_le_flatten ((cutPW P p k hmm s io).2.out.map Prod.fst) (by
    intro x hx
    obtain ⟨y, hy, rfl⟩ := List.mem_map.mp hx
    exact h1 y hy)
  rw [List.length_map] at this
  exact le_trans this h2.length_le

/-- C126: `cut_for_search` yields at most twice as many tokens as the text has characters, with at most six times as many characters together;
`tokenize` yields at most twice as many triples. -/
theorem C126_search (E : Env F) (hmm : Bool) (s : Str) :
    (cutForSearch E hmm s).out.length ≤ 2 * s.length ∧ (cutForSearch E hmm s).out.flatten.length ≤ 6 * s.length ∧
    ∀ search, (tokenize E search hmm s).out.length ≤ 2 * s.length := by
  have h1 := C02_cut_no_empty_token E hmm s
  have h2 := (C01_cut_lossless E hmm s).1.length_le
  obtain ⟨h3, h4⟩ := search_count E.freq _ h1
  refine ⟨le_trans h3 (by omega), le_trans h4 (by omega), fun search => ?_⟩
  have h5 := tokenizeLoop_count E.freq search _ h1 0
  exact le_trans h5 (by omega)

/-- The texts `一…一` for the sharpness of the bounds. -/
def ones (n : Nat) : Str := List.replicate n 0x4E00

/-- C126: the factors cannot be smaller: a word of `n` characters of which all pairs and triples are words gives `2n - 2` tokens with `6n - 8`
characters. -/
theorem C126_search_sharp (E : Env F) (hmm : Bool) (n : Nat) (hn : 4 ≤ n) (h2 : DictWord E.freq (ones 2)) (h3 : DictWord E.freq (ones 3))
    (hc : cut E false hmm (ones n) = Gen.ok [ones n]) :
    (cutForSearch E hmm (ones n)).out.length = 2 * n - 2 ∧ (cutForSearch E hmm (ones n)).out.flatten.length = 6 * n - 8 := by
  have hs : ∀ m i, i + m ≤ n → slice (ones n) i (i + m) = ones m := by
    intro m i h
    simp [ones, slice, List.take_replicate, List.drop_replicate]
    omega
  have hg : ∀ m, 1 ≤ m → m < n → DictWord E.freq (ones m) → grams E.freq m (ones n) = List.replicate (n - (m - 1)) (ones m) := by
    intro m h1 hm hd
    have hl : (ones n).length = n := by simp [ones]
    unfold grams
    rw [hl, if_pos hm]
    have e : (List.range (n - (m - 1))).map (fun i => slice (ones n) i (i + m)) = List.replicate (n - (m - 1)) (ones m) := by
      rw [List.eq_replicate_iff]
      refine ⟨by simp, ?_⟩
      intro b hb
      obtain ⟨i, hi, rfl⟩ := List.mem_map.mp hb
      rw [List.mem_range] at hi
      exact hs m i (by omega)
    rw [e, List.filter_replicate, if_pos ((truthy_iff _ _).mpr hd)]
  unfold cutForSearch
  rw [hc]
  have e : (Gen.mapOut (Gen.ok [ones n]) (fun w => grams E.freq 2 w ++ grams E.freq 3 w ++ [w])).out =
      grams E.freq 2 (ones n) ++ grams E.freq 3 (ones n) ++ [ones n] := by simp [Gen.mapOut, Gen.ok]
  rw [e, hg 2 (by omega) (by omega) h2, hg 3 (by omega) (by omega) h3]
  simp [ones, List.flatten_append]
  omega

/-- C126: full mode yields at most `max 3 (L - 1)` tokens per character of the text, where `L` is the length of the longest word; within a run of
word characters `max 1 (L - 1)`. -/
theorem C126_full_mode (E : Env F) (hmm : Bool) (L : Nat) (hL : ∀ w, DictWord E.freq w → w.length ≤ L) (s : Str) :
    (cut E true hmm s).out.length ≤ s.length * max 3 (L - 1) ∧
    ((∀ c ∈ s, isWordCh c = true) → (cut E true hmm s).out.length ≤ s.length * max 1 (L - 1)) := by
  refine ⟨full_count E hmm L hL s, fun hs => ?_⟩
  by_cases hne : s = []
  · subst hne; exact Nat.zero_le _
  have := cut_full_word E hmm s [] hne hs (by simp)
  rw [List.append_nil] at this
  rw [this]
  have e : (Gen.andThen (cutAll E.freq s) (cut E true hmm [])).out = (cutAll E.freq s).out := by
    show (cutAll E.freq s).out ++ [] = _
    rw [List.append_nil]
  rw [e]
  exact cutAll_tokens E.freq L hL s

theorem repFreq_prefixClosed (n : Nat) : PrefixClosed (repFreq n) := by
  intro w hw p hne hp
  obtain ⟨m, hm, rfl⟩ := repFreq_keys n w hw
  have : p = List.replicate p.length 0x4E00 := List.eq_replicate_iff.mpr ⟨rfl, fun b hb => List.eq_of_mem_replicate (hp.subset hb)⟩
  have hl := hp.length_le
  rw [List.length_replicate] at hl
  have h1 : 1 ≤ p.length := List.length_pos_iff.mpr hne
  rw [this]
  have := repFreq_get n (p.length - 1) (by omega)
  rw [show p.length - 1 + 1 = p.length by omega] at this
  unfold PyDict.has
  rw [this]; rfl

/-- C126: so full mode can be quadratic in the length of the text: for every `n` there is a dictionary of `n` words for which a text of `n`
characters gives at least `n (n - 1) / 2` tokens. -/
theorem C126_full_mode_quadratic (A : Arith F) (total : Int) (tables : FinalSeg.Tables F) (force : List Str) (hmm : Bool) (n : Nat) :
    (repFreq n).length = n ∧ n * (n - 1) ≤ 2 * (cut ⟨A, repFreq n, total, tables, force⟩ true hmm (ones n)).out.length := by
  refine ⟨by simp [repFreq], ?_⟩
  obtain ⟨l, h1, -, h3⟩ := C11_full_mode_exact ⟨A, repFreq n, total, tables, force⟩ hmm (repFreq_prefixClosed n) (ones n)
    (fun c hc => by rw [List.eq_of_mem_replicate hc]; decide) (fun c hc => by rw [List.eq_of_mem_replicate hc]; decide)
  rw [h1]
  show _ ≤ 2 * (l.map Prod.snd).length
  rw [List.length_map]
  have hcard : ((Finset.range n).sigma (fun j => Finset.range j)).card ≤ l.toFinset.card := by
    refine Finset.card_le_card_of_injOn (fun p => (p.2, ones (p.1 + 1 - p.2))) ?_ ?_
    · rintro ⟨j, k⟩ hp
      simp only [Finset.coe_sigma, Set.mem_sigma_iff, Finset.coe_range, Set.mem_Iio] at hp
      simp only [List.coe_toFinset, Set.mem_setOf_eq]
      rw [h3]
      have hl : (ones n).length = n := by simp [ones]
      have hs : slice (ones n) k (j + 1) = ones (j + 1 - k) := by
        simp [ones, slice, List.take_replicate, List.drop_replicate]; omega
      refine ⟨by omega, Or.inl ⟨j + 1, ⟨by omega, by omega, ?_⟩, hs.symm⟩⟩
      rw [hs]
      refine ⟨1, ?_, by decide⟩
      have := repFreq_get n (j - k) (by omega)
      rwa [show j - k + 1 = j + 1 - k by omega] at this
    · rintro ⟨j, k⟩ hp ⟨j', k'⟩ hp' he
      simp only [Finset.coe_sigma, Set.mem_sigma_iff, Finset.coe_range, Set.mem_Iio] at hp hp'
      simp only [Prod.mk.injEq] at he
      obtain ⟨e1, e2⟩ := he
      have := congrArg List.length e2
      simp only [ones, List.length_replicate] at this
      subst e1
      have : j = j' := by omega
      subst this
      rfl
  have h4 : ((Finset.range n).sigma (fun j => Finset.range j)).card * 2 = n * (n - 1) := by
    rw [Finset.card_sigma]
    simp only [Finset.card_range]
    exact Finset.sum_range_id_mul_two n
  have h5 := List.toFinset_card_le l
  omega

/-- The hypotheses of `C126_search_sharp` are met, with `n = 5`. -/
example : DictWord (repFreq 5) (ones 2) ∧ DictWord (repFreq 5) (ones 3) ∧
    cut { sampleEnv with freq := repFreq 5 } false true (ones 5) = Gen.ok [ones 5] ∧
    (cut { sampleEnv with freq := repFreq 5 } true true (ones 5)).out.length = 10 := by decide +kernel

end Jieba.Props
