import Verif.Props.Suggest
import Verif.Props.Posseg
import Verif.Props.Search
import Verif.Proofs.CutAllLetters
import Verif.Proofs.Main

/-! # C119: words that can never come out -/

namespace Jieba.Props
open Jieba.Spec
variable {F : Type _} [LinearOrder F]

/-- C119: a token of accurate mode with a character that is not a word character is that character alone, or CR LF. -/
theorem C119_accurate (E : Env F) (hmm : Bool) (s v : Str) (hv : v ∈ (cut E false hmm s).out)
    (h : ∃ c ∈ v, isWordCh c = false) : v.length = 1 ∨ v = [0x0D, 0x0A] := by
  obtain ⟨c, hc, hcw⟩ := h
  rw [cut_accurate_eq_scan] at hv
  obtain ⟨b, -, -, ⟨hb, h⟩ | ⟨-, h⟩⟩ := scan_out_mem _ _ _ _ _ hv
  · exfalso
    have hl : Lossless (cutBlock E false hmm b) b := by
      cases hmm
      · exact cutDAGNoHMM_lossless _ _ _ _
      · exact cutDAG_lossless _ _ _ _ (fun u _ => by
          obtain ⟨ws, h1, h2⟩ := FinalSeg.cut_spec E.A E.tables E.force u
          have : E.hmm u = Gen.ok ws := h1
          rw [this]; exact Lossless.ok h2) _
    have hcb : c ∈ b := hl.isPrefix.subset (List.mem_flatten.mpr ⟨v, h, hc⟩)
    rw [hb c hcb] at hcw
    exact Bool.noConfusion hcw
  · exact charTokens_mem b v h

/-- C119 for `cut_for_search`. -/
theorem C119_search (E : Env F) (hmm : Bool) (s v : Str) (hv : v ∈ (cutForSearch E hmm s).out)
    (h : ∃ c ∈ v, isWordCh c = false) : v.length = 1 ∨ v = [0x0D, 0x0A] := by
  obtain ⟨two, three, e, -, h2, h3, -, -⟩ := C12_search_extends_accurate E hmm s
  rw [e, List.mem_flatMap] at hv
  obtain ⟨w, hw, hv⟩ := hv
  have key : 2 < w.length → v <:+: w → False := by
    intro hl hi
    obtain ⟨c, hc, hcw⟩ := h
    rcases C119_accurate E hmm s w hw ⟨c, hi.subset hc, hcw⟩ with h | h
    · omega
    · rw [h] at hl; simp at hl
  rw [List.mem_append, List.mem_append] at hv
  rcases hv with (hv | hv) | hv
  · have := (h2 w v).mp hv
    exact (key this.1 this.2.2.1).elim
  · have := (h3 w v).mp hv
    exact (key (by omega) this.2.2.1).elim
  · rw [List.mem_singleton] at hv
    subst hv
    exact C119_accurate E hmm s v hw h

/-- C119 for full mode: a token has word characters only or none. -/
theorem C119_full (E : Env F) (hmm : Bool) (s v : Str) (hv : v ∈ (cut E true hmm s).out) :
    (∀ c ∈ v, isWordCh c = true) ∨ (∀ c ∈ v, isWordCh c = false) := by
  rw [cut_eq_scan] at hv
  obtain ⟨b, -, -, ⟨hb, h⟩ | ⟨hb, h⟩⟩ := scan_out_mem _ _ _ _ _ hv
  · left
    obtain ⟨gs, h1, ⟨h2, -⟩, -, -, -⟩ := cutAll_pieces E.freq b
    have h' : v ∈ (cutAll E.freq b).out := h
    rw [h1] at h'
    obtain ⟨g, hg, rfl⟩ := List.mem_map.mp h'
    intro c hc
    obtain ⟨x, hx, hcx⟩ := List.mem_flatten.mp hc
    obtain ⟨p, hp, rfl⟩ := List.mem_map.mp hx
    have := (h2 p (List.mem_flatten.mpr ⟨g, hg, hp⟩)).2
    rw [← this] at hcx
    exact hb c (Pos.mem_of_mem_slice _ _ _ _ hcx)
  · right
    intro c hc
    have h' : v ∈ cutSkip true b := h
    rw [cutSkip_true] at h'
    exact hb c (Pos.mem_pieces rfl h' hc)

/-- C119 in every state, before and after any changes of any dictionary, for text and bytes. -/
theorem C119_world (S : Sys F) (w : World) (t : Nat) (hmm : Bool) (text : PyText) (io : Bool) (v : Str)
    (hv : v ∈ (cutW S w t false hmm text io).2.out) (h : ∃ c ∈ v, isWordCh c = false) :
    v.length = 1 ∨ v = [0x0D, 0x0A] := by
  obtain ⟨c, hc, hcw⟩ := h
  rcases Main.cutW_shape S w t hmm text io v hv with h | ⟨d, h, -⟩ | h
  · rw [h c hc] at hcw; exact Bool.noConfusion hcw
  · left; rw [h]; rfl
  · right; exact h

/-- C119 for `posseg.cut`, whose word characters are those of `cut` without % and -. -/
theorem C119_posseg (E : Pos.PEnv F) (hmm : Bool) (hT : hmm = true → PosData.Shipped E.tables)
    (hσ : ∀ s t l, (E.σ s t l).Perm l) (s : Str) (p : Pos.Pair) (hp : p ∈ (Pos.cut E hmm s).out)
    (h : ∃ c ∈ p.1, isWordCh c = false ∨ c = 0x25 ∨ c = 0x2D) : p.1.length = 1 ∨ p.1 = [0x0D, 0x0A] := by
  obtain ⟨c, hc, h⟩ := h
  refine (C44_nonword_is_x E hmm hT hσ s p hp ⟨c, hc, ?_⟩).2
  rcases h with h | rfl | rfl
  · simp only [isWordCh, isWordChPos, Bool.or_eq_false_iff] at *
    tauto
  · decide
  · decide

theorem cut_nonword (E : Env F) (hmm : Bool) (s : Str) (hs : ∀ c ∈ s, isWordCh c = false) :
    cut E false hmm s = Gen.ok (charTokens s) := by
  rw [cut_accurate_eq_scan]
  cases s with
  | nil => rfl
  | cons c s =>
    have := scan_nonword isWordCh (cutBlock E false hmm) (fun b => Gen.ok (charTokens b)) (c :: s) [] (by simp) hs (by simp)
    rw [List.append_nil] at this
    rw [this, scan_nil]
    simp

/-- C119: `add_word(v)` without a frequency makes v a token of `cut(v)` if and only if v has word
characters only, or is one character, or is CR LF (exact arithmetic, v without ASCII letters and digits). -/
theorem C119_add_word_iff (S : Sys ℝ) (hS : S.A = realArith) (w w1 w' : World) (t : Nat) (word : PyText) (tag : Option Str)
    (io : Bool) (hc : checkInit S w t io = (w1, .ok ())) (hp : PrefixClosed (w1.tok t).freq)
    (hg : Good ((w1.tok t).freq, (w1.tok t).total)) (ht : 0 < (w1.tok t).total)
    (v : Str) (hd : strdecode S.gbk word = v) (hv : v ≠ []) (hs : ∀ c ∈ v, isAlnum c = false)
    (ha : addWord S w t word .none tag io = (w', .ok ())) (hm io' : Bool) :
    (cutW S w' t false hm word io').2 = Gen.ok [v] ↔ (∀ c ∈ v, isWordCh c = true) ∨ v.length = 1 ∨ v = [0x0D, 0x0A] := by
  constructor
  · intro h
    by_cases hw : ∀ c ∈ v, isWordCh c = true
    · exact Or.inl hw
    · refine Or.inr (C119_world S w' t hm word io' v (by rw [h]; simp) ?_)
      push Not at hw
      obtain ⟨c, hc, hcw⟩ := hw
      exact ⟨c, hc, by simpa using hcw⟩
  · intro h
    by_cases hw : ∀ c ∈ v, isWordCh c = true
    · obtain ⟨w'', e, h'⟩ := C27_add_word_whole S hS w w1 t word tag io hc hp hg ht v hd hv (fun c hc => ⟨hw c hc, hs c hc⟩)
      rw [ha] at e
      injection e with e1 e2
      subst e1
      exact h' hm io'
    · have hn : ∀ c ∈ v, isWordCh c = false := by
        rcases h with h | h | h
        · exact absurd h hw
        · obtain ⟨c, rfl⟩ := List.length_eq_one_iff.mp h
          simpa using hw
        · rw [h]; decide
      have hch : charTokens v = [v] := by
        rcases h with h | h | h
        · exact absurd h hw
        · obtain ⟨c, rfl⟩ := List.length_eq_one_iff.mp h
          rw [charTokens.eq_2 c [] (by intro s' _ e; cases e)]
          rfl
        · rw [h]; rfl
      have hi' : (w'.tok t).initialized = true := by
        unfold addWord at ha
        rw [hc] at ha
        simp only at ha
        split at ha
        · simp at ha
        · injection ha with e1 e2
          rw [← e1, addFreq_tok_self]
          exact checkInit_initialized S w w1 t io hc
      rw [cutW_of_init S _ t _ _ _ _ hi', hd, cut_nonword _ _ _ hn, hch]

/-- The user word 约翰·史 cannot come out, 中-美 and 中%美 come out of `cut` but not of `posseg.cut`. -/
def oddFreq : Freq :=
  [(lit ['约'], 0), (lit ['约', '翰'], 0), (lit ['约', '翰', '·'], 0), (lit ['约', '翰', '·', '史'], 100),
   (lit ['中'], 1), (lit ['中', '-'], 0), (lit ['中', '-', '美'], 60), (lit ['中', '%'], 0), (lit ['中', '%', '美'], 60)]

example : (∃ c ∈ lit ['约', '翰', '·', '史'], isWordCh c = false) ∧ DictWord oddFreq (lit ['约', '翰', '·', '史']) ∧
    (cut { sampleEnv with freq := oddFreq } false false (lit ['约', '翰', '·', '史'])).out =
      [lit ['约'], lit ['翰'], lit ['·'], lit ['史']] := by
  refine ⟨by decide, by decide, by decide +kernel⟩

/-- C119: a word with % or - can come out of `cut` although it never comes out of `posseg.cut`. -/
theorem C119_hyphen_differs :
    (cut { sampleEnv with freq := oddFreq } false false (lit ['中', '-', '美'])).out = [lit ['中', '-', '美']] ∧
    (Pos.cut { samplePEnv with freq := oddFreq } false (lit ['中', '-', '美'])).out.map Prod.fst =
      [lit ['中'], lit ['-'], lit ['美']] ∧
    (cut { sampleEnv with freq := oddFreq } false false (lit ['中', '%', '美'])).out = [lit ['中', '%', '美']] ∧
    (Pos.cut { samplePEnv with freq := oddFreq } false (lit ['中', '%', '美'])).out.map Prod.fst =
      [lit ['中'], lit ['%'], lit ['美']] := by
  refine ⟨?_, ?_, ?_, ?_⟩ <;> decide +kernel

/-- The hypotheses of `C119_add_word_iff` are met by a word of each kind. -/
example : PrefixClosed sampleFreq ∧ Good (sampleFreq, 161) ∧ (0 : Int) < 161 ∧
    (∀ c ∈ lit ['约', '翰', '·', '史'], isAlnum c = false) ∧ ¬ (∀ c ∈ lit ['约', '翰', '·', '史'], isWordCh c = true) ∧
    ∀ c ∈ lit ['约', '翰', '史'], isAlnum c = false ∧ isWordCh c = true :=
  ⟨sample_prefixClosed, ⟨by decide, sample_nonNeg, by decide⟩, by decide, by decide, by decide, by decide⟩

/-- test/userdict.txt:10 -/
def eduTrust : Str := lit ['E', 'd', 'u', ' ', 'T', 'r', 'u', 's', 't', '认', '证']

/-- C119: the last line of test/userdict.txt of the project is accepted by `load_userdict`, as a word with a space in it; that word
is never yielded, in no mode, on no text. -/
theorem C119_own_userdict :
    userFields (eduTrust ++ lit [' ', '2', '0', '0', '0']) = some (eduTrust, some (lit ['2', '0', '0', '0']), none) ∧
    (∀ (S : Sys F) (w : World) (t : Nat) (hmm : Bool) (text : PyText) (io : Bool),
      eduTrust ∉ (cutW S w t false hmm text io).2.out) ∧
    (∀ (E : Env F) (hmm : Bool) (s : Str), eduTrust ∉ (cutForSearch E hmm s).out ∧ eduTrust ∉ (cut E true hmm s).out) := by
  have hne : ∃ c ∈ eduTrust, isWordCh c = false := ⟨0x20, by decide, by decide⟩
  have hlen : ¬ (eduTrust.length = 1 ∨ eduTrust = [0x0D, 0x0A]) := by decide
  refine ⟨by decide +kernel, fun S w t hmm text io h => hlen (C119_world S w t hmm text io _ h hne), fun E hmm s => ⟨fun h =>
    hlen (C119_search E hmm s _ h hne), fun h => ?_⟩⟩
  rcases C119_full E hmm s _ h with h | h
  · exact Bool.noConfusion ((h 0x20 (by decide)).symm.trans (by decide : isWordCh 0x20 = false))
  · exact Bool.noConfusion ((h 0x45 (by decide)).symm.trans (by decide : isWordCh 0x45 = true))

end Jieba.Props
