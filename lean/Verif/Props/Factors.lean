import Verif.Proofs.Factors
import Verif.Props.Undo
import Verif.Props.SampleKeywords
/-!
# C131: only the words that occur in a text matter
-/

set_option linter.unusedSectionVars false

namespace Jieba.Props
open Jieba Jieba.Spec

variable {F : Type _} [LinearOrder F]

/-- C131: two dictionaries with the same total that give the same frequency to every string that occurs in the text segment it
alike, in every mode (the words the HMM must split may also differ in words that do not occur). -/
theorem C131_only_words_of_text (E E' : Env F) (s : Str) (h : EnvAgreeOn E E' s) :
    (∀ ca hmm, cut E ca hmm s = cut E' ca hmm s) ∧ (∀ hmm, cutForSearch E hmm s = cutForSearch E' hmm s) ∧
    (∀ search hmm, tokenize E search hmm s = tokenize E' search hmm s) :=
  ⟨fun ca hmm => h.cut ca hmm, fun hmm => h.cutForSearch hmm, fun search hmm => h.tokenize search hmm⟩

/-- C131: the same for POS tagging, if the tags agree too. -/
theorem C131_tags (E E' : Pos.PEnv F) (s : Str) (h : PEnvAgreeOn E E' s) (hmm : Bool) : Pos.cut E hmm s = Pos.cut E' hmm s :=
  Pos.PEnvAgreeOn.cut h hmm

theorem get?_filter (d : Freq) (q : Str → Bool) (v : Str) :
    PyDict.get? (d.filter (fun e => q e.1)) v = if q v = true then PyDict.get? d v else none := by
  induction d with
  | nil => simp [PyDict.get?]
  | cons e d ih =>
    obtain ⟨k, x⟩ := e
    rw [List.filter_cons]
    by_cases hq : q k = true
    · rw [if_pos hq]
      by_cases he : k = v
      · subst he; simp [PyDict.get?, hq]
      · simp only [PyDict.get?, if_neg he]; exact ih
    · rw [if_neg hq, ih]
      by_cases he : k = v
      · subst he; simp [hq]
      · simp only [PyDict.get?, if_neg he]

/-- C131: the entries for strings that occur in the text are all that is needed of a dictionary (and the total). -/
theorem C131_restricted (E : Env F) (hp : PrefixClosed E.freq) (s : Str) :
    let E' : Env F := { E with freq := E.freq.filter (fun e => decide (e.1 <:+: s)), force := E.force.filter (fun v => decide (v <:+: s)) }
    (∀ ca hmm, cut E' ca hmm s = cut E ca hmm s) ∧ (∀ hmm, cutForSearch E' hmm s = cutForSearch E hmm s) ∧
    (∀ search hmm, tokenize E' search hmm s = tokenize E search hmm s) := by
  intro E'
  have hg := get?_filter E.freq (fun v => decide (v <:+: s))
  refine C131_only_words_of_text E' E s ⟨rfl, rfl, rfl, ?_, hp, ?_, ?_⟩
  · intro w hw p hne hpre
    unfold PyDict.has at hw ⊢
    rw [hg] at hw ⊢
    by_cases hi : w <:+: s
    · rw [if_pos (by simpa using hi)] at hw
      rw [if_pos (by simpa using hpre.isInfix.trans hi)]
      exact hp w hw p hne hpre
    · rw [if_neg (by simpa using hi)] at hw
      simp at hw
  · intro v _ hi
    unfold stored
    rw [hg, if_pos (by simpa using hi)]
  · intro v hi
    show v ∈ E.force.filter _ ↔ _
    rw [List.mem_filter]
    simp [hi]

/-- A word registered with any frequency: only the word itself, among the strings that occur in a text without it, changes. -/
theorem agreeOn_register (d : Freq) (v : Str) (f : Int) (s : Str) (hv : ¬ v <:+: s) : AgreeOn (register d v f) d s := by
  intro u hu hi
  unfold stored
  rw [register_get?, if_neg (fun e : u = v => hv (e ▸ hi))]
  cases PyDict.get? d u with
  | some x => rfl
  | none => simp only; split <;> rfl

/-- C131: deleting a word that does not occur in a text does not change how the text is segmented, in any mode. -/
theorem C131_deleted_elsewhere (S : Sys F) (w : World) (t : Nat) (word text : PyText) (io : Bool)
    (hi : (w.tok t).initialized = true) (hp : PrefixClosed (w.tok t).freq)
    (hv : ¬ strdecode S.gbk word <:+: strdecode S.gbk text) :
    let w' := (delWord S w t word io).1
    (∀ ca hmm io1 io2, (cutW S w' t ca hmm text io1).2 = (cutW S w t ca hmm text io2).2) ∧
    (∀ hmm, cutForSearch (w'.env S t) hmm (strdecode S.gbk text) = cutForSearch (w.env S t) hmm (strdecode S.gbk text)) ∧
    (∀ search hmm, tokenize (w'.env S t) search hmm (strdecode S.gbk text) = tokenize (w.env S t) search hmm (strdecode S.gbk text)) := by
  have he : (delWord S w t word io).1 = addFreq w t (strdecode S.gbk word) 0 none := by
    unfold delWord addWord
    rw [checkInit_of_init S w t io hi]
    rfl
  have h := C131_only_words_of_text ((addFreq w t (strdecode S.gbk word) 0 none).env S t) (w.env S t) (strdecode S.gbk text) (by
    refine ⟨rfl, ?_, rfl, ?_, hp, ?_, ?_⟩
    · unfold World.env; rw [addFreq_tok_self]; simp
    · unfold World.env; rw [addFreq_tok_self]; exact prefixClosed_register _ _ _ hp
    · unfold World.env; rw [addFreq_tok_self]; exact agreeOn_register _ _ _ _ hv
    · intro v hvi
      show v ∈ (addFreq w t (strdecode S.gbk word) 0 none).force ↔ v ∈ w.force
      rw [mem_addFreq_force]
      constructor
      · rintro (h | ⟨-, h⟩)
        · exact h
        · exact absurd (h ▸ hvi) hv
      · exact Or.inl)
  rw [he]
  refine ⟨fun ca hmm io1 io2 => ?_, h.2.1, h.2.2⟩
  rw [cutW_of_init S w t ca hmm io2 text hi, cutW_of_init S _ t ca hmm io1 text (by rw [addFreq_tok_self]; exact hi)]
  exact h.1 ca hmm

/-- C131: adding a word that does not occur in a text, with frequency `f ≠ 0`, changes how the text is segmented only by the total,
which is greater by `f`; in full mode nothing changes. -/
theorem C131_added_elsewhere (S : Sys F) (w : World) (t : Nat) (word text : PyText) (f : Int) (hf : f ≠ 0) (tag : Option Str) (io : Bool)
    (hi : (w.tok t).initialized = true) (hp : PrefixClosed (w.tok t).freq)
    (hv : ¬ strdecode S.gbk word <:+: strdecode S.gbk text) :
    let w' := (addWord S w t word (.int f) tag io).1
    (∀ ca hmm io1, (cutW S w' t ca hmm text io1).2 =
      cut ⟨S.A, (w.tok t).freq, (w.tok t).total + f, S.tables, w.force⟩ ca hmm (strdecode S.gbk text)) ∧
    (∀ hmm io1 io2, (cutW S w' t true hmm text io1).2 = (cutW S w t true hmm text io2).2) := by
  have he : (addWord S w t word (.int f) tag io).1 = addFreq w t (strdecode S.gbk word) f tag := by
    unfold addWord
    rw [checkInit_of_init S w t io hi]
    rfl
  have h := C131_only_words_of_text ((addFreq w t (strdecode S.gbk word) f tag).env S t)
    ⟨S.A, (w.tok t).freq, (w.tok t).total + f, S.tables, w.force⟩ (strdecode S.gbk text) (by
    refine ⟨rfl, ?_, rfl, ?_, hp, ?_, ?_⟩
    · unfold World.env; rw [addFreq_tok_self]
    · unfold World.env; rw [addFreq_tok_self]; exact prefixClosed_register _ _ _ hp
    · unfold World.env; rw [addFreq_tok_self]; exact agreeOn_register _ _ _ _ hv
    · intro v _
      show v ∈ (addFreq w t (strdecode S.gbk word) f tag).force ↔ v ∈ w.force
      rw [mem_addFreq_force]
      constructor
      · rintro (h | ⟨h, -⟩)
        · exact h
        · exact absurd h hf
      · exact Or.inl)
  rw [he]
  have hi' : ((addFreq w t (strdecode S.gbk word) f tag).tok t).initialized = true := by rw [addFreq_tok_self]; exact hi
  refine ⟨fun ca hmm io1 => ?_, fun hmm io1 io2 => ?_⟩
  · rw [cutW_of_init S _ t ca hmm io1 text hi']
    exact h.1 ca hmm
  · rw [cutW_of_init S _ t true hmm io1 text hi', cutW_of_init S w t true hmm io2 text hi]
    refine (h.1 true hmm).trans ?_
    exact (C116_same_words S.A _ _ (fun _ _ _ => Iff.rfl) hp hp S.tables _).2 _ _ _ _ hmm

theorem totalFreq_closed : PrefixClosed totalFreq := by
  have key : ∀ w ∈ totalFreq.map Prod.fst, ∀ p ∈ w.inits, p ≠ [] → PyDict.has totalFreq p = true := by decide +kernel
  intro w hw p hne hpre
  exact key w ((PyDict.mem_keys_iff _ _).mpr hw) p ((List.mem_inits _ _).mpr hpre) hne

/-- The hypotheses are met: a dictionary with and without 人民 (and the entry for its beginning), for the text 中国, which has two
segmentations. -/
example : EnvAgreeOn (⟨realArith, register totalFreq (lit ['人', '民']) 7, 21, realSys.tables, [lit ['人']]⟩ : Env ℝ)
    ⟨realArith, totalFreq, 21, realSys.tables, []⟩ (lit ['中', '国']) := by
  refine ⟨rfl, rfl, rfl, prefixClosed_register _ _ _ totalFreq_closed, totalFreq_closed, agreeOn_register _ _ _ _ (by decide), ?_⟩
  intro v hv
  refine ⟨fun h => ?_, fun h => by simp at h⟩
  obtain rfl : v = lit ['人'] := by simpa using h
  exact absurd hv (by decide)

example : ((readyWorld totalFreq 21).tok 0).initialized = true ∧ PrefixClosed ((readyWorld totalFreq 21).tok 0).freq ∧
    ¬ strdecode realSys.gbk (.str (lit ['人'])) <:+: strdecode realSys.gbk (.str (lit ['中', '国'])) :=
  ⟨rfl, totalFreq_closed, by show ¬ lit ['人'] <:+: lit ['中', '国']; decide⟩

/-- A dictionary whose keys are not prefix-closed shows that this is needed: with 中国 but no entry for 中, the word is never found,
so a dictionary without 中 and one with an entry 0 for it, which agree, segment 中国 differently. -/
theorem C131_needs_prefixes :
    let d : Freq := [(lit ['中', '国'], 5)]
    let d' : Freq := [(lit ['中', '国'], 5), (lit ['中'], 0)]
    AgreeOn d d' (lit ['中', '国']) ∧ cutAll d (lit ['中', '国']) ≠ cutAll d' (lit ['中', '国']) := by
  refine ⟨?_, by decide +kernel⟩
  intro v _ _
  unfold stored
  simp only [PyDict.get?]
  split
  · rfl
  · split <;> rfl

end Jieba.Props
