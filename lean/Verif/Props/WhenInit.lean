import Verif.Proofs.WorldLossless
import Verif.Props.TextRank
/-!
# C29: when a call initialises the tokenizer, and what else it leaves behind

`cut` opens the dictionary at the first character that can belong to a word, that is at the first character of the class of
`re_han_default` (of `re_han_internal` in `jieba.posseg`); a text without such a character is cut without a dictionary.  The
extractors of `jieba.analyse` leave behind exactly what their call of `cut` leaves behind.
-/

set_option linter.unusedSectionVars false

namespace Jieba.Props
open Jieba Jieba.Spec Jieba.Pos Jieba.Analyse

section
variable {F : Type _} [LinearOrder F]

theorem cutBlocksW_world (S : Sys F) (t : Nat) (ca hm io : Bool) (blks : List Str)
    (hu : ∀ b ∈ blks, b ≠ [] → (∀ c ∈ b, isWordCh c = true) ∨ (∀ c ∈ b, isWordCh c = false)) (w : World) :
    (cutBlocksW S t ca hm io w blks).1 = if blks.flatten.any isWordCh then (checkInit S w t io).1 else w := by
  induction blks generalizing w with
  | nil => rfl
  | cons b blks ih =>
    have ih := ih (fun c hc => hu c (List.mem_cons_of_mem _ hc))
    unfold cutBlocksW
    by_cases hb : b = []
    · rw [if_pos hb, ih, hb]; rfl
    · rw [if_neg hb]
      have hm' : reHanDefault.isMatch b = b.any isWordCh := isMatch_eq_any _ _ b hb (hu b (by simp) hb)
      rw [hm', List.flatten_cons, List.any_append]
      by_cases hw : b.any isWordCh = true
      · rw [hw, if_pos rfl, Bool.true_or, if_pos rfl]
        rcases checkInit_prim S ⟨fun _ _ _ _ _ => False, fun _ => False, fun _ _ => False, fun _ => False, fun _ => False⟩ w t io with
          ⟨e, h, -⟩ | ⟨w', h, hi, -⟩
        · rw [h]
        · rw [h]
          simp only []
          split
          · rfl
          · simp only []
            rw [ih, checkInit_of_init S w' t io hi]
            simp
      · rw [if_neg hw]
        simp only [Bool.not_eq_true] at hw
        simp only []
        rw [ih, hw, Bool.false_or]

theorem cutBlocksPW_world (P : PSys F) (k : Nat) (hm io : Bool) (blks : List Str)
    (hu : ∀ b ∈ blks, b ≠ [] → (∀ c ∈ b, isWordChPos c = true) ∨ (∀ c ∈ b, isWordChPos c = false)) (p : PWorld) :
    (cutBlocksPW P k hm io p blks).1 =
      if blks.flatten.any isWordChPos then { p with w := (checkInit P.sys p.w (p.pos k).tok io).1 } else p := by
  induction blks generalizing p with
  | nil => rfl
  | cons b blks ih =>
    have ih := ih (fun c hc => hu c (List.mem_cons_of_mem _ hc))
    unfold cutBlocksPW
    have hm' : reHanInternal.isMatch b = b.any isWordChPos := by
      by_cases hb : b = []
      · subst hb; rfl
      · exact isMatch_eq_any _ _ b hb (hu b (by simp) hb)
    rw [hm', List.flatten_cons, List.any_append]
    by_cases hw : b.any isWordChPos = true
    · rw [hw, if_pos rfl, Bool.true_or, if_pos rfl]
      rcases checkInit_prim P.sys ⟨fun _ _ _ _ _ => False, fun _ => False, fun _ _ => False, fun _ => False, fun _ => False⟩ p.w (p.pos k).tok io with
        ⟨e, h, -⟩ | ⟨w', h, hi, -⟩
      · rw [h]
      · rw [h]
        simp only []
        split
        · rfl
        · simp only []
          rw [ih]
          simp only []
          rw [checkInit_of_init P.sys w' _ io hi]
          simp
    · rw [if_neg hw]
      simp only [Bool.not_eq_true] at hw
      simp only []
      rw [ih, hw, Bool.false_or]

/-- C29: exactly the texts with a character that can belong to a word initialise the tokenizer when they are cut, and cutting
does nothing else to the state. -/
theorem C29_cut_initialises (S : Sys F) (w : World) (t : Nat) (ca hm : Bool) (text : PyText) (io : Bool) :
    (cutW S w t ca hm text io).1 =
      if ∃ c ∈ strdecode S.gbk text, isWordCh c = true then (checkInit S w t io).1 else w := by
  have h := cutBlocksW_world S t ca hm io (reHanDefault.split (strdecode S.gbk text)) (split_uniform _ _) w
  rw [show (reHanDefault.split (strdecode S.gbk text)).flatten = strdecode S.gbk text from RE.split_flatten _ rfl _] at h
  simp only [List.any_eq_true] at h
  exact h

/-- C29 for `jieba.posseg`: the tags of the words added meanwhile are moved at every call; the tokenizer is initialised at the
texts with a character that can belong to a word there; nothing else changes. -/
theorem C29_tagging_initialises (P : PSys F) (p : PWorld) (k : Nat) (hm : Bool) (text : PyText) (io : Bool) :
    (cutPW P p k hm text io).1 =
      if ∃ c ∈ strdecode P.sys.gbk text, isWordChPos c = true then
        { moveTags p k with w := (checkInit P.sys (moveTags p k).w (p.pos k).tok io).1 }
      else moveTags p k := by
  have h := cutBlocksPW_world P k hm io (reHanInternal.split (strdecode P.sys.gbk text)) (split_uniform _ _) (moveTags p k)
  rw [show (reHanInternal.split (strdecode P.sys.gbk text)).flatten = strdecode P.sys.gbk text from RE.split_flatten _ rfl _,
    (moveTags_spec p k).1] at h
  simp only [List.any_eq_true] at h
  exact h

/-- C29 for the keyword extractors: what `extract_tags` and `textrank` leave behind.  Without part-of-speech filter
`extract_tags` initialises its own tokenizer and leaves the POS tokenizers alone; with one, and in `textrank`, it is the state after
`jieba.posseg` has cut the text, whatever the other arguments are and whether or not the call raises. -/
theorem C29_extraction_initialises (R : RSys F) (p : PWorld) (x : Tfidf F) (y : TextRank) (text : PyText) (topK : Option Int)
    (ww : Bool) (allow : List Str) (withFlag io : Bool) :
    (extractTags R.k p x text topK ww [] withFlag io).1 =
      (if ∃ c ∈ strdecode R.k.pos.sys.gbk text, isWordCh c = true then
        { p with w := (checkInit R.k.pos.sys p.w x.tok io).1 } else p) ∧
    (allow ≠ [] → (extractTags R.k p x text topK ww allow withFlag io).1 =
      if ∃ c ∈ strdecode R.k.pos.sys.gbk text, isWordChPos c = true then
        { moveTags p x.pos with w := (checkInit R.k.pos.sys (moveTags p x.pos).w (p.pos x.pos).tok io).1 }
      else moveTags p x.pos) ∧
    (textrank R p y text topK ww allow withFlag io).1 =
      if ∃ c ∈ strdecode R.k.pos.sys.gbk text, isWordChPos c = true then
        { moveTags p y.pos with w := (checkInit R.k.pos.sys (moveTags p y.pos).w (p.pos y.pos).tok io).1 }
      else moveTags p y.pos := by
  refine ⟨?_, ?_, ?_⟩
  · show (candidates R.k p x.tok x.pos text [] withFlag io).1 = _
    unfold candidates
    rw [if_pos rfl]
    simp only []
    rw [C29_cut_initialises]
    split <;> rfl
  · intro ha
    show (candidates R.k p x.tok x.pos text allow withFlag io).1 = _
    unfold candidates
    rw [if_neg ha]
    exact C29_tagging_initialises R.k.pos p x.pos true text io
  · exact C29_tagging_initialises R.k.pos p y.pos true text io

end

/-- 。 does not open the dictionary, 大 does; the dash is a word character of `jieba.cut` and not of `jieba.posseg.cut`. -/
example : (sampleWorld.tok 0).initialized = false ∧
    ((cutW sampleSys sampleWorld 0 false true (.str (lit ['。'])) true).1.tok 0).initialized = false ∧
    ((cutW sampleSys sampleWorld 0 false true (.str (lit ['。', '大'])) true).1.tok 0).initialized = true ∧
    ((cutW sampleSys sampleWorld 0 false true (.str (lit ['-'])) true).1.tok 0).initialized = true ∧
    ((cutPW samplePSys { samplePWorld with w := sampleWorld } 0 true (.str (lit ['-'])) true).1.w.tok 0).initialized = false ∧
    ((extractTags ratKSys ratPWorld ratTfidf (.str (lit ['大'])) none false [] false true).1.w.tok 0).initialized = true := by
  decide +kernel

end Jieba.Props
