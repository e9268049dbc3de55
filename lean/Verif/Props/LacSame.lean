import Verif.Props.LacShipped
/-!
# C146 — texts that the network cannot tell apart
-/

namespace Jieba.Props
open Jieba Jieba.Spec Jieba.Paddle Jieba.LacData

/-- What is left of a character: nothing if it is not in word.dic. -/
def seenAs (D : Dataset) (c : Ch) : Option Ch := if D.word2id.has [c] then some c else none

theorem hasId_congr (D : Dataset) (a b : Ch) (h : seenAs D a = seenAs D b) (i : Int) : HasId D a i ↔ HasId D b i := by
  unfold seenAs at h
  unfold HasId
  by_cases ha : D.word2id.has [a] = true
  · rw [if_pos ha] at h
    split at h
    · cases h; rfl
    · cases h
  · rw [if_neg ha] at h
    split at h
    · cases h
    · rename_i hb; rw [if_neg ha, if_neg hb]

theorem hasId_inj (D : Dataset) (hD : Inverse D.word2id D.id2word) (a b : Ch) (i : Int) (ha : HasId D a i) (hb : HasId D b i) :
    seenAs D a = seenAs D b := by
  have h := hD _ _ ha
  rw [hD _ _ hb, Option.some.injEq] at h
  unfold seenAs
  by_cases h1 : D.word2id.has [a] = true <;> by_cases h2 : D.word2id.has [b] = true
  · rw [if_pos h1, if_pos h2] at h ⊢; cases h; rfl
  · rw [if_pos h1, if_neg h2] at h; cases h
  · rw [if_neg h1, if_pos h2] at h; cases h
  · rw [if_neg h1, if_neg h2]

theorem wordToIds_congr (D : Dataset) (s t : Str) (h : s.map (seenAs D) = t.map (seenAs D)) : wordToIds D s = wordToIds D t := by
  induction s generalizing t with
  | nil => cases t with
    | nil => rfl
    | cons b t => cases h
  | cons a s ih => cases t with
    | nil => cases h
    | cons b t =>
      rw [List.map_cons, List.map_cons, List.cons.injEq] at h
      unfold wordToIds index
      rw [ih t h.2]
      have h1 := hasId_congr D a b h.1
      unfold HasId at h1
      rw [Option.ext h1]

theorem seen_of_ids (D : Dataset) (hD : Inverse D.word2id D.id2word) (s t : Str) (ids : List Int) (hs : List.Forall₂ (HasId D) s ids)
    (ht : List.Forall₂ (HasId D) t ids) : s.map (seenAs D) = t.map (seenAs D) := by
  induction hs generalizing t with
  | nil => cases ht; rfl
  | cons h1 _ ih =>
    cases ht with
    | cons h2 h3 => rw [List.map_cons, List.map_cons, hasId_inj D hD _ _ _ h1 h2, ih _ h3]

theorem getResult_congr (D : Dataset) (net : List Int → Except PyErr (List Int)) (s t : Str) (h : getVars D s = getVars D t) :
    getResult D net s = getResult D net t := by
  unfold getResult
  rw [h]

/-- C146: two texts get the same numbers exactly if, without outer whitespace, they have the same characters of word.dic at the same places, and
others at the others. -/
theorem C146_same_ids (D : Dataset) (hD : Inverse D.word2id D.id2word) (ho : ∃ i, D.word2id.get? oov = some i) (s t mid mid' : Str)
    (hs : Stripped s mid) (ht : Stripped t mid') :
    getVars D s = getVars D t ↔
      mid.map (fun c => if D.word2id.has [c] then some c else none) = mid'.map (fun c => if D.word2id.has [c] then some c else none) := by
  unfold getVars
  rw [stripped_unique s mid hs, stripped_unique t mid' ht]
  constructor
  · intro h
    cases h1 : wordToIds D mid with
    | error e =>
      obtain ⟨i, hi⟩ := ho
      have := ((wordToIds_error D mid e).mp h1).2.1
      rw [PyDict.has, hi] at this
      cases this
    | ok ids =>
      rw [h1] at h
      exact seen_of_ids D hD mid mid' ids ((wordToIds_ok D mid ids).mp h1) ((wordToIds_ok D mid' ids).mp h.symm)
  · exact wordToIds_congr D mid mid'

/-- C146: then they have the same words and tags, whatever the network is, or raise the same exception; and only then. -/
theorem C146_same_words (D : Dataset) (hD : Inverse D.word2id D.id2word) (ho : ∃ i, D.word2id.get? oov = some i) (s t mid mid' : Str)
    (hs : Stripped s mid) (ht : Stripped t mid') :
    (∀ net, getResult D net s = getResult D net t) ↔
      mid.map (fun c => if D.word2id.has [c] then some c else none) = mid'.map (fun c => if D.word2id.has [c] then some c else none) := by
  rw [← C146_same_ids D hD ho s t mid mid' hs ht]
  constructor
  · intro h
    have hok : ∀ u, ∃ ids, getVars D u = .ok ids := by
      intro u
      cases h1 : getVars D u with
      | ok ids => exact ⟨ids, rfl⟩
      | error e =>
        obtain ⟨i, hi⟩ := ho
        have := ((wordToIds_error D _ e).mp h1).2.1
        rw [PyDict.has, hi] at this
        cases this
    obtain ⟨a, ha⟩ := hok s
    obtain ⟨b, hb⟩ := hok t
    have h2 := h (fun ids => if ids = a then .error .exception else .error .typeError)
    unfold getResult at h2
    rw [ha, hb] at h2 ⊢
    by_cases hab : b = a
    · rw [hab]
    · simp only [bind, Except.bind, if_true, if_neg hab, Except.error.injEq] at h2
      cases h2
  · intro h net
    exact getResult_congr D net s t h

/-- C146: and then `cut` and `posseg.cut` do the same, for texts that are not empty. -/
theorem C146_cut (D : Dataset) (s t mid mid' : Str) (hs : Stripped s mid) (ht : Stripped t mid') (hs0 : s ≠ []) (ht0 : t ≠ [])
    (h : mid.map (fun c => if D.word2id.has [c] then some c else none) = mid'.map (fun c => if D.word2id.has [c] then some c else none))
    (net : List Int → Except PyErr (List Int)) (gbk : Bytes → Str) :
    Paddle.cut D net gbk (.str s) = Paddle.cut D net gbk (.str t) ∧ posCut D net gbk (.str s) = posCut D net gbk (.str t) := by
  have hr : getResult D net s = getResult D net t := by
    refine getResult_congr D net s t ?_
    unfold getVars
    rw [stripped_unique s mid hs, stripped_unique t mid' ht]
    exact wordToIds_congr D mid mid' h
  have e1 : strdecode gbk (.str s) = s := rfl
  have e2 : strdecode gbk (.str t) = t := rfl
  unfold Paddle.cut posCut
  rw [e1, e2, if_neg hs0, if_neg ht0, if_neg (by simpa using hs0), if_neg (by simpa using ht0), hr]
  exact ⟨rfl, rfl⟩

/-- Tabs and line ends as spaces. -/
def asSpaces (s : Str) : Str := s.map (fun c => if c ∈ [0x09, 0x0A, 0x0D] then 0x20 else c)

theorem strip_asSpaces (s : Str) : stripBy isSpace (asSpaces s) = asSpaces (stripBy isSpace s) := by
  have hp : (isSpace ∘ fun c => if c ∈ [0x09, 0x0A, 0x0D] then 0x20 else c) = isSpace := by
    funext c
    simp only [Function.comp_def]
    split
    · rename_i h
      revert h c
      decide
    · rfl
  unfold stripBy asSpaces
  rw [List.dropWhile_map, hp, ← List.map_reverse, List.dropWhile_map, hp, List.map_reverse]

/-- C146: with the files that are shipped, tabs, line feeds, carriage returns and spaces in a text are all the same to the network: texts that
differ in them only have the same words and tags, which have spaces in their places. -/
theorem C146_whitespace (D : Dataset) (h : Shipped D) (net : List Int → Except PyErr (List Int)) (s t : Str) (hst : asSpaces s = asSpaces t) :
    getResult D net s = getResult D net t := by
  have key : ∀ u, getVars D (asSpaces u) = getVars D u := by
    intro u
    unfold getVars
    rw [strip_asSpaces]
    refine wordToIds_congr D _ _ ?_
    unfold asSpaces
    rw [List.map_map]
    refine List.map_congr_left fun c _ => ?_
    simp only [Function.comp_def]
    split
    · rename_i hc
      rw [shipped_eq D h]
      have h1 : ∀ c ∈ [0x09, 0x0A, 0x0D, 0x20], seenAs dataset c = none := by
        intro c hc
        unfold seenAs
        rw [if_neg]
        rw [dataset_known]
        refine not_blank c ?_
        revert c; decide
      have h2 : ∀ c ∈ [0x09, 0x0A, 0x0D], c ∈ [0x09, 0x0A, 0x0D, 0x20] := by decide
      rw [h1 0x20 (by simp), h1 c (h2 c hc)]
    · rfl
  refine getResult_congr D net s t ?_
  rw [← key s, ← key t, hst]

/-- The hypotheses: a sample with an unknown character, which another one can replace but no known one. -/
example : getVars ⟨[(lit ['大'], 0), (lit ['学'], 1), (oov, 2)], [(lit ['0'], lit ['大']), (lit ['1'], lit ['学']), (lit ['2'], oov)], []⟩
      (lit [' ', '大', 'x', '\n']) = .ok [0, 2] ∧
    getVars ⟨[(lit ['大'], 0), (lit ['学'], 1), (oov, 2)], [(lit ['0'], lit ['大']), (lit ['1'], lit ['学']), (lit ['2'], oov)], []⟩
      (lit ['大', 'y']) = .ok [0, 2] ∧
    getVars ⟨[(lit ['大'], 0), (lit ['学'], 1), (oov, 2)], [(lit ['0'], lit ['大']), (lit ['1'], lit ['学']), (lit ['2'], oov)], []⟩
      (lit ['大', '学']) = .ok [0, 1] := by decide

/-- Two texts that differ in line ends. -/
example : asSpaces (lit ['大', '\r', '\n', '学']) = asSpaces (lit ['大', ' ', '\t', '学']) ∧
    Stripped (lit [' ', '大', '\n']) (lit ['大']) := ⟨by decide, ⟨[0x20], [0x0A], by decide, by decide, by decide, by decide⟩⟩

end Jieba.Props
