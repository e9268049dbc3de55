import Verif.Proofs.Paddle
import Mathlib.Data.List.Forall2
/-!
# C57, C67, C68: segmentation with the neural network

The network is the arbitrary function `net` from word ids to label ids.
-/

namespace Jieba.Props
open Jieba Jieba.Spec Jieba.Paddle

/-! ## C57 -/

/-- C57: which words `parse_result` assembles from a sentence whose characters all have a text: a word begins at the first
character, at labels `…-B` and at `O` after something else; its tag is the label of its first character up to `-`. -/
theorem C57_words (sent tags : List Str) (hs : ∀ w ∈ sent, w ≠ []) (hl : tags.length ≤ sent.length) :
    parseSentence sent tags =
      .ok ((labelledWords (sent.zip tags)).map textOf, (labelledWords (sent.zip tags)).map labelOf) :=
  parseSentence_spec sent tags hs hl

/-- C57: as many tags as words, and the words are a segmentation of the labelled characters. -/
theorem C57_lossless (sent tags : List Str) (hs : ∀ w ∈ sent, w ≠ []) (hl : tags.length ≤ sent.length) :
    ∃ ws ts, parseSentence sent tags = .ok (ws, ts) ∧ ws.length = ts.length ∧
      IsSegmentation ws (sent.take tags.length).flatten :=
  ⟨_, _, parseSentence_spec sent tags hs hl, by simp, textOf_labelledWords sent tags, textOf_ne_nil sent tags hs⟩

theorem parseBatch_last (D : Dataset) (words labels : List Int) (offsets : List Nat) (last : Option (List Str × List Str))
    (r : List Str × List Str) (h : parseBatch D words labels offsets last = .ok r) :
    (offsets.length < 2 ∧ last = some r) ∨ ∃ pre b e sent tags, offsets = pre ++ [b, e] ∧
      decodeWords D (slice words b e) = .ok sent ∧ decodeLabels D (slice labels b e) = .ok tags ∧ parseSentence sent tags = .ok r := by
  match offsets with
  | [] => cases last with
    | none => simp [parseBatch] at h
    | some x => simp only [parseBatch, Except.ok.injEq] at h; exact Or.inl ⟨by simp, by rw [h]⟩
  | [o] => cases last with
    | none => simp [parseBatch] at h
    | some x => simp only [parseBatch, Except.ok.injEq] at h; exact Or.inl ⟨by simp, by rw [h]⟩
  | b :: e :: offsets =>
    right
    simp only [parseBatch, bind, Except.bind] at h
    cases h1 : decodeWords D (slice words b e) with
    | error x => rw [h1] at h; simp at h
    | ok sent =>
      cases h2 : decodeLabels D (slice labels b e) with
      | error x => rw [h1, h2] at h; simp at h
      | ok tags =>
        cases h3 : parseSentence sent tags with
        | error x => rw [h1, h2] at h; simp only [h3] at h; simp at h
        | ok r' =>
          rw [h1, h2] at h; simp only [h3] at h
          rcases parseBatch_last D words labels (e :: offsets) (some r') r h with ⟨h4, h5⟩ | ⟨pre, b', e', s', t', h4, h5⟩
          · have : offsets = [] := by cases offsets with
              | nil => rfl
              | cons _ _ => simp only [List.length_cons] at h4; omega
            subst this
            simp only [Option.some.injEq] at h5
            exact ⟨[], b, e, sent, tags, rfl, h1, h2, h5 ▸ h3⟩
          · exact ⟨b :: pre, b', e', s', t', by rw [h4]; rfl, h5⟩
termination_by offsets.length

/-- C57 for `parse_result` on a batch: it returns the words of the last sentence only. -/
theorem C57_batch (D : Dataset) (offsets : List Nat) (words labels : List Int) (ws ts : List Str)
    (hr : parseResult D offsets words labels = .ok (ws, ts)) :
    ∃ pre b e sent tags, offsets = pre ++ [b, e] ∧ decodeWords D (slice words b e) = .ok sent ∧
      decodeLabels D (slice labels b e) = .ok tags ∧ parseSentence sent tags = .ok (ws, ts) := by
  rcases parseBatch_last D words labels offsets none (ws, ts) hr with ⟨-, h⟩ | h
  · simp at h
  · exact h

/-- Four characters, three words: 大学 (n), 在 (O becomes a word of its own), 京 (ns). -/
example : parseSentence [lit ['大'], lit ['学'], lit ['在'], lit ['京']]
      [lit ['n', '-', 'B'], lit ['n', '-', 'I'], lit ['O'], lit ['n', 's', '-', 'B']] =
    .ok ([lit ['大', '学'], lit ['在'], lit ['京']], [lit ['n'], lit ['O'], lit ['n', 's']]) := by decide +kernel

/-- C57, the condition is needed: with a character that decodes to the empty string there are more tags than words. -/
theorem C57_fails_for_empty_piece :
    parseSentence [[], lit ['大']] [lit ['n', '-', 'B'], lit ['n', '-', 'I']] = .ok ([lit ['大']], [lit ['n'], lit ['n']]) := by
  decide +kernel

theorem parseLoop_raises (sent tags : List Str) (prev word : Str) (so ts : List Str) (e : PyErr) :
    parseLoop sent tags prev word so ts = .error e ↔ e = .indexError ∧ sent.length < tags.length := by
  induction tags generalizing sent prev word so ts with
  | nil => cases sent <;> simp [parseLoop]
  | cons t tags ih =>
    cases sent with
    | nil => simp [parseLoop, eq_comm]
    | cons w sent =>
      unfold parseLoop
      split
      · rw [ih]; simp
      · split <;> (rw [ih]; simp)

/-- C57: the words of a sentence cannot be assembled (IndexError) exactly when there are more labels than characters. -/
theorem C57_raises (sent tags : List Str) (e : PyErr) :
    parseSentence sent tags = .error e ↔ e = .indexError ∧ sent.length < tags.length := by
  rw [← parseLoop_raises sent tags [] [] [] [] e]
  unfold parseSentence
  cases parseLoop sent tags [] [] [] [] with
  | error x => simp [bind, Except.bind]
  | ok r => simp [bind, Except.bind]

example : parseSentence [lit ['大']] [lit ['n', '-', 'B'], lit ['O']] = .error .indexError := by decide +kernel

/-! ## C67 -/

/-- C67: `strNat n` and `strInt n` are the decimal notation, as Lean writes it. -/
theorem C67_decimal (n : Int) : strInt n = (toString n).toList.map (fun c => c.toNat) := by
  have hd : ∀ n, n < 10 → (Nat.digitChar n).toNat = 0x30 + n := by decide
  have hn : ∀ n : Nat, strNat n = (Nat.toDigits 10 n).map (fun c => c.toNat) := by
    intro n
    induction n using Nat.strong_induction_on with
    | _ n ih =>
      unfold strNat
      split
      · next h => rw [Nat.toDigits_of_lt_base h]; simp [hd n h]
      · next h =>
        rw [ih (n / 10) (by omega), Nat.toDigits_of_base_le (n := n) (by omega) (by omega)]
        simp [hd (n % 10) (by omega)]
  cases n with
  | ofNat n =>
    show strNat n = (Nat.repr n).toList.map _
    rw [hn]; simp [Nat.repr]
  | negSucc n =>
    show 0x2D :: strNat (n + 1) = (("-" ++ Nat.repr (n + 1)).toList).map _
    rw [hn]; simp [Nat.repr]

example : strInt (-120) = lit ['-', '1', '2', '0'] := by decide +kernel

theorem dropWhile_spec (p : Nat → Bool) (s : List Nat) :
    ∃ pre, s = pre ++ s.dropWhile p ∧ (∀ c ∈ pre, p c = true) ∧ ∀ c, (s.dropWhile p).head? = some c → p c = false := by
  induction s with
  | nil => exact ⟨[], by simp⟩
  | cons a s ih =>
    obtain ⟨pre, h1, h2, h3⟩ := ih
    rw [List.dropWhile_cons]
    by_cases h : p a = true
    · simp only [h, if_true]
      refine ⟨a :: pre, by rw [List.cons_append, ← h1], ?_, h3⟩
      intro c hc
      rcases List.mem_cons.mp hc with rfl | hc
      · exact h
      · exact h2 c hc
    · simp only [h]
      exact ⟨[], by simp, by simp, by simpa using h⟩

/-- `mid` is `s` without whitespace at both ends. -/
def Stripped (s mid : Str) : Prop :=
  ∃ pre post, s = pre ++ mid ++ post ∧ (∀ c ∈ pre ++ post, isSpace c = true) ∧
    (∀ c, mid.head? = some c → isSpace c = false) ∧ ∀ c, mid.getLast? = some c → isSpace c = false

theorem stripped (s : Str) : Stripped s (stripBy isSpace s) := by
  obtain ⟨pre, h1, h2, h3⟩ := dropWhile_spec isSpace s
  obtain ⟨post, h4, h5, h6⟩ := dropWhile_spec isSpace (s.dropWhile isSpace).reverse
  have he : stripBy isSpace s = ((s.dropWhile isSpace).reverse.dropWhile isSpace).reverse := rfl
  have h7 : s.dropWhile isSpace = stripBy isSpace s ++ post.reverse := by
    rw [he, ← List.reverse_append, ← h4, List.reverse_reverse]
  refine ⟨pre, post.reverse, ?_, ?_, ?_, ?_⟩
  · rw [List.append_assoc, ← h7]; exact h1
  · intro c hc
    rcases List.mem_append.mp hc with hc | hc
    · exact h2 c hc
    · exact h5 c (List.mem_reverse.mp hc)
  · intro c hc
    refine h3 c ?_
    rw [h7]
    cases hm : stripBy isSpace s with
    | nil => rw [hm] at hc; simp at hc
    | cons a m => rw [hm] at hc; simpa using hc
  · intro c hc
    rw [he, List.getLast?_reverse] at hc
    exact h6 c hc

theorem dropWhile_append_all (p : Nat → Bool) (a b : List Nat) (h : ∀ c ∈ a, p c = true) : (a ++ b).dropWhile p = b.dropWhile p := by
  induction a with
  | nil => rfl
  | cons x a ih => rw [List.cons_append, List.dropWhile_cons, h x (by simp), if_pos rfl]; exact ih (fun c hc => h c (by simp [hc]))

theorem dropWhile_head (p : Nat → Bool) (a b : List Nat) (h : ∀ c, a.head? = some c → p c = false) (hne : a ≠ []) :
    (a ++ b).dropWhile p = a ++ b := by
  cases a with
  | nil => exact (hne rfl).elim
  | cons x a => rw [List.cons_append, List.dropWhile_cons, h x rfl]; simp

/-- There is only one text without the outer whitespace. -/
theorem stripped_unique (s mid : Str) (h : Stripped s mid) : stripBy isSpace s = mid := by
  obtain ⟨pre, post, rfl, h1, h2, h3⟩ := h
  change (((pre ++ mid ++ post).dropWhile isSpace).reverse.dropWhile isSpace).reverse = mid
  rw [List.append_assoc, dropWhile_append_all _ _ _ (fun c hc => h1 c (by simp [hc]))]
  by_cases hm : mid = []
  · subst hm
    have := dropWhile_append_all isSpace post [] (fun c hc => h1 c (by simp [hc]))
    rw [List.append_nil] at this
    rw [List.nil_append, this]; rfl
  · rw [dropWhile_head _ _ _ h2 hm, List.reverse_append, dropWhile_append_all _ _ _ (fun c hc => h1 c (by simp at hc; simp [hc]))]
    have := dropWhile_head isSpace mid.reverse [] (by simpa using h3) (by simpa using hm)
    rw [List.append_nil] at this
    rw [this, List.reverse_reverse]

/-- The id of a character: its own, or that of 'OOV'. -/
def HasId (D : Dataset) (c : Ch) (i : Int) : Prop := D.word2id.get? (if D.word2id.has [c] then [c] else oov) = some i

theorem wordToIds_ok (D : Dataset) (s : Str) (ids : List Int) : wordToIds D s = .ok ids ↔ List.Forall₂ (HasId D) s ids := by
  induction s generalizing ids with
  | nil => cases ids <;> simp [wordToIds]
  | cons c s ih =>
    unfold wordToIds index
    cases h1 : D.word2id.get? (if D.word2id.has [c] then [c] else oov) with
    | none =>
      simp only [bind, Except.bind]
      constructor
      · intro h; simp at h
      · intro h
        cases h with
        | cons h _ => simp [HasId, h1] at h
    | some i =>
      simp only [bind, Except.bind]
      cases h2 : wordToIds D s with
      | error e =>
        constructor
        · intro h; simp at h
        · intro h
          cases h with
          | cons _ h => rw [← ih, h2] at h; simp at h
      | ok is =>
        simp only [Except.ok.injEq]
        constructor
        · rintro rfl; exact .cons (by simp [HasId, h1]) ((ih is).mp h2)
        · intro h
          cases h with
          | cons h h' =>
            rw [← ih, h2] at h'
            simp only [HasId, h1, Option.some.injEq] at h
            simp only [Except.ok.injEq] at h'
            rw [h, h']

theorem wordToIds_error (D : Dataset) (s : Str) (e : PyErr) :
    wordToIds D s = .error e ↔ e = .keyError ∧ D.word2id.has oov = false ∧ ∃ c ∈ s, D.word2id.has [c] = false := by
  induction s with
  | nil => simp [wordToIds]
  | cons c s ih =>
    unfold wordToIds index
    cases hc : D.word2id.has [c] with
    | true =>
      have : ∃ v, D.word2id.get? [c] = some v := by
        unfold PyDict.has at hc
        exact Option.isSome_iff_exists.mp hc
      obtain ⟨v, hv⟩ := this
      simp only [if_true, hv, bind, Except.bind]
      cases h2 : wordToIds D s with
      | error e' => rw [h2] at ih; simp only [ih]; simp [hc]
      | ok is => rw [h2] at ih; simp at ih; simpa [hc] using ih
    | false =>
      simp only [Bool.false_eq_true, if_false]
      cases ho : D.word2id.get? oov with
      | none =>
        have : D.word2id.has oov = false := by simp [PyDict.has, ho]
        simp only [bind, Except.bind, Except.error.injEq, this, true_and]
        exact ⟨fun h => ⟨h.symm, c, by simp, hc⟩, fun h => h.1.symm⟩
      | some v =>
        have : D.word2id.has oov = true := by simp [PyDict.has, ho]
        simp only [bind, Except.bind]
        cases h2 : wordToIds D s with
        | error e' => rw [h2] at ih; simp only [ih]; simp [this]
        | ok is => rw [h2] at ih; simp [this]

theorem decodeLabels_cases (D : Dataset) (l : List Int) :
    (∃ ts, decodeLabels D l = .ok ts ∧ List.Forall₂ (fun i t => D.id2label.get? (strInt i) = some t) l ts) ∨
    (decodeLabels D l = .error .keyError ∧ ∃ i ∈ l, D.id2label.get? (strInt i) = none) := by
  induction l with
  | nil => exact Or.inl ⟨[], rfl, .nil⟩
  | cons i l ih =>
    unfold decodeLabels index
    cases hi : D.id2label.get? (strInt i) with
    | none => right; exact ⟨rfl, i, by simp, hi⟩
    | some t =>
      rcases ih with ⟨ts, h1, h2⟩ | ⟨h1, j, hj, h2⟩
      · left; exact ⟨t :: ts, by simp [bind, Except.bind, h1], .cons hi h2⟩
      · right; exact ⟨by simp [bind, Except.bind, h1], j, by simp [hj], h2⟩

theorem getResult_of_ids (D : Dataset) (hD : Inverse D.word2id D.id2word) (net : List Int → Except PyErr (List Int)) (s : Str)
    (ids : List Int) (hv : getVars D s = .ok ids) (labels : List Int) (hn : net ids = .ok labels) :
    getResult D net s = decodeLabels D (labels.take ids.length) >>=
      fun tags => parseSentence ((stripBy isSpace s).map (fun c => [shown D c])) tags := by
  unfold getResult
  rw [hv]
  simp only [bind, Except.bind, hn, parseResult, parseBatch, slice, List.drop_zero, List.take_length]
  obtain ⟨h1, h2⟩ := decode_encode D hD _ ids hv
  rw [h2]
  cases decodeLabels D (labels.take ids.length) with
  | error e => rfl
  | ok tags =>
    simp only []
    cases parseSentence ((stripBy isSpace s).map (fun c => [shown D c])) tags <;> rfl

/-- C67: `get_result` in full, when every character of the text without outer whitespace has an id, the network returns labels, and
the labels that are used have names: the words are those of C57 for the characters (spaces for the unknown ones) with these names. -/
theorem C67_words (D : Dataset) (hD : Inverse D.word2id D.id2word) (net : List Int → Except PyErr (List Int)) (s mid : Str)
    (hm : Stripped s mid) (ids labels : List Int) (tags : List Str) (hv : List.Forall₂ (HasId D) mid ids)
    (hn : net ids = .ok labels) (hl : List.Forall₂ (fun i t => D.id2label.get? (strInt i) = some t) (labels.take mid.length) tags) :
    getResult D net s =
      .ok ((labelledWords ((mid.map (fun c => [if D.word2id.has [c] then c else 0x20])).zip tags)).map textOf,
        (labelledWords ((mid.map (fun c => [if D.word2id.has [c] then c else 0x20])).zip tags)).map labelOf) := by
  have hv' : getVars D s = .ok ids := by unfold getVars; rw [stripped_unique s mid hm, wordToIds_ok]; exact hv
  rw [getResult_of_ids D hD net s ids hv' labels hn, ← hv.length_eq]
  rcases decodeLabels_cases D (labels.take mid.length) with ⟨ts, h1, h2⟩ | ⟨-, i, hi, h2⟩
  · have : ts = tags := by
      clear h1
      generalize labels.take mid.length = l at hl h2
      induction h2 generalizing tags with
      | nil => cases hl; rfl
      | cons h _ ih =>
        cases hl with
        | cons h' hl' => rw [h] at h'; rw [Option.some.inj h', ih _ hl']
    subst this
    rw [h1, stripped_unique s mid hm]
    have hlen := hl.length_eq
    rw [List.length_take] at hlen
    show parseSentence _ _ = _
    rw [C57_words _ _ (by simp) (by simp; omega)]
    rfl
  · exfalso
    clear hn
    generalize labels.take mid.length = l at hl hi
    induction hl with
    | nil => simp at hi
    | cons h _ ih =>
      rcases List.mem_cons.mp hi with rfl | hi
      · rw [h] at h2; simp at h2
      · exact ih hi

/-- C67: exactly when `get_result` raises: KeyError for an unknown character if word.dic has no OOV entry, any exception of the
network, and KeyError for a label id that is not in tag.dic among the labels that are used.  The number of labels does not matter. -/
theorem C67_raises (D : Dataset) (hD : Inverse D.word2id D.id2word) (net : List Int → Except PyErr (List Int)) (s mid : Str)
    (hm : Stripped s mid) (e : PyErr) :
    getResult D net s = .error e ↔
      (e = .keyError ∧ D.word2id.has oov = false ∧ ∃ c ∈ mid, D.word2id.has [c] = false) ∨
      (∃ ids, List.Forall₂ (HasId D) mid ids ∧ (net ids = .error e ∨
        ∃ labels, net ids = .ok labels ∧ e = .keyError ∧ ∃ i ∈ labels.take mid.length, D.id2label.get? (strInt i) = none)) := by
  have hs := stripped_unique s mid hm
  cases hv : getVars D s with
  | error x =>
    have hv' : wordToIds D mid = .error x := by rw [← hs]; exact hv
    have h1 : getResult D net s = .error x := by unfold getResult; rw [hv]; rfl
    rw [h1, Except.error.injEq, ← wordToIds_error D mid e, hv']
    constructor
    · rintro rfl; exact Or.inl rfl
    · rintro (h | ⟨ids, h, -⟩)
      · exact Except.error.inj h
      · rw [← wordToIds_ok, hv'] at h; simp at h
  | ok ids =>
    have hv' : wordToIds D mid = .ok ids := by rw [← hs]; exact hv
    have hids : ∀ ids', List.Forall₂ (HasId D) mid ids' ↔ ids = ids' := by
      intro ids'; rw [← wordToIds_ok, hv', Except.ok.injEq]
    rw [← wordToIds_error D mid e, hv']
    simp only [hids, reduceCtorEq, false_or, exists_eq_left']
    cases hn : net ids with
    | error x =>
      have h1 : getResult D net s = .error x := by unfold getResult; rw [hv]; simp [bind, Except.bind, hn]
      rw [h1]; simp
    | ok labels =>
      have hlen : mid.length = ids.length := ((wordToIds_ok D mid ids).mp hv').length_eq
      rw [getResult_of_ids D hD net s ids hv labels hn, hs, hlen]
      simp only [reduceCtorEq, false_or, Except.ok.injEq, exists_eq_left']
      rcases decodeLabels_cases D (labels.take ids.length) with ⟨ts, h1, h2⟩ | ⟨h1, h2⟩
      · rw [h1]
        have hl := h2.length_eq
        rw [List.length_take] at hl
        show parseSentence _ _ = _ ↔ _
        rw [C57_words _ _ (by simp) (by simp; omega)]
        constructor
        · intro h; simp at h
        · rintro ⟨-, i, hi, hni⟩
          exfalso
          clear h1 hl
          generalize labels.take ids.length = l at h2 hi
          induction h2 with
          | nil => simp at hi
          | cons h _ ih =>
            rcases List.mem_cons.mp hi with rfl | hi
            · rw [h] at hni; simp at hni
            · exact ih hi
      · rw [h1]
        show Except.error PyErr.keyError = Except.error e ↔ _
        simp only [Except.error.injEq, h2, and_true]
        exact eq_comm

/-- C67: when `get_result` returns and the network gave a label to every character, the words are a segmentation of the text
without outer whitespace, each character that is not in word.dic being replaced by a space; and there are as many tags. -/
theorem C67_end_to_end (D : Dataset) (hD : Inverse D.word2id D.id2word) (net : List Int → Except PyErr (List Int))
    (hnet : ∀ ids labels, net ids = .ok labels → ids.length ≤ labels.length) (s : Str) (ws ts : List Str)
    (hr : getResult D net s = .ok (ws, ts)) :
    ws.length = ts.length ∧
    ∃ mid, Stripped s mid ∧ IsSegmentation ws (mid.map (fun c => if D.word2id.has [c] then c else 0x20)) := by
  obtain ⟨ids, labels, tags, -, h2, -, h4, h5, rfl, rfl⟩ := getResult_ok D hD net s ws ts hr
  have h6 := hnet ids labels h2
  refine ⟨by simp, stripBy isSpace s, stripped s, ?_, textOf_ne_nil _ _ (by simp)⟩
  rw [textOf_labelledWords, List.take_of_length_le (by simp; omega)]
  rw [← List.flatMap_def, ← List.map_eq_flatMap]
  rfl

/-- C67: hence a text of known characters without outer whitespace is segmented without loss, by both functions, with the same
words. -/
theorem C67_known_text_lossless (D : Dataset) (hD : Inverse D.word2id D.id2word) (net : List Int → Except PyErr (List Int))
    (hnet : ∀ ids labels, net ids = .ok labels → ids.length ≤ labels.length) (gbk : Bytes → Str) (s : Str)
    (hk : ∀ c ∈ s, D.word2id.has [c] = true) (hs : Stripped s s) (hok : (Paddle.cut D net gbk (.str s)).err = none) :
    IsSegmentation (Paddle.cut D net gbk (.str s)).out s ∧
    (posCut D net gbk (.str s)).out.map Prod.fst = (Paddle.cut D net gbk (.str s)).out ∧
    (posCut D net gbk (.str s)).err = none := by
  have hz : ∀ ws ts : List Str, ws.length = ts.length → zipTags ws ts = Gen.ok (ws.zip ts) := by
    intro ws
    induction ws with
    | nil => intro ts _; cases ts <;> rfl
    | cons w ws ih =>
      intro ts hl
      cases ts with
      | nil => simp at hl
      | cons t ts => rw [zipTags, ih ts (by simpa using hl)]; rfl
  by_cases he : s = []
  · subst he; simp [Paddle.cut, posCut, strdecode, Gen.ok, IsSegmentation]
  · have he' : (PyText.str s) ≠ .str [] := fun h => he (by injection h)
    have hc : Paddle.cut D net gbk (.str s) = Gen.ofExcept (getResult D net s) (fun r => Gen.ok r.1) := by
      unfold Paddle.cut; exact if_neg he
    have hp : posCut D net gbk (.str s) = Gen.ofExcept (getResult D net s) (fun r => zipTags r.1 r.2) := by
      unfold posCut; rw [if_neg he']; rfl
    rw [hc] at hok ⊢; rw [hp]
    cases hr : getResult D net s with
    | error e => rw [hr] at hok; simp [Gen.ofExcept, Gen.raise] at hok
    | ok r =>
      obtain ⟨ws, ts⟩ := r
      obtain ⟨hl, mid, hm, h1, h2⟩ := C67_end_to_end D hD net hnet s ws ts hr
      obtain ⟨ids, labels, tags, -, hn, -, h4, h5, h6, -⟩ := getResult_ok D hD net s ws ts hr
      have hlen := hnet ids labels hn
      have hst : stripBy isSpace s = s := by
        have : ∀ c, s.head? = some c → isSpace c = false := by obtain ⟨_, _, _, _, h, _⟩ := hs; exact h
        have h' : ∀ c, s.getLast? = some c → isSpace c = false := by obtain ⟨_, _, _, _, _, h⟩ := hs; exact h
        have e1 : s.dropWhile isSpace = s := by
          cases s with
          | nil => rfl
          | cons a s => rw [List.dropWhile_cons, this a rfl]; simp
        have e2 : s.reverse.dropWhile isSpace = s.reverse := by
          cases hs' : s.reverse with
          | nil => rfl
          | cons a r =>
            have : s.getLast? = some a := by rw [← List.head?_reverse, hs']; rfl
            rw [List.dropWhile_cons, h' a this]; simp
        change ((s.dropWhile isSpace).reverse.dropWhile isSpace).reverse = s
        rw [e1, e2, List.reverse_reverse]
      have hseg : IsSegmentation ws s := by
        refine ⟨?_, h2⟩
        rw [h6, hst, textOf_labelledWords, List.take_of_length_le (by rw [hst] at h5; simp; omega),
          ← List.flatMap_def, ← List.map_eq_flatMap]
        conv_rhs => rw [← List.map_id s]
        refine List.map_congr_left (fun c hc => ?_)
        simp [shown, hk c hc]
      simp only [Gen.ofExcept, hz ws ts hl, Gen.ok]
      exact ⟨hseg, List.map_fst_zip (by omega), trivial⟩

/-- C67: the tables are inverse to each other when the files load and every id is written as `str` writes it. -/
theorem C67_tables (words tags : List Str)
    (hc : ∀ line ∈ words, ∀ a b, splitOn1 0x09 (stripBy (· == 0x0A) line) = [a, b] → ∀ n, pyInt a = some n → strInt n = a)
    (D : Dataset) (h : Dataset.load words tags = .ok D) : Inverse D.word2id D.id2word := by
  unfold Dataset.load at h
  cases h1 : loadKV true pyInt words [] with
  | error e => rw [h1] at h; simp [bind, Except.bind] at h
  | ok d =>
    cases h2 : loadKV false some words [] with
    | error e => rw [h1, h2] at h; simp [bind, Except.bind] at h
    | ok e =>
      rw [h1, h2] at h
      cases h3 : loadKV true pyInt tags [] with
      | error e => rw [h3] at h; simp [bind, Except.bind] at h
      | ok d' =>
        rw [h3] at h
        cases h4 : loadKV false some tags [] with
        | error e => rw [h4] at h; simp [bind, Except.bind] at h
        | ok e' =>
          rw [h4] at h
          simp only [bind, Except.bind, Except.ok.injEq] at h
          subst h
          exact loadKV_inverse words hc [] d [] e (by intro w n hw; simp [PyDict.get?] at hw) h1 h2

/-- Small files: 大, 学 and OOV; n-B, n-I and O. -/
def sampleWords : List Str :=
  [lit ['0', '\t', '大', '\n'], lit ['1', '\t', '学', '\n'], lit ['1', '2', '\t', 'O', 'O', 'V', '\n'], lit ['x', '\n']]
def sampleTags : List Str := [lit ['0', '\t', 'n', '-', 'B', '\n'], lit ['1', '\t', 'n', '-', 'I', '\n'], lit ['2', '\t', 'O', '\n']]
def sampleDataset : Dataset :=
  ⟨[(lit ['大'], 0), (lit ['学'], 1), (lit ['O', 'O', 'V'], 12)],
   [(lit ['0'], lit ['大']), (lit ['1'], lit ['学']), (lit ['1', '2'], lit ['O', 'O', 'V'])],
   [(lit ['0'], lit ['n', '-', 'B']), (lit ['1'], lit ['n', '-', 'I']), (lit ['2'], lit ['O'])]⟩

/-- A network: 大 begins a word, 学 continues it, anything else is O. -/
def sampleNet (ids : List Int) : Except PyErr (List Int) :=
  if ids = [] then .error .exception else .ok (ids.map (fun i => if i = 12 then 2 else i))

theorem sampleDataset_load : (match Dataset.load sampleWords sampleTags with
    | .ok D => decide (D.word2id = sampleDataset.word2id ∧ D.id2word = sampleDataset.id2word ∧ D.id2label = sampleDataset.id2label)
    | .error _ => false) = true := by decide +kernel

theorem sampleDataset_inverse : Inverse sampleDataset.word2id sampleDataset.id2word := by
  intro w n h
  simp only [sampleDataset, PyDict.get?] at h
  split at h
  · rename_i e; simp only [Option.some.injEq] at h; subst h; subst e; decide +kernel
  · split at h
    · rename_i e; simp only [Option.some.injEq] at h; subst h; subst e; decide +kernel
    · split at h
      · rename_i e; simp only [Option.some.injEq] at h; subst h; subst e; decide +kernel
      · simp at h

/-- The hypotheses hold of these files and this network. -/
example : (∀ line ∈ sampleWords, ∀ a b, splitOn1 0x09 (stripBy (· == 0x0A) line) = [a, b] → ∀ n, pyInt a = some n → strInt n = a) ∧
    (∀ ids labels, sampleNet ids = .ok labels → ids.length ≤ labels.length) ∧
    Paddle.cut sampleDataset sampleNet (fun _ => []) (.str (lit ['大', '学', '大'])) = Gen.ok [lit ['大', '学'], lit ['大']] := by
  refine ⟨?_, ?_, by decide +kernel⟩
  · intro line hl
    simp only [sampleWords, List.mem_cons, List.not_mem_nil, or_false] at hl
    have key : ∀ (line : Str), (match splitOn1 0x09 (stripBy (· == 0x0A) line) with
        | [a, _] => (match pyInt a with | some n => decide (strInt n = a) | none => true)
        | _ => true) = true →
        ∀ a b, splitOn1 0x09 (stripBy (· == 0x0A) line) = [a, b] → ∀ n, pyInt a = some n → strInt n = a := by
      intro line h a b hab n hn
      rw [hab] at h; simp only [hn] at h
      simpa using h
    rcases hl with rfl | rfl | rfl | rfl <;> exact key _ (by decide +kernel)
  · intro ids labels h
    unfold sampleNet at h
    split at h
    · simp at h
    · simp only [Except.ok.injEq] at h; subst h; simp

/-- The hypotheses of `C67_words` hold: 京 is not in word.dic. -/
example : Stripped (lit [' ', '大', '京', '\n']) (lit ['大', '京']) ∧ List.Forall₂ (HasId sampleDataset) (lit ['大', '京']) [0, 12] ∧
    sampleNet [0, 12] = .ok [0, 2] ∧ List.Forall₂ (fun i t => sampleDataset.id2label.get? (strInt i) = some t) [0, 2] [lit ['n', '-', 'B'], lit ['O']] := by
  refine ⟨⟨lit [' '], lit ['\n'], by decide, by decide, by decide, by decide⟩, ?_, rfl, ?_⟩
  · exact .cons (by unfold HasId; decide +kernel) (.cons (by unfold HasId; decide +kernel) .nil)
  · exact .cons (by decide +kernel) (.cons (by decide +kernel) .nil)

/-- Two ways to raise: no OOV entry, and a label that is not in tag.dic. -/
example : getResult ⟨[], [], []⟩ sampleNet (lit ['大']) = .error .keyError ∧
    getResult sampleDataset (fun _ => .ok [7]) (lit ['大']) = .error .keyError ∧
    getResult sampleDataset (fun _ => .ok [0, 7]) (lit ['大']) = .ok ([lit ['大']], [lit ['n']]) := by decide +kernel

/-- C67, negative part: `cut(text, use_paddle=True)` is not lossless: outer whitespace is dropped and unknown characters come out as
spaces. -/
theorem C67_not_lossless :
    Paddle.cut sampleDataset sampleNet (fun _ => []) (.str (lit [' ', '大', '京', '\n'])) = Gen.ok [lit ['大'], lit [' ']] := by
  decide +kernel

/-! ## C68 -/

/-- C68: the guard against empty sentences does not keep them from the network: a text of whitespace is passed to it as an empty
list of ids, and an exception of the network for that is raised by `cut` and `posseg.cut`. -/
theorem C68_whitespace_reaches_network (D : Dataset) (net : List Int → Except PyErr (List Int)) (gbk : Bytes → Str) (e : PyErr)
    (hnet : net [] = .error e) (s : Str) (hne : s ≠ []) (hs : ∀ c ∈ s, isSpace c = true) :
    Paddle.cut D net gbk (.str s) = Gen.raise e ∧ posCut D net gbk (.str s) = Gen.raise e := by
  have h1 : s.dropWhile isSpace = [] := by
    clear hne
    induction s with
    | nil => rfl
    | cons a s ih => rw [List.dropWhile_cons, hs a (by simp), if_pos rfl]; exact ih (fun c hc => hs c (by simp [hc]))
  have h2 : stripBy isSpace s = [] := by
    change ((s.dropWhile isSpace).reverse.dropWhile isSpace).reverse = []
    rw [h1]; rfl
  have h3 : getResult D net s = .error e := by
    simp [getResult, getVars, h2, wordToIds, hnet, bind, Except.bind]
  have he' : (PyText.str s) ≠ .str [] := fun h => hne (by injection h)
  simp [Paddle.cut, posCut, strdecode, hne, he', h3, Gen.ofExcept]

/-- C68: an empty `bytes` object is stopped by the guard of `cut` but not by that of `posseg.cut`. -/
theorem C68_empty_bytes (D : Dataset) (net : List Int → Except PyErr (List Int)) (gbk : Bytes → Str) (e : PyErr)
    (hnet : net [] = .error e) :
    Paddle.cut D net gbk (.bytes []) = Gen.ok [] ∧ posCut D net gbk (.bytes []) = Gen.raise e ∧
    Paddle.cut D net gbk (.str []) = Gen.ok [] ∧ posCut D net gbk (.str []) = Gen.ok [] := by
  have h0 : strdecode gbk (.bytes []) = [] := rfl
  have h3 : getResult D net [] = .error e := by
    simp [getResult, getVars, stripBy, wordToIds, hnet, bind, Except.bind]
  refine ⟨by simp [Paddle.cut, h0], ?_, by simp [Paddle.cut, strdecode], by simp [posCut]⟩
  simp [posCut, h0, h3, Gen.ofExcept]

example : sampleNet [] = .error .exception ∧ ∀ c ∈ lit [' ', '\n'], isSpace c = true := by decide +kernel

end Jieba.Props
