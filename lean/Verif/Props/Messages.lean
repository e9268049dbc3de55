import Verif.Model.Messages
import Verif.Proofs.Repr
import Verif.Props.PosWorld
/-!
# C137: the message for a malformed line of a dictionary
-/

set_option linter.unusedSectionVars false

namespace Jieba.Props
open Jieba Jieba.Spec Jieba.Pos

/-- The text of a line of a file that is UTF-8, without blanks around it. -/
def LineText (line : Bytes) (t : Str) : Prop := ∃ b, TrimmedBy isByteSpace line b ∧ utf8Encode t = some b

/-- How a line is shown: its text, or, if it is not UTF-8, a literal of its bytes (with line end and blanks). -/
def ShownAs (line : Bytes) (t : Str) : Prop := LineText line t ∨ ((¬ ∃ t, LineText line t) ∧ ∃ u, t = 0x62 :: u ∧ Literal u line [])

/-- "invalid dictionary entry in " -/
def dictMsg : List Char :=
  ['i', 'n', 'v', 'a', 'l', 'i', 'd', ' ', 'd', 'i', 'c', 't', 'i', 'o', 'n', 'a', 'r', 'y', ' ', 'e', 'n', 't',
    'r', 'y', ' ', 'i', 'n', ' ']

/-- "invalid POS dictionary entry in " -/
def posMsg : List Char :=
  ['i', 'n', 'v', 'a', 'l', 'i', 'd', ' ', 'P', 'O', 'S', ' ', 'd', 'i', 'c', 't', 'i', 'o', 'n', 'a', 'r', 'y',
    ' ', 'e', 'n', 't', 'r', 'y', ' ', 'i', 'n', ' ']

/-- The message for line number `n`. -/
def Message (start : List Char) (name : Str) (n : Nat) (line : Bytes) (m : Str) : Prop :=
  ∃ t, ShownAs line t ∧ m = lit start ++ name ++ lit [' ', 'a', 't', ' ', 'L', 'i', 'n', 'e', ' '] ++ decimal n ++ lit [':', ' '] ++ t

attribute [local irreducible] entryMsg

theorem lineText_iff (line : Bytes) (t : Str) : LineText line t ↔ utf8Decode (stripBy isByteSpace line) = some t := by
  unfold LineText
  simp only [trimmedBy_iff, utf8_iff]
  constructor
  · rintro ⟨b, rfl, h⟩; exact h
  · intro h; exact ⟨_, rfl, h⟩

theorem shownAs_shownLine (line : Bytes) (h : ∀ c ∈ line, c < 256) : ShownAs line (shownLine line) := by
  unfold shownLine
  cases e : utf8Decode (stripBy isByteSpace line) with
  | some t => exact Or.inl ((lineText_iff _ _).mpr e)
  | none =>
    refine Or.inr ⟨?_, _, rfl, ?_⟩
    · rintro ⟨t, ht⟩
      rw [lineText_iff, e] at ht
      simp at ht
    · have := literal_strRepr (fun _ => false) line [] (fun c hc => by have := h c hc; unfold Ch at *; omega)
      rwa [List.append_nil] at this

theorem fileLines_mem (data : Bytes) (l : Bytes) (hl : l ∈ fileLines data) : ∀ c ∈ l, c ∈ data := by
  have key : ∀ d ls, FileLines d ls → ∀ l ∈ ls, ∀ c ∈ l, c ∈ d := by
    intro d ls h
    induction h with
    | nil => simp
    | last l _ _ => simp
    | line l b ls _ _ ih =>
      intro x hx c hc
      rcases List.mem_cons.mp hx with rfl | hx
      · simp at hc ⊢; tauto
      · have := ih x hx c hc; simp; tauto
  exact key data _ (fileLines_spec data) l hl

theorem genPfdictMsgLoop_cases (name : Str) : ∀ (ls : List Bytes) (n : Nat) (d : Freq) (t : Int),
    (∃ r, genPfdictMsgLoop name ls n d t = .ok r ∧ genPfdictLoop ls d t = .ok r ∧ ∀ x ∈ ls, dictLine x ≠ none) ∨
    ∃ a l b, ls = a ++ l :: b ∧ (∀ x ∈ a, dictLine x ≠ none) ∧ dictLine l = none ∧ genPfdictLoop ls d t = .error .valueError ∧
      genPfdictMsgLoop name ls n d t = .error (entryMsg false name (n + a.length) l)
  | [], n, d, t => Or.inl ⟨_, rfl, rfl, by simp⟩
  | l :: ls, n, d, t => by
    cases h : dictLine l with
    | none =>
      refine Or.inr ⟨[], l, ls, rfl, by simp, h, ?_, ?_⟩
      · simp [genPfdictLoop, h]
      · simp [genPfdictMsgLoop, h]
    | some e =>
      obtain ⟨w, f⟩ := e
      simp only [genPfdictLoop, genPfdictMsgLoop, h]
      rcases genPfdictMsgLoop_cases name ls (n + 1) (register d w f) (t + f) with ⟨r, h1, h2, h3⟩ | ⟨a, x, b, h1, h2, h3, h4, h5⟩
      · refine Or.inl ⟨r, h1, h2, fun y hy => ?_⟩
        rcases List.mem_cons.mp hy with rfl | hy
        · rw [h]; simp
        · exact h3 y hy
      · refine Or.inr ⟨l :: a, x, b, by rw [h1]; rfl, fun y hy => ?_, h3, h4, ?_⟩
        · rcases List.mem_cons.mp hy with rfl | hy
          · rw [h]; simp
          · exact h2 y hy
        · rw [h5, List.length_cons, Nat.add_assoc, Nat.add_comm 1]

theorem loadTagsMsgLoop_cases (name : Str) : ∀ (ls : List Bytes) (n : Nat) (d : PyDict Str Str),
    (loadTagsMsgLoop name ls n d).1 = (loadTagsLoop ls d).1 ∧
    (((loadTagsMsgLoop name ls n d).2 = .ok () ∧ (loadTagsLoop ls d).2 = .ok () ∧ ∀ x ∈ ls, tagLine x ≠ none) ∨
    ∃ a l b, ls = a ++ l :: b ∧ (∀ x ∈ a, tagLine x ≠ none) ∧ tagLine l = none ∧ (loadTagsLoop ls d).2 = .error .valueError ∧
      (loadTagsMsgLoop name ls n d).2 = .error (entryMsg true name (n + a.length) l))
  | [], n, d => ⟨rfl, Or.inl ⟨rfl, rfl, by simp⟩⟩
  | l :: ls, n, d => by
    have step : ∀ d', tagLine l ≠ none → (loadTagsMsgLoop name ls (n + 1) d').1 = (loadTagsLoop ls d').1 ∧
        (((loadTagsMsgLoop name ls (n + 1) d').2 = .ok () ∧ (loadTagsLoop ls d').2 = .ok () ∧ ∀ x ∈ l :: ls, tagLine x ≠ none) ∨
        ∃ a x b, l :: ls = a ++ x :: b ∧ (∀ y ∈ a, tagLine y ≠ none) ∧ tagLine x = none ∧ (loadTagsLoop ls d').2 = .error .valueError ∧
          (loadTagsMsgLoop name ls (n + 1) d').2 = .error (entryMsg true name (n + a.length) x)) := by
      intro d' hl
      obtain ⟨h0, ⟨h1, h2, h3⟩ | ⟨a, x, b, h1, h2, h3, h4, h5⟩⟩ := loadTagsMsgLoop_cases name ls (n + 1) d'
      · refine ⟨h0, Or.inl ⟨h1, h2, fun y hy => ?_⟩⟩
        rcases List.mem_cons.mp hy with rfl | hy
        · exact hl
        · exact h3 y hy
      · refine ⟨h0, Or.inr ⟨l :: a, x, b, by rw [h1]; rfl, fun y hy => ?_, h3, h4, ?_⟩⟩
        · rcases List.mem_cons.mp hy with rfl | hy
          · exact hl
          · exact h2 y hy
        · rw [h5, List.length_cons, Nat.add_assoc, Nat.add_comm 1]
    cases h : tagLine l with
    | none =>
      refine ⟨by simp [loadTagsLoop, loadTagsMsgLoop, h], Or.inr ⟨[], l, ls, rfl, by simp, h, ?_, ?_⟩⟩
      · simp [loadTagsLoop, h]
      · simp [loadTagsMsgLoop, h]
    | some e =>
      cases e with
      | none =>
        simp only [loadTagsLoop, loadTagsMsgLoop, h]
        exact step d (by rw [h]; simp)
      | some e =>
        obtain ⟨w, g⟩ := e
        simp only [loadTagsLoop, loadTagsMsgLoop, h]
        exact step (d.set w g) (by rw [h]; simp)

theorem dictLine_ne_none (l : Bytes) : dictLine l ≠ none ↔ ∃ w f, DictEntry l w f := by
  rw [Option.ne_none_iff_exists']
  constructor
  · rintro ⟨⟨w, f⟩, h⟩; exact ⟨w, f, (dictEntry_iff l w f).mpr h⟩
  · rintro ⟨w, f, h⟩; exact ⟨(w, f), (dictEntry_iff l w f).mp h⟩

theorem tagLine_ne_none (l : Bytes) : tagLine l ≠ none ↔ Blank l ∨ ∃ w g, TagEntry l w g := by
  rw [Option.ne_none_iff_exists']
  constructor
  · rintro ⟨_ | ⟨w, g⟩, h⟩
    · exact Or.inl ((tagLine_blank_iff l).mpr h)
    · exact Or.inr ⟨w, g, (tagEntry_iff l w g).mpr h⟩
  · rintro (h | ⟨w, g, h⟩)
    · exact ⟨_, (tagLine_blank_iff l).mp h⟩
    · exact ⟨_, (tagEntry_iff l w g).mp h⟩

theorem strNat_eq_decimal (n : Nat) : Paddle.strNat n = decimal n := by
  induction n using Nat.strongRecOn with
  | ind n ih =>
    rw [Paddle.strNat, decimal]
    split
    · rfl
    · rw [ih (n / 10) (by omega)]

theorem entryMsg_message (pos : Bool) (name : Str) (n : Nat) (l : Bytes) (h : ∀ c ∈ l, c < 256) :
    Message (if pos then posMsg else dictMsg) name n l (entryMsg pos name n l) := by
  refine ⟨_, shownAs_shownLine l h, ?_⟩
  unfold entryMsg
  rw [strNat_eq_decimal]
  cases pos <;> rfl

/-- C137: loading a dictionary file succeeds, with the result of C23, if every line is an entry; otherwise the message names the first line that is
none, counting from 1, and shows it. -/
theorem C137_dictionary (name : Str) (data : Bytes) (hb : ∀ c ∈ data, c < 256) : ∃ ls, FileLines data ls ∧
    ((∃ r, (∀ l ∈ ls, ∃ word freq, DictEntry l word freq) ∧ genPfdictMsg name data = .ok r ∧ genPfdict data = .ok r) ∨
    ∃ a l b m, ls = a ++ l :: b ∧ (∀ x ∈ a, ∃ word freq, DictEntry x word freq) ∧ (∀ word freq, ¬ DictEntry l word freq) ∧
      genPfdict data = .error .valueError ∧ genPfdictMsg name data = .error m ∧
      Message dictMsg name (a.length + 1) l m) := by
  refine ⟨fileLines data, fileLines_spec data, ?_⟩
  rcases genPfdictMsgLoop_cases name (fileLines data) 1 [] 0 with ⟨r, h1, h2, h3⟩ | ⟨a, l, b, h1, h2, h3, h4, h5⟩
  · exact Or.inl ⟨r, fun l hl => (dictLine_ne_none l).mp (h3 l hl), h1, h2⟩
  · refine Or.inr ⟨a, l, b, _, h1, fun x hx => (dictLine_ne_none x).mp (h2 x hx), fun w f h => ?_, h4, h5, ?_⟩
    · exact (dictLine_ne_none l).mpr ⟨w, f, h⟩ h3
    · rw [Nat.add_comm]
      exact entryMsg_message false name _ l (fun c hc => hb c (fileLines_mem data l (by rw [h1]; simp) c hc))

/-- C137 for the tags of a dictionary file: the first line that is neither blank nor has three fields. -/
theorem C137_tags (name : Str) (data : Bytes) (hb : ∀ c ∈ data, c < 256) : ∃ ls, FileLines data ls ∧ (loadTagsMsg name data).1 = (loadTags data).1 ∧
    (((∀ l ∈ ls, Blank l ∨ ∃ word tag, TagEntry l word tag) ∧ (loadTagsMsg name data).2 = .ok () ∧ (loadTags data).2 = .ok ()) ∨
    ∃ a l b m, ls = a ++ l :: b ∧ (∀ x ∈ a, Blank x ∨ ∃ word tag, TagEntry x word tag) ∧ ¬ Blank l ∧ (∀ word tag, ¬ TagEntry l word tag) ∧
      (loadTags data).2 = .error .valueError ∧ (loadTagsMsg name data).2 = .error m ∧
      Message posMsg name (a.length + 1) l m) := by
  refine ⟨fileLines data, fileLines_spec data, ?_⟩
  obtain ⟨h0, ⟨h1, h2, h3⟩ | ⟨a, l, b, h1, h2, h3, h4, h5⟩⟩ := loadTagsMsgLoop_cases name (fileLines data) 1 []
  · exact ⟨h0, Or.inl ⟨fun l hl => (tagLine_ne_none l).mp (h3 l hl), h1, h2⟩⟩
  · refine ⟨h0, Or.inr ⟨a, l, b, _, h1, fun x hx => (tagLine_ne_none x).mp (h2 x hx), fun h => ?_, fun w g h => ?_, h4, h5, ?_⟩⟩
    · exact (tagLine_ne_none l).mpr (Or.inl h) h3
    · exact (tagLine_ne_none l).mpr (Or.inr ⟨w, g, h⟩) h3
    · rw [Nat.add_comm]
      exact entryMsg_message true name _ l (fun c hc => hb c (fileLines_mem data l (by rw [h1]; simp) c hc))

theorem decimal_split (n n' : Nat) (r r' : Str) (h : decimal n ++ 0x3A :: r = decimal n' ++ 0x3A :: r') : n = n' ∧ r = r' := by
  have key : ∀ (a b r r' : Str), (∀ c ∈ a, isDigit c = true) → (∀ c ∈ b, isDigit c = true) → a ++ 0x3A :: r = b ++ 0x3A :: r' → a = b ∧ r = r' := by
    intro a
    induction a with
    | nil =>
      intro b r r' _ hb h
      cases b with
      | nil => simp at h; exact ⟨rfl, h⟩
      | cons y b =>
        simp only [List.nil_append, List.cons_append, List.cons.injEq] at h
        have := hb y (by simp)
        rw [← h.1] at this
        exact absurd this (by decide)
    | cons x a ih =>
      intro b r r' ha hb h
      cases b with
      | nil =>
        simp only [List.nil_append, List.cons_append, List.cons.injEq] at h
        have := ha x (by simp)
        rw [h.1] at this
        exact absurd this (by decide)
      | cons y b =>
        simp only [List.cons_append, List.cons.injEq] at h
        obtain ⟨e1, e2⟩ := ih b r r' (fun c hc => ha c (by simp [hc])) (fun c hc => hb c (by simp [hc])) h.2
        exact ⟨by rw [h.1, e1], e2⟩
  obtain ⟨h1, h2⟩ := key _ _ r r' (decimal_digits n) (decimal_digits n') h
  refine ⟨?_, h2⟩
  have e := digitsValue_decimal n
  rw [h1, digitsValue_decimal n'] at e
  exact (Option.some.inj e).symm

/-- C137: with the name of the file, the message determines the number of the line and what is shown of it. -/
theorem C137_readable (start : List Char) (name : Str) (n n' : Nat) (l l' : Bytes) (m : Str) (h : Message start name n l m) (h' : Message start name n' l' m) :
    n = n' ∧ ∃ t, ShownAs l t ∧ ShownAs l' t := by
  obtain ⟨t, h1, h2⟩ := h
  obtain ⟨t', h1', h2'⟩ := h'
  rw [h2'] at h2
  simp only [List.append_assoc, List.append_cancel_left_eq] at h2
  have : decimal n' ++ 0x3A :: (0x20 :: t') = decimal n ++ 0x3A :: (0x20 :: t) := h2
  obtain ⟨e1, e2⟩ := decimal_split _ _ _ _ this
  rw [List.cons.injEq] at e2
  exact ⟨e1.symm, t, h1, by rw [← e2.2]; exact h1'⟩

/-- C137: after the reported line has been replaced by an entry (or by several lines that are entries), loading the file succeeds or reports a later
line. -/
theorem C137_repair (name : Str) (ls : List Bytes) (a : List Bytes) (l : Bytes) (b new : List Bytes) (hls : ls = a ++ l :: b)
    (he : genPfdictMsgLoop name ls 1 [] 0 = .error (entryMsg false name (a.length + 1) l))
    (hn : ∀ x ∈ new, ∃ word freq, DictEntry x word freq) :
    (∃ r, genPfdictMsgLoop name (a ++ new ++ b) 1 [] 0 = .ok r) ∨
    ∃ n l', a.length + new.length < n ∧ l' ∈ b ∧ genPfdictMsgLoop name (a ++ new ++ b) 1 [] 0 = .error (entryMsg false name n l') := by
  have ha : ∀ x ∈ a, dictLine x ≠ none := by
    rcases genPfdictMsgLoop_cases name ls 1 [] 0 with ⟨r, h1, -, -⟩ | ⟨a', l', b', h1, h2, h3, -, h5⟩
    · rw [h1] at he; simp at he
    · rw [he] at h5
      have h5 := Except.error.inj h5
      unfold entryMsg at h5
      simp only [List.append_assoc, List.append_cancel_left_eq, strNat_eq_decimal] at h5
      have : decimal (a.length + 1) ++ 0x3A :: (0x20 :: shownLine l) = decimal (1 + a'.length) ++ 0x3A :: (0x20 :: shownLine l') := h5
      have hlen : a.length = a'.length := by
        have := (decimal_split _ _ _ _ this).1; omega
      rw [hls] at h1
      rw [(List.append_inj h1 hlen).1]
      exact h2
  rcases genPfdictMsgLoop_cases name (a ++ new ++ b) 1 [] 0 with ⟨r, h1, -, -⟩ | ⟨a', l', b', h1, h2, h3, -, h5⟩
  · exact Or.inl ⟨r, h1⟩
  · right
    have hgood : ∀ x ∈ a ++ new, dictLine x ≠ none := by
      intro x hx
      rcases List.mem_append.mp hx with hx | hx
      · exact ha x hx
      · exact (dictLine_ne_none x).mpr (hn x hx)
    have hsplit : ∃ c, a' = (a ++ new) ++ c ∧ b = c ++ l' :: b' := by
      rcases List.append_eq_append_iff.mp h1 with ⟨c, hc1, hc2⟩ | ⟨c, hc1, hc2⟩
      · exact ⟨c, hc1, hc2⟩
      · cases c with
        | nil => exact ⟨[], by simpa using hc1.symm, by simpa using hc2.symm⟩
        | cons x c =>
          simp only [List.cons_append, List.cons.injEq] at hc2
          have : l' ∈ a ++ new := by rw [hc1, hc2.1]; simp
          exact absurd h3 (hgood l' this)
    obtain ⟨c, hc1, hc2⟩ := hsplit
    refine ⟨1 + a'.length, l', ?_, by rw [hc2]; simp, h5⟩
    rw [hc1]
    simp only [List.length_append]
    omega

/-- A file whose third line has no number, and one whose first line is not UTF-8. -/
example : genPfdictMsg (lit "d.txt".toList) (lit "a 3 n\nb 4\n c  \nd".toList) = .error (lit "invalid dictionary entry in d.txt at Line 3: c".toList) ∧
    genPfdictMsg (lit "d.txt".toList) [0xB1, 0x20, 0x33, 0x0A] = .error (lit "invalid dictionary entry in d.txt at Line 1: b'\\xb1 3\\n'".toList) ∧
    (loadTagsMsg (lit "d.txt".toList) (lit "a 3 n\n\nb 4\n".toList)).2 = .error (lit "invalid POS dictionary entry in d.txt at Line 3: b 4".toList) := by
  decide +kernel

/-- The hypotheses of `C137_repair` are met, and another line is malformed. -/
example : ∃ ls a l b new, ls = a ++ l :: b ∧ genPfdictMsgLoop [] ls 1 [] 0 = .error (entryMsg false [] (a.length + 1) l) ∧
    (∀ x ∈ new, ∃ word freq, DictEntry x word freq) ∧
    genPfdictMsgLoop [] (a ++ new ++ b) 1 [] 0 = .error (entryMsg false [] (a.length + new.length + 2) (lit ['e'])) := by
  refine ⟨_, [lit "a 3\n".toList], lit "b\n".toList, [lit "c 1\n".toList, lit ['e']], [lit "b 2\n".toList], rfl, by decide +kernel, ?_, by decide +kernel⟩
  intro x hx
  obtain rfl : x = lit "b 2\n".toList := by simpa using hx
  exact ⟨lit ['b'], 2, (dictEntry_iff _ _ _).mpr (by decide +kernel)⟩

end Jieba.Props
