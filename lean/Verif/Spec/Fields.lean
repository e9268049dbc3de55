import Verif.Model.Codec
/-!
# Specification vocabulary: lines and fields of text files

What the lines and the fields of a dictionary file are, as relations that do not refer to the functions of the model
(`fileLines`, `splitlines`, `stripBy`, `splitOn1`, `utf8Decode`, `pyInt`, `dictLine`, `tagLine`, `idfLine`).
-/

namespace Jieba.Spec
open Jieba

/-- `ls` are the lines of a binary file, each with its `\n`; the last one need not have one. -/
inductive FileLines : Bytes → List Bytes → Prop
  | nil : FileLines [] []
  | last (l) : l ≠ [] → 0x0A ∉ l → FileLines l [l]
  | line (l b ls) : 0x0A ∉ l → FileLines b ls → FileLines (l ++ 0x0A :: b) ((l ++ [0x0A]) :: ls)

/-- `ls` are the lines of a text, without the line ends: `\r\n` or another line break. -/
inductive TextLines : Str → List Str → Prop
  | nil : TextLines [] []
  | last (l) : l ≠ [] → (∀ c ∈ l, isLineBreak c = false) → TextLines l [l]
  | crlf (l s ls) : (∀ c ∈ l, isLineBreak c = false) → TextLines s ls → TextLines (l ++ 0x0D :: 0x0A :: s) (l :: ls)
  | line (l c s ls) : (∀ c ∈ l, isLineBreak c = false) → isLineBreak c = true → ¬ (c = 0x0D ∧ s.head? = some 0x0A) →
      TextLines s ls → TextLines (l ++ c :: s) (l :: ls)

/-- `ls` are the lines of a text, each with its line end (`\r\n` or another line break); the last one need not have one. -/
inductive KeptLines : Str → List Str → Prop
  | nil : KeptLines [] []
  | last (l) : l ≠ [] → (∀ c ∈ l, isLineBreak c = false) → KeptLines l [l]
  | crlf (l s ls) : (∀ c ∈ l, isLineBreak c = false) → KeptLines s ls →
      KeptLines (l ++ 0x0D :: 0x0A :: s) ((l ++ [0x0D, 0x0A]) :: ls)
  | line (l c s ls) : (∀ c ∈ l, isLineBreak c = false) → isLineBreak c = true → ¬ (c = 0x0D ∧ s.head? = some 0x0A) →
      KeptLines s ls → KeptLines (l ++ c :: s) ((l ++ [c]) :: ls)

/-- `mid` is `s` without the characters satisfying `p` at both ends. -/
def TrimmedBy (p : Nat → Bool) (s mid : List Nat) : Prop :=
  ∃ pre post, s = pre ++ mid ++ post ∧ (∀ c ∈ pre ++ post, p c = true) ∧
    (∀ c, mid.head? = some c → p c = false) ∧ ∀ c, mid.getLast? = some c → p c = false

/-- `fs` are the pieces of `s` between the separators. -/
def FieldsOf (sep : Nat) (s : List Nat) (fs : List (List Nat)) : Prop :=
  fs ≠ [] ∧ (∀ f ∈ fs, sep ∉ f) ∧ s = [sep].intercalate fs

/-- A number in decimal digits (of any script), with single underscores between digits. -/
inductive DigitText : Str → Nat → Prop
  | digit (c d) : digitValue c = some d → DigitText [c] d
  | next (s n c d) : DigitText s n → digitValue c = some d → DigitText (s ++ [c]) (n * 10 + d)
  | under (s n c d) : DigitText s n → digitValue c = some d → DigitText (s ++ [0x5F, c]) (n * 10 + d)

/-- What `int()` reads as `n`: digits, maybe a sign before them, maybe blanks around. -/
def IntText (s : Str) (n : Int) : Prop :=
  ∃ mid, TrimmedBy isIntSpace s mid ∧ ∃ k : Nat, ∃ ds, DigitText ds k ∧
    ((mid = ds ∧ n = k) ∨ (mid = 0x2B :: ds ∧ n = k) ∨ (mid = 0x2D :: ds ∧ n = -(k : Int)))

/-- The line is UTF-8 and its fields (without blanks around the line) are the given ones. -/
def LineFields (line : Bytes) (fs : List Str) : Prop :=
  ∃ b s, TrimmedBy isByteSpace line b ∧ utf8Encode s = some b ∧ FieldsOf 0x20 s fs

/-- A line of a dictionary: a word and an integer, then perhaps more fields. -/
def DictEntry (line : Bytes) (word : Str) (freq : Int) : Prop :=
  ∃ f rest, LineFields line (word :: f :: rest) ∧ IntText f freq

/-- A line of a dictionary as the POS tokenizer reads it: exactly three fields. -/
def TagEntry (line : Bytes) (word tag : Str) : Prop := ∃ f, LineFields line [word, f, tag]

/-- Nothing but blanks. -/
def Blank (line : Bytes) : Prop := ∀ c ∈ line, isByteSpace c = true

/-! ## user dictionaries -/

/-- A frequency field: a non-empty string of ASCII digits. -/
def IsFreqField (u : Str) : Prop := u ≠ [] ∧ ∀ c ∈ u, isDigit c = true
/-- A tag field: a non-empty string of ASCII lower-case letters. -/
def IsTagField (u : Str) : Prop := u ≠ [] ∧ ∀ c ∈ u, isLower c = true

/-- An optional field with the space before it. -/
def fieldText : Option Str → Str
  | none => []
  | some u => 0x20 :: u

/-- The line can be read as `word`, `word freq`, `word tag` or `word freq tag`. -/
def ReadsAs (line word : Str) (freq tag : Option Str) : Prop :=
  word ≠ [] ∧ (∀ u, freq = some u → IsFreqField u) ∧ (∀ u, tag = some u → IsTagField u) ∧
    line = word ++ fieldText freq ++ fieldText tag

/-- A line of a user dictionary is read so that the word is as short as possible. -/
def UserEntry (line word : Str) (freq tag : Option Str) : Prop :=
  0x0A ∉ line ∧ ReadsAs line word freq tag ∧ ∀ w f g, ReadsAs line w f g → word.length ≤ w.length

/-- The text of a line of a user dictionary: without blanks around it; in a binary file, decoded and then without byte order marks
at the beginning. -/
inductive UserLine : PyText → Str → Prop
  | bytes (b m s n line) : TrimmedBy isByteSpace b m → utf8Encode s = some m → s = List.replicate n 0xFEFF ++ line →
      line.head? ≠ some 0xFEFF → UserLine (.bytes b) line
  | str (s line) : TrimmedBy isSpace s line → UserLine (.str s) line

end Jieba.Spec
