import Verif.Model.Regex
import Verif.Model.Codec
import Mathlib.Tactic.NormNum
/-!
# The character classes that the properties speak about

C03, C10, C11, C15, C25, C27, C44 and C46 speak of Han characters, ASCII letters and digits, word characters and white space.
These theorems say which code points are meant.
-/

namespace Jieba.Props
open Jieba

/-- Han characters: U+4E00 to U+9FD5 (not the extensions outside that block). -/
theorem C03_han_characters (c : Ch) : isHan c = true ↔ '一'.toNat ≤ c ∧ c ≤ '鿕'.toNat := by
  simp [isHan]

/-- ASCII letters and digits. -/
theorem C03_ascii_letters_digits (c : Ch) : isAlnum c = true ↔ ∃ d : Char, d.toNat = c ∧ d.isAlphanum = true := by
  have small : ∀ n : Fin 128, isAlnum n.1 = (Char.ofNat n.1).isAlphanum := by decide +kernel
  have val : ∀ n : Fin 128, (Char.ofNat n.1).toNat = n.1 := by decide +kernel
  constructor
  · intro h
    have hc : c < 128 := by
      simp only [isAlnum, isLower, isUpper, isDigit, Bool.or_eq_true, Bool.and_eq_true, decide_eq_true_eq] at h
      unfold Ch at *; omega
    exact ⟨Char.ofNat c, val ⟨c, hc⟩, by rw [← small ⟨c, hc⟩]; exact h⟩
  · rintro ⟨d, rfl, h⟩
    have hd : d.toNat < 128 := by
      simp only [Char.isAlphanum, Char.isAlpha, Char.isUpper, Char.isLower, Char.isDigit, Bool.or_eq_true, Bool.and_eq_true,
        decide_eq_true_eq, ge_iff_le, UInt32.le_iff_toNat_le] at h
      have h1 : d.val.toNat = d.toNat := rfl
      rw [h1] at h
      norm_num at h
      simp only [show 'A'.toNat = 65 from rfl, show 'Z'.toNat = 90 from rfl, show 'a'.toNat = 97 from rfl,
        show 'z'.toNat = 122 from rfl, show '0'.toNat = 48 from rfl, show '9'.toNat = 57 from rfl] at h
      omega
    have := small ⟨d.toNat, hd⟩
    simp only [Char.ofNat_toNat] at this
    rw [this]; exact h

/-- Word characters of `jieba`. -/
theorem C03_word_characters (c : Ch) :
    isWordCh c = true ↔ isHan c = true ∨ isAlnum c = true ∨ c ∈ lit ['+', '#', '&', '.', '_', '%', '-'] := by
  simp [isWordCh, lit, or_assoc]

/-- Word characters of `jieba.posseg`: without `%` and `-`. -/
theorem C46_word_characters (c : Ch) : isWordChPos c = true ↔ isWordCh c = true ∧ c ∉ lit ['%', '-'] := by
  by_cases h1 : c = 0x25
  · subst h1; decide
  by_cases h2 : c = 0x2D
  · subst h2; decide
  simp [isWordCh, isWordChPos, lit, h1, h2]

/-- White space: 25 code points with the Unicode property and four separators (FS, GS, RS, US) that Python adds. -/
theorem C03_white_space (c : Ch) : isSpace c = true ↔ c ∈
    [0x09, 0x0A, 0x0B, 0x0C, 0x0D, 0x1C, 0x1D, 0x1E, 0x1F, 0x20, 0x85, 0xA0, 0x1680, 0x2000, 0x2001, 0x2002, 0x2003, 0x2004,
      0x2005, 0x2006, 0x2007, 0x2008, 0x2009, 0x200A, 0x2028, 0x2029, 0x202F, 0x205F, 0x3000] := by
  simp only [isSpace, Bool.or_eq_true, Bool.and_eq_true, decide_eq_true_eq, beq_iff_eq, List.mem_cons, List.not_mem_nil, or_false]
  unfold Ch at *; omega

/-- The digits zero of Unicode 14. -/
def decimalZeros : List Char :=
    ['0', '\u0660', '\u06f0', '\u07c0', '\u0966', '\u09e6', '\u0a66', '\u0ae6', '\u0b66', '\u0be6', '\u0c66', '\u0ce6',
     '\u0d66', '\u0de6', '\u0e50', '\u0ed0', '\u0f20', '\u1040', '\u1090', '\u17e0', '\u1810', '\u1946', '\u19d0', '\u1a80',
     '\u1a90', '\u1b50', '\u1bb0', '\u1c40', '\u1c50', '\ua620', '\ua8d0', '\ua900', '\ua9d0', '\ua9f0', '\uaa50', '\uabf0',
     '\uff10', Char.ofNat 0x104a0, Char.ofNat 0x10d30, Char.ofNat 0x11066, Char.ofNat 0x110f0, Char.ofNat 0x11136,
     Char.ofNat 0x111d0, Char.ofNat 0x112f0, Char.ofNat 0x11450, Char.ofNat 0x114d0, Char.ofNat 0x11650, Char.ofNat 0x116c0,
     Char.ofNat 0x11730, Char.ofNat 0x118e0, Char.ofNat 0x11950, Char.ofNat 0x11c50, Char.ofNat 0x11d50, Char.ofNat 0x11da0,
     Char.ofNat 0x16a60, Char.ofNat 0x16ac0, Char.ofNat 0x16b50, Char.ofNat 0x1d7ce, Char.ofNat 0x1d7d8, Char.ofNat 0x1d7e2,
     Char.ofNat 0x1d7ec, Char.ofNat 0x1d7f6, Char.ofNat 0x1e140, Char.ofNat 0x1e2f0, Char.ofNat 0x1e950, Char.ofNat 0x1fbf0]

/-- C23: the digits that `int()` and `\d` know: ten from each zero on. -/
theorem C23_digit_values (c d : Nat) : digitValue c = some d ↔ d < 10 ∧ ∃ z ∈ decimalZeros, c = z.toNat + d := by
  have hlist : ndStarts = decimalZeros.map Char.toNat := by decide +kernel
  have hdis : ndStarts.Pairwise (fun a b => a + 10 ≤ b) := by decide +kernel
  have key : ∀ l : List Nat, l.Pairwise (fun a b => a + 10 ≤ b) →
      ((l.find? (fun b => decide (b ≤ c) && decide (c < b + 10))).map (fun b => c - b) = some d ↔ d < 10 ∧ ∃ z ∈ l, c = z + d) := by
    intro l hl
    induction l with
    | nil => simp
    | cons b l ih =>
      have hb := List.pairwise_cons.mp hl
      by_cases hc : b ≤ c ∧ c < b + 10
      · rw [List.find?_cons_of_pos (by simp [hc])]
        simp only [Option.map_some, Option.some.injEq, List.mem_cons, exists_eq_or_imp]
        constructor
        · intro h; exact ⟨by omega, Or.inl (by omega)⟩
        · rintro ⟨h1, h | ⟨z, hz, h⟩⟩
          · omega
          · have := hb.1 z hz; omega
      · rw [List.find?_cons_of_neg (by simpa using fun h => by omega), ih hb.2]
        simp only [List.mem_cons, exists_eq_or_imp]
        constructor
        · rintro ⟨h1, h⟩; exact ⟨h1, Or.inr h⟩
        · rintro ⟨h1, h | h⟩
          · omega
          · exact ⟨h1, h⟩
  have := key ndStarts hdis
  unfold digitValue
  rw [this, hlist]
  constructor
  · rintro ⟨h1, z, hz, h⟩
    obtain ⟨y, hy, rfl⟩ := List.mem_map.mp hz
    exact ⟨h1, y, hy, h⟩
  · rintro ⟨h1, y, hy, h⟩
    exact ⟨h1, _, List.mem_map.mpr ⟨y, hy, rfl⟩, h⟩

example : digitValue '３'.toNat = some 3 := by decide

/-- C16: the characters that end a line for `str.splitlines()`. -/
theorem C16_line_breaks (c : Ch) : isLineBreak c = true ↔ c ∈ [0x0A, 0x0B, 0x0C, 0x0D, 0x1C, 0x1D, 0x1E, 0x85, 0x2028, 0x2029] := by
  simp only [isLineBreak, Bool.or_eq_true, Bool.and_eq_true, decide_eq_true_eq, beq_iff_eq, List.mem_cons, List.not_mem_nil, or_false]
  unfold Ch at *; omega

/-- C23: the blanks that `bytes.strip()` takes away, and those that `int()` ignores: the white space without FS, GS, RS, US. -/
theorem C23_blanks (c : Ch) : (isByteSpace c = true ↔ c ∈ lit ['\t', '\n', '\x0b', '\x0c', '\r', ' ']) ∧
    (isIntSpace c = true ↔ isSpace c = true ∧ c ∉ [0x1C, 0x1D, 0x1E, 0x1F]) := by
  simp only [isIntSpace, isByteSpace, isSpace, lit, Bool.or_eq_true, Bool.and_eq_true, decide_eq_true_eq, beq_iff_eq, List.mem_cons,
    List.not_mem_nil, or_false, List.map_cons, List.map_nil, show '\t'.toNat = 9 from rfl, show '\n'.toNat = 10 from rfl,
    show '\x0b'.toNat = 11 from rfl, show '\x0c'.toNat = 12 from rfl, show '\r'.toNat = 13 from rfl, show ' '.toNat = 32 from rfl]
  unfold Ch at *; omega

/-- C30: the digits of a frequency and the letters of a tag in a user dictionary. -/
theorem C30_field_characters (c : Ch) : (isDigit c = true ↔ '0'.toNat ≤ c ∧ c ≤ '9'.toNat) ∧ (isLower c = true ↔ 'a'.toNat ≤ c ∧ c ≤ 'z'.toNat) := by
  simp [isDigit, isLower]

end Jieba.Props
