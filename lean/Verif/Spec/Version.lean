import Verif.Model.Basic
/-!
# Version numbers as text
-/

namespace Jieba.Spec

/-- The number that a list of ASCII digits stands for. -/
def decimalValue (s : List Nat) : Nat := s.foldl (fun n c => n * 10 + (c - 0x30)) 0

/-- `s` is the usual decimal notation of `n`: ASCII digits, no leading zero. -/
def Numeral (s : List Nat) (n : Nat) : Prop :=
  s ≠ [] ∧ (∀ c ∈ s, 0x30 ≤ c ∧ c ≤ 0x39) ∧ (s.head? = some 0x30 → s = [0x30]) ∧ decimalValue s = n

/-- `v` is the text of version `a.b.c`, maybe followed by something that does not begin with a digit, like `.post97` or `rc0`. -/
def VersionText (v : List Nat) (a b c : Nat) : Prop :=
  ∃ sa sb sc rest, Numeral sa a ∧ Numeral sb b ∧ Numeral sc c ∧ (∀ x ∈ rest.head?, ¬ (0x30 ≤ x ∧ x ≤ 0x39)) ∧
    v = sa ++ 0x2E :: (sb ++ 0x2E :: (sc ++ rest))

/-- Version `a.b.c` is at least `x.y.z`. -/
def VersionLe (x y z a b c : Nat) : Prop := x < a ∨ (x = a ∧ (y < b ∨ (y = b ∧ z ≤ c)))

/-- The first digit of `n`. -/
def firstDigit (n : Nat) : Nat := if n < 10 then n else firstDigit (n / 10)

end Jieba.Spec
