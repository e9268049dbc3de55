import Verif.Model.Basic
/-!
# How Python reads a string literal

The lexical rules for a literal in single or double quotes on one line, with the escapes `\\`, `\'`, `\"`, `\n`, `\r`, `\t`, `\xhh`, `\uhhhh` and
`\Uhhhhhhhh`; anything else after a backslash is not read.
-/

namespace Jieba.Spec
open Jieba

/-- The value of a hexadecimal digit. -/
def hexVal (c : Nat) : Option Nat :=
  if 0x30 ≤ c ∧ c ≤ 0x39 then some (c - 0x30)
  else if 0x61 ≤ c ∧ c ≤ 0x66 then some (c - 0x61 + 10)
  else if 0x41 ≤ c ∧ c ≤ 0x46 then some (c - 0x41 + 10)
  else none

/-- The number written with hexadecimal digits, after the digits that make `n`. -/
def hexNum : Nat → Str → Option Nat
  | n, [] => some n
  | n, c :: t => (hexVal c).bind (fun v => hexNum (16 * n + v) t)

/-- The character that comes next in a literal, and what follows it. -/
def readCh : Str → Option (Nat × Str)
  | [] => none
  | c :: t =>
    if c = 0x0A then none
    else if c ≠ 0x5C then some (c, t)
    else match t with
      | [] => none
      | e :: t =>
        if e = 0x5C ∨ e = 0x27 ∨ e = 0x22 then some (e, t)
        else if e = 0x6E then some (0x0A, t)
        else if e = 0x72 then some (0x0D, t)
        else if e = 0x74 then some (0x09, t)
        else
          let k := if e = 0x78 then 2 else if e = 0x75 then 4 else if e = 0x55 then 8 else 0
          if k = 0 ∨ t.length < k then none
          else (hexNum 0 (t.take k)).map (fun n => (n, t.drop k))

/-- `Reads q t s r`: after the opening quote `q`, the text `t` consists of the characters of `s`, the closing quote and `r`. -/
inductive Reads (q : Nat) : Str → Str → Str → Prop
  | close (r : Str) : Reads q (q :: r) [] r
  | char (c : Nat) (t t' s r : Str) (hq : t.head? ≠ some q) (hc : readCh t = some (c, t')) (h : Reads q t' s r) : Reads q t (c :: s) r

/-- `Literal t s r`: the text `t` begins with a literal of the string `s`, and `r` follows. -/
def Literal (t s r : Str) : Prop := ∃ q u, (q = 0x27 ∨ q = 0x22) ∧ t = q :: u ∧ Reads q u s r

end Jieba.Spec
