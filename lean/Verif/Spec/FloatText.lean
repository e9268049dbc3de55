import Verif.Spec.Fields
import Verif.Model.FloatText
/-!
# Specification: how numbers are written
-/

namespace Jieba.Spec
open Jieba

/-- Digits with a point in, before or after them, or without one: the text and its value.  Digits may be of any script and may have single underscores between them. -/
inductive PointText : Str → ℚ → Prop
  | whole (a n) : DigitText a n → PointText a n
  | ends (a n) : DigitText a n → PointText (a ++ [0x2E]) n
  | starts (b m) : DigitText b m → PointText (0x2E :: b) (m / 10 ^ b.countP isDecimal)
  | inside (a b n m) : DigitText a n → DigitText b m → PointText (a ++ 0x2E :: b) (n + m / 10 ^ b.countP isDecimal)

/-- A sign that may be missing; is it a minus? -/
inductive SignText : Str → Bool → Prop
  | none : SignText [] false
  | plus : SignText [0x2B] false
  | minus : SignText [0x2D] true

/-- A decimal number without sign, perhaps with an exponent. -/
inductive DecimalText : Str → ℚ → Prop
  | plain (a q) : PointText a q → DecimalText a q
  | exp (a q e sg neg b k) : PointText a q → e = 0x65 ∨ e = 0x45 → SignText sg neg → DigitText b k →
      DecimalText (a ++ e :: (sg ++ b)) (q * 10 ^ (if neg then -(k : ℤ) else (k : ℤ)))

/-- The word in any mixture of ASCII capitals and small letters. -/
def AnyCase (t : Str) (w : List Char) : Prop := t.map (fun c => if isUpper c then c + 0x20 else c) = lit w

/-- What `float` reads: a decimal number, `inf`, `infinity` or `nan`, maybe a sign before it, maybe blanks around; numbers are rounded to the nearest double. -/
inductive FloatText (s : Str) : PyFloat → Prop
  | number (sg neg t q) : TrimmedBy isIntSpace s (sg ++ t) → SignText sg neg → DecimalText t q → FloatText s (toDouble (if neg then -q else q))
  | infinite (sg neg t) : TrimmedBy isIntSpace s (sg ++ t) → SignText sg neg → AnyCase t ['i', 'n', 'f'] ∨ AnyCase t ['i', 'n', 'f', 'i', 'n', 'i', 't', 'y'] →
      FloatText s (.inf neg)
  | nan (sg neg t) : TrimmedBy isIntSpace s (sg ++ t) → SignText sg neg → AnyCase t ['n', 'a', 'n'] → FloatText s .nan

/-- The finite doubles: integers of at most 53 bits times powers of two, from 2^-1074 on, below 2^1024. -/
def IsDouble (x : ℚ) : Prop := |x| < 2 ^ 1024 ∧ ∃ m e : ℤ, |m| ≤ 2 ^ 53 ∧ -1074 ≤ e ∧ x = m * 2 ^ e

end Jieba.Spec
