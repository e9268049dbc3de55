import Mathlib.Data.Int.Log
import Mathlib.Data.Rat.Floor
import Verif.Model.Arith
/-!
# Python floats as IEEE 754 doubles

`Arith F` leaves floats abstract.  Here they are concrete: rational numbers, every result rounded to 53 significant bits, to the nearest
one and to even in the middle.  What is left out: overflow, numbers below 2^-1022, NaN, infinities, and the two zeros are one.
`math.log` comes from the C library, which promises nothing; it stays a parameter.
-/

namespace Jieba

/-- The nearest integer, the even one in the middle.
Part of IEEE 754 rounding. The float operations of jieba/__init__.py:172-178, 459-471 and jieba/analyse/textrank.py:24-54. -/
def nearest (q : ℚ) : ℤ :=
  if q - ⌊q⌋ < 1 / 2 then ⌊q⌋ else if 1 / 2 < q - ⌊q⌋ then ⌊q⌋ + 1 else if ⌊q⌋ % 2 = 0 then ⌊q⌋ else ⌊q⌋ + 1

/-- The exponent of the last of the 53 bits.
Part of IEEE 754 rounding. The float operations of jieba/__init__.py:172-178, 459-471 and jieba/analyse/textrank.py:24-54. -/
def ulpExp (q : ℚ) : ℤ := Int.log 2 |q| - 52

/-- `q` rounded to 53 significant bits.
IEEE 754 rounding, with unbounded exponents. The float operations of jieba/__init__.py:172-178, 459-471 and jieba/analyse/textrank.py:24-54. -/
def rnd (q : ℚ) : ℚ := nearest (q / 2 ^ ulpExp q) * 2 ^ ulpExp q

/-- The operations of Python floats. -/
def dblArith (log : Nat → ℚ) : Arith ℚ where
  zero := 0
  add x y := rnd (x + y)
  sub x y := rnd (x - y)
  mul x y := rnd (x * y)
  div x y := rnd (x / y)
  log := log
  ofInt n := rnd n
  trunc x := if 0 ≤ x then ⌊x⌋ else ⌈x⌉

/-- `MIN_FLOAT = -3.14e100`, jieba/finalseg/__init__.py:8. -/
def minFloat : ℚ := rnd (-(314 * 10 ^ 98))

end Jieba
