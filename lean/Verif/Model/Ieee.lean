import Verif.Model.Double
/-!
# Python floats with their range of exponents

As `Model/Double`, but with the smallest exponent of IEEE 754 doubles (below 2^-1022 fewer bits are kept) and with overflow.  What an overflowing
operation returns is an arbitrary function `over` of the exact result.  NaN and the sign of zero are still left out.
-/

namespace Jieba

/-- `q` rounded to a multiple of the unit in the last place, which is at least 2^-1074.
Part of IEEE 754 rounding. The float operations of jieba/__init__.py:172-178, 459-471 and jieba/analyse/textrank.py:24-54. -/
def roundBounded (q : ℚ) : ℚ := nearest (q / 2 ^ max (ulpExp q) (-1074)) * 2 ^ max (ulpExp q) (-1074)

/-- The double nearest to `q`, or `over q` if that would not be below 2^1024.
IEEE 754 rounding. The float operations of jieba/__init__.py:172-178, 459-471 and jieba/analyse/textrank.py:24-54. -/
def rndIeee (over : ℚ → ℚ) (q : ℚ) : ℚ := if |roundBounded q| < 2 ^ 1024 then roundBounded q else over q

/-- The operations of Python floats. -/
def ieeeArith (log : Nat → ℚ) (over : ℚ → ℚ) : Arith ℚ where
  zero := 0
  add x y := rndIeee over (x + y)
  sub x y := rndIeee over (x - y)
  mul x y := rndIeee over (x * y)
  div x y := rndIeee over (x / y)
  log := log
  ofInt n := rndIeee over n
  trunc x := if 0 ≤ x then ⌊x⌋ else ⌈x⌉

end Jieba
