import Mathlib.Order.Defs.LinearOrder
import Verif.Model.Basic
/-!
# Floating point, abstractly

Python floats are modelled by an arbitrary linearly ordered type `F` with uninterpreted operations.
NaN is excluded (the modelled code never produces one from finite inputs); `-0.0` and `0.0` are identified.
-/

namespace Jieba

/-- The float operations used by the modelled code.
Used in jieba/__init__.py:172-178, 459-471, jieba/finalseg/__init__.py:37-56, jieba/posseg/viterbi.py:14-53, jieba/analyse/tfidf.py:103-107, jieba/analyse/textrank.py:24-54. -/
structure Arith (F : Type _) where
  /-- the number 0 (`route[N] = (0, 0)`, jieba/__init__.py:174) -/
  zero : F
  add : F → F → F
  sub : F → F → F
  mul : F → F → F
  div : F → F → F
  /-- `math.log` of a positive integer -/
  log : Nat → F
  /-- `float(n)` (overflow for astronomically large integers is not modelled) -/
  ofInt : Int → F
  /-- `int(x)` -/
  trunc : F → Int

/-- `math.log(n)`: ValueError (math domain error) unless `n > 0`. Python itself, used at jieba/__init__.py:175, 177. -/
def Arith.pylog {F : Type _} (A : Arith F) (n : Int) : Except PyErr F :=
  if 0 < n then .ok (A.log n.toNat) else .error .valueError

/-- Comparison of Python tuples `(float, key)`. -/
def tupLt {F K : Type _} [LinearOrder F] (ltK : K → K → Bool) (a b : F × K) : Bool :=
  decide (a.1 < b.1) || (decide (a.1 = b.1) && ltK a.2 b.2)

end Jieba
