import Mathlib.Algebra.Order.Field.Basic
import Verif.Model.Arith
/-!
# Exact arithmetic

Where a property is about numbers rather than about an order, floats are replaced by an ordered field (ℚ, ℝ).  Nothing is
assumed about `log` and `trunc`.
-/

namespace Jieba.Spec
open Jieba

structure Exact {F : Type _} [Field F] [LinearOrder F] [IsStrictOrderedRing F] (A : Arith F) : Prop where
  zero : A.zero = 0
  add : ∀ x y, A.add x y = x + y
  sub : ∀ x y, A.sub x y = x - y
  mul : ∀ x y, A.mul x y = x * y
  div : ∀ x y, A.div x y = x / y
  ofInt : ∀ n : Int, A.ofInt n = n

end Jieba.Spec
