import Mathlib.Analysis.SpecialFunctions.Log.Basic
import Verif.Model.Double
/-!
# Numbers that are far from the limits of doubles
-/

namespace Jieba.Spec

/-- An integer times a power of two that is not below 2^-1074, of size at most 2^350.  All doubles of that size are such numbers, the ones
below 2^-1022 too. -/
def ModerateDouble (x : ℚ) : Prop := (∃ m e : ℤ, x = m * 2 ^ e ∧ -1074 ≤ e) ∧ |x| ≤ 2 ^ 350

/-- A logarithm of the C library: doubles, with an error of at most one unit in the last place (2^-52 of the result). -/
structure LibLog (log : Nat → ℚ) : Prop where
  close : ∀ n : ℕ, 1 ≤ n → |((log n : ℚ) : ℝ) - Real.log n| ≤ Real.log n / 2 ^ 52
  double : ∀ n, rnd (log n) = log n

end Jieba.Spec
