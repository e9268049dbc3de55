import Verif.Model.Basic
/-!
# Specification vocabulary: tokens of a text
-/

namespace Jieba.Spec
open Jieba

/-- `ws` is a segmentation of `s`: the tokens are non-empty and join to `s`. -/
def IsSegmentation (ws : List Str) (s : Str) : Prop := ws.flatten = s ∧ ∀ w ∈ ws, w ≠ []

/-- A (possibly failing) token generator loses nothing: no empty token, what has been yielded joins to a prefix of the
text, and to the whole text if there was no exception. -/
structure Lossless (g : Gen Str) (s : Str) : Prop where
  nonempty : ∀ w ∈ g.out, w ≠ []
  isPrefix : g.out.flatten <+: s
  complete : g.err = none → g.out.flatten = s

/-- Character by character, except that CR LF stays together. -/
def charTokens : Str → List Str
  | 0x0D :: 0x0A :: s => [0x0D, 0x0A] :: charTokens s
  | c :: s => [c] :: charTokens s
  | [] => []

/-- Cutting between `a` and `b` separates neither two word characters (`p`) nor a CR LF pair. -/
def CleanBoundary (p : Ch → Bool) (a b : Str) : Prop :=
  ∀ x y, a.getLast? = some x → b.head? = some y → ¬ (p x = true ∧ p y = true) ∧ ¬ (x = 0x0D ∧ y = 0x0A)

end Jieba.Spec
