import Mathlib.Data.List.SplitBy
import Verif.Spec.Text
/-!
# Words of a labelled text
-/

namespace Jieba.Spec

/-- After a character labelled `a`, a character labelled `b` is the first of a word: `b` is `…-B`, or `b` is `O` and `a` is not. -/
def FirstOfWord (a b : Str) : Prop := [0x2D, 0x42] <:+ b ∨ (b = [0x4F] ∧ a ≠ [0x4F])

instance (a b : Str) : Decidable (FirstOfWord a b) := by unfold FirstOfWord; infer_instance

/-- The labelled characters, grouped by word. -/
def labelledWords (l : List (Str × Str)) : List (List (Str × Str)) := l.splitBy (fun p q => !decide (FirstOfWord p.2 q.2))

/-- The text of a group. -/
def textOf (g : List (Str × Str)) : Str := (g.map Prod.fst).flatten

/-- The label of the first character of a group up to the first `-`. -/
def labelOf : List (Str × Str) → Str
  | [] => []
  | p :: _ => p.2.takeWhile (· ≠ 0x2D)

end Jieba.Spec
