import Verif.Model.Basic
/-!
# Specification vocabulary: lines and delimiters
-/

namespace Jieba.Spec
open Jieba

/-- The text up to each line end (`\n`, `\r\n` or `\r`), and the rest if it is not empty. -/
def textLines (s : Str) : List Str :=
  go s []
where
  go : Str → Str → List Str
    | [], acc => if acc = [] then [] else [acc]
    | 0x0D :: 0x0A :: s, acc => acc :: go s []
    | c :: s, acc => if c = 0x0A ∨ c = 0x0D then acc :: go s [] else go s (acc ++ [c])

/-- `s.split(d)` for a non-empty `d`: cut out the leftmost occurrence, then go on behind it; `acc` is the current piece. -/
def splitAround (d : Str) (s acc : Str) : List Str :=
  match s with
  | [] => [acc]
  | c :: s => if d.isPrefixOf (c :: s) then acc :: splitAround d (s.drop (d.length - 1)) [] else splitAround d s (acc ++ [c])
termination_by s.length
decreasing_by
  · simp only [List.length_drop, List.length_cons]; omega
  · simp

end Jieba.Spec
