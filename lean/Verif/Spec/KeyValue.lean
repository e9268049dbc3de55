import Verif.Spec.Fields
/-!
# Specification vocabulary: files of pairs
-/

namespace Jieba.Spec
open Jieba

/-- The keys and values of the lines of a file: lines of two fields with a tab between them, other lines do not count.  With `reverse` the value
comes first. -/
inductive KVLines (reverse : Bool) : List Str → List (Str × Str) → Prop
  | nil : KVLines reverse [] []
  | skip (line lines ps mid) (fs : List Str) : TrimmedBy (· == 0x0A) line mid → FieldsOf 0x09 mid fs → fs.length ≠ 2 → KVLines reverse lines ps →
      KVLines reverse (line :: lines) ps
  | pair (line lines ps mid a b) : TrimmedBy (· == 0x0A) line mid → FieldsOf 0x09 mid [a, b] → KVLines reverse lines ps →
      KVLines reverse (line :: lines) ((if reverse then (b, a) else (a, b)) :: ps)

end Jieba.Spec
