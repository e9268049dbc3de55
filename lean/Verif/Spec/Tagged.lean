import Verif.Model.Basic
/-!
# Specification vocabulary: tagged words along a path
-/

namespace Jieba.Spec
open Jieba

/-- `toks` arises from `path` by tagging each word that is not `single` with `tag`, and turning each maximal run of
consecutive `single` words into pairs allowed by `R`. -/
inductive Tagged (single : Str → Prop) (tag : Str → Str) (R : List Str → List (Str × Str) → Prop) :
    List Str → List (Str × Str) → Prop
  | nil : Tagged single tag R [] []
  | word (w ps ts) : ¬ single w → Tagged single tag R ps ts → Tagged single tag R (w :: ps) ((w, tag w) :: ts)
  | run (r ps qs ts) : r ≠ [] → (∀ w ∈ r, single w) → (∀ w, ps.head? = some w → ¬ single w) → R r qs →
      Tagged single tag R ps ts → Tagged single tag R (r ++ ps) (qs ++ ts)

end Jieba.Spec
