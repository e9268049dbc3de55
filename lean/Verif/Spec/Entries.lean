import Verif.Spec.Dictionary
/-!
# Specification vocabulary: lists of dictionary entries
-/

namespace Jieba.Spec
open Jieba

/-- The frequency on the last entry for `v`, if there is one. -/
def lastFreq (es : List (Str × Int)) (v : Str) : Option Int :=
  (es.reverse.find? (fun e => e.1 == v)).map Prod.snd

/-- `v` is a non-empty beginning of some entry. -/
def StartsEntry (es : List (Str × Int)) (v : Str) : Prop := v ≠ [] ∧ ∃ e ∈ es, v <+: e.1

instance (es : List (Str × Int)) (v : Str) : Decidable (StartsEntry es v) := by
  unfold StartsEntry; infer_instance

/-- Lookup in a table `d` after the entries `es` have been put into it one after the other: the last entry for a word
wins, then the old value; prefixes of entries get 0. -/
def lookupAfter (d : Freq) (es : List (Str × Int)) (v : Str) : Option Int :=
  match lastFreq es v with
  | some f => some f
  | none => match d.get? v with
    | some x => some x
    | none => if StartsEntry es v then some 0 else none

end Jieba.Spec
