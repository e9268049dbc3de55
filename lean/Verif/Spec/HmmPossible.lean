import Verif.Spec.HmmWords
/-!
# Specification vocabulary: taggings that the tables of the HMM allow
-/

namespace Jieba.Spec
open Jieba Jieba.FinalSeg

variable {F : Type _}

/-- A tagging of `s` that the tables give a probability: it begins with a word, every tag may follow the one before it, the last word is complete,
and each character occurs with its tag in the table of emission probabilities. -/
structure PossibleTags (T : Tables F) (s : Str) (tags : List St) : Prop where
  length : tags.length = s.length
  valid : ValidTags tags
  first : ∀ t, tags.head? = some t → t = .B ∨ t = .S
  known : ∀ q ∈ s.zip tags, (T.emit q.2 q.1).isSome = true

/-- A word that the tables allow: one character that may be a word, or a first, inner ones and a last one. -/
inductive PossibleWord (T : Tables F) : Str → Prop
  | single (c : Ch) : (T.emit .S c).isSome = true → PossibleWord T [c]
  | long (b : Ch) (ms : Str) (e : Ch) : (T.emit .B b).isSome = true → (∀ m ∈ ms, (T.emit .M m).isSome = true) → (T.emit .E e).isSome = true →
      PossibleWord T (b :: (ms ++ [e]))

end Jieba.Spec
