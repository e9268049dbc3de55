import Mathlib.Data.List.Chain
import Verif.Spec.PosPaths
/-!
# Specification vocabulary: what the tables of the POS tagger know, and the tagged words they allow
-/

namespace Jieba.Spec
open Jieba Jieba.Pos

variable {F : Type _}

/-- There is an emission probability for the character in the state. -/
def HasEmission (T : Tables F) (y : PState) (c : Ch) : Prop := ∃ em, T.emit.get? y = some em ∧ em.has c = true

/-- There is an emission probability for the character in some state. -/
def Knows (T : Tables F) (c : Ch) : Prop := ∃ y, HasEmission T y c

/-- The character has a list of states. -/
def HasList (T : Tables F) (c : Ch) : Prop := (T.charStates.get? c).isSome = true

/-- A state can begin a text. -/
def CanStart (T : Tables F) (y : PState) : Prop := ∃ p, T.start.get? y = some p ∧ p ≠ T.minFloat

/-- A state sequence for `s` that the tables give a probability: it begins with a state that can begin a text, there is a transition
from each state to the next, and each character has an emission probability in its state, which is one of those listed for it. -/
structure PossibleStates (T : Tables F) (s : Str) (ys : List PState) : Prop where
  length : ys.length = s.length
  first : ∀ y, ys.head? = some y → CanStart T y
  follow : ys.IsChain (Edge T)
  known : ∀ q ∈ s.zip ys, HasEmission T q.2 q.1 ∧ StateOf T q.1 q.2

/-- A word with a tag that the tables allow: one character that has the tag as a word; or a first, inner ones and a last one that have
the tag in these positions; or, at the end of a run, the beginning of such a word. -/
inductive PossiblePair (T : Tables F) : Pair → Prop
  | single (c : Ch) (g : Str) : HasEmission T (chS, g) c → PossiblePair T ([c], g)
  | long (b : Ch) (ms : Str) (e : Ch) (g : Str) : HasEmission T (chB, g) b → (∀ m ∈ ms, HasEmission T (chM, g) m) → HasEmission T (chE, g) e →
      PossiblePair T (b :: (ms ++ [e]), g)
  | open (b : Ch) (ms : Str) (g : Str) : HasEmission T (chB, g) b → (∀ m ∈ ms, HasEmission T (chM, g) m) → PossiblePair T (b :: ms, g)

end Jieba.Spec
