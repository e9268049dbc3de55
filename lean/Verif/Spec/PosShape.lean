import Verif.Model.Double
import Verif.Spec.PosTables
/-!
# Specification vocabulary: tables of the POS tagger with probabilities of ordinary size, and tables that differ only in these
-/

namespace Jieba.Spec
open Jieba Jieba.Pos

/-- Tables whose values are of ordinary size, apart from the -3.14e100 that stands for "no start" (in the shipped tables all others
are between -16 and 0). -/
structure PosModerate (T : Tables ℚ) : Prop where
  min : T.minFloat = minFloat
  start : ∀ y p, T.start.get? y = some p → p = minFloat ∨ |p| ≤ 2 ^ 100
  trans : ∀ x tx y p, T.trans.get? x = some tx → tx.get? y = some p → |p| ≤ 2 ^ 100
  emit : ∀ y em c e, T.emit.get? y = some em → em.get? c = some e → |e| ≤ 2 ^ 100

/-- No state has an emission probability for the character. -/
def NoEmission (T : Tables ℚ) (c : Ch) : Prop := ∀ y em, T.emit.get? y = some em → em.get? c = none

/-- The tables do not mention the character. -/
def Strange (T : Tables ℚ) (c : Ch) : Prop := NoEmission T c ∧ T.charStates.get? c = none

/-- 'x' and 'zg' in turn, with a 'y' in front if the number of characters is odd; 'yg' for one character. -/
def turns : Nat → List Str
  | 0 => []
  | 1 => [lit ['y', 'g']]
  | 2 => [lit ['x'], lit ['z', 'g']]
  | 3 => [lit ['y'], lit ['x'], lit ['z', 'g']]
  | n + 4 => turns (n + 2) ++ [lit ['x'], lit ['z', 'g']]

/-- The same states, transitions, lists of states, and entries; the probabilities may be different. -/
structure SameShape (T T' : Tables ℚ) : Prop where
  chars : T.charStates = T'.charStates
  states : ∀ x, T.trans.has x = T'.trans.has x
  edges : ∀ x y, Edge T x y ↔ Edge T' x y
  start : ∀ y p p', T.start.get? y = some p → T'.start.get? y = some p' → (p = minFloat ↔ p' = minFloat)
  emit : ∀ y em em' c, T.emit.get? y = some em → T'.emit.get? y = some em' → em.has c = em'.has c

end Jieba.Spec
