import Verif.Spec.PosPaths
/-!
# Specification: where the tag of a word comes from
-/

namespace Jieba.Spec
open Jieba Jieba.Pos

/-- `y` occurs as a state in the tables: as a state with transitions, of a character, or as the target of a transition. -/
def IsState {F : Type _} (T : Tables F) (y : PState) : Prop :=
  T.trans.has y = true ∨ (∃ c l, T.charStates.get? c = some l ∧ y ∈ l) ∨ ∃ x row, T.trans.get? x = some row ∧ PyDict.has row y = true

/-- Where the tag of a word comes from. -/
inductive TagFrom {F : Type _} (E : PEnv F) (hmm : Bool) : Pair → Prop
  /-- the table of tags -/
  | table (w g) : E.tab.get? w = some g → TagFrom E hmm (w, g)
  /-- a word without tag -/
  | unknown (w) : E.tab.get? w = none → TagFrom E hmm (w, lit ['x'])
  /-- text that begins with neither digit, period nor letter -/
  | other (c w) : ¬ IsNumCh c → ¬ IsAlnumCh c → TagFrom E hmm (c :: w, lit ['x'])
  /-- a number -/
  | number (c w) : IsNumCh c → TagFrom E hmm (c :: w, lit ['m'])
  /-- foreign text -/
  | foreign (c w) : IsAlnumCh c → TagFrom E hmm (c :: w, lit ['e', 'n', 'g'])
  /-- a state of the HMM -/
  | state (w y) : hmm = true → (∀ c ∈ w, isHan c = true) → IsState E.tables y → TagFrom E hmm (w, y.2)

end Jieba.Spec
