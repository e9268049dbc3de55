import Verif.Data.PosTables
import Verif.Model.Double
/-!
# Which states can begin a text, by jieba/posseg/prob_start.py

Generated from jieba/posseg/prob_start.py: bit `i` is set if the value of the `i`-th state is not -3.14e100.
-/

namespace Jieba.PosData
open Jieba Jieba.Pos

def startMask : Nat := 0x395ff0ce8eca76df0000000000000000000000000000000053b02f4ffb52d5db

/-- The start probabilities are -3.14e100 where they are in the shipped file. -/
def ShippedStart (T : Tables ℚ) : Prop :=
  ∀ i, i < 256 → ∀ p, T.start.get? (stateAt i) = some p → (p = minFloat ↔ startMask.testBit i = false)

end Jieba.PosData
