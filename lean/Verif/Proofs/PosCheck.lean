import Verif.Data.PosTables
import Verif.Proofs.PosTotal
/-!
# Finite checks over the shipped tables of the POS tagger

The finite checks over the generated tables are done by kernel computation.
-/

namespace Jieba.PosData
open Jieba Jieba.Pos Jieba.Spec

/-- Bit `i`: state number `i` can be left. -/
def liveMask : Nat := 83847445550617120487627507777538043071035871994779290417714685498455563425243

def row (i : Nat) : List Nat := unpack (trans.getD i 1)

/-- All digits are states that can be left. -/
def allLive : Nat → Nat → Bool
  | 0, _ => true
  | fuel + 1, n => match n with
    | 0 => true
    | 1 => true
    | m + 2 => match Nat.testBit liveMask ((m + 2) % 256) with
      | true => allLive fuel ((m + 2) / 256)
      | false => false

theorem allLive_spec (fuel n : Nat) (h : allLive fuel n = true) :
    ∀ j ∈ unpackGo fuel n, j < 256 ∧ liveMask.testBit j = true := by
  induction fuel generalizing n with
  | zero => simp [unpackGo]
  | succ fuel ih =>
    match n, h with
    | 0, _ => simp [unpackGo]
    | 1, _ => simp [unpackGo]
    | m + 2, h =>
      simp only [allLive] at h
      simp only [unpackGo]
      split at h
      · next ht =>
        intro j hj
        rcases List.mem_cons.mp hj with rfl | hj
        · exact ⟨Nat.mod_lt _ (by decide), ht⟩
        · exact ih _ h j hj
      · cases h

theorem states_chain : states.IsChain (fun a b => stateLt a b = true) := by decide +kernel

theorem states_length : states.length = 256 := by decide +kernel

theorem trans_length : trans.length = 256 := by decide +kernel

theorem live_check : (List.range 256).all (fun i => liveMask.testBit i == !(row i).isEmpty) = true := by decide +kernel

theorem row_check : trans.all (allLive 300) = true := by decide +kernel

theorem follow_check : (List.range 256).all (fun i => (row i).all (fun j =>
    mayFollowPos (stateAt i).1 (stateAt j).1 &&
      (!((stateAt i).1 == chB || (stateAt i).1 == chM) || (stateAt i).2 == (stateAt j).2))) = true := by
  decide +kernel

theorem chars_check : chars.all (fun n => (!Nat.ble (n / 65536) 1) && allLive 300 (n / 65536)) = true := by
  decide +kernel

end Jieba.PosData
