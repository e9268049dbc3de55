import Verif.Model.Posseg
/-!
# Specification vocabulary: tables and state sequences of the POS tagger
-/

namespace Jieba.Spec
open Jieba Jieba.Pos

variable {F : Type _}

/-- The table has a transition from `x` to `y`. -/
def Edge (T : Tables F) (x y : PState) : Prop := ∃ tx, T.trans.get? x = some tx ∧ tx.has y = true

/-- There is a transition out of `x`. -/
def Live (T : Tables F) (x : PState) : Prop := ∃ tx, T.trans.get? x = some tx ∧ tx ≠ []

/-- What makes the Viterbi algorithm work on every text. -/
structure TablesOK (T : Tables F) : Prop where
  /-- a dict has no duplicate keys -/
  nodup : (PyDict.keys T.trans).Nodup
  /-- every state has a start and an emission entry -/
  rows : ∀ y, T.trans.has y = true → T.start.has y = true ∧ T.emit.has y = true
  /-- the states listed for a character exist, and one of them can be left -/
  chars : ∀ c l, T.charStates.get? c = some l → (∀ y ∈ l, T.trans.has y = true) ∧ ∃ y ∈ l, Live T y
  /-- transitions lead to states that can be left -/
  next : ∀ x y, Edge T x y → Live T y
  /-- some state can be left -/
  some : ∃ y, Live T y

/-- Which position may follow which: words go on after B and M, and end with E or S. -/
def mayFollowPos (a b : Ch) : Bool :=
  if a = chB || a = chM then b = chM || b = chE
  else if a = chE || a = chS then b = chB || b = chS
  else false

/-- All states have a position in 'BMES', and transitions respect the positions and keep the tag inside a word. -/
structure TransBMES (T : Tables F) : Prop where
  follow : ∀ x y, Edge T x y → mayFollowPos x.1 y.1 = true
  tag : ∀ x y, Edge T x y → (x.1 = chB ∨ x.1 = chM) → x.2 = y.2

end Jieba.Spec
