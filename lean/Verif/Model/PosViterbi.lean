import Mathlib.Order.WithBot
import Verif.Model.Regex
import Verif.Model.Arith
/-!
# jieba/posseg/viterbi.py — the HMM of the POS tagger

Scores are finite floats or `float("-inf")`: `WithBot F`, where `F` stands for the finite floats.  Adding finite floats is
assumed not to overflow (the table entries are at least -3.14e100, so that needs more than 10^207 characters).
-/

namespace Jieba.Pos

/-- A state `(position, tag)`, e.g. `('B', 'n')`. jieba/posseg/viterbi.py:18-20. -/
abbrev PState := Ch × Str

/-- Comparison of Python strings. -/
def strLt : Str → Str → Bool
  | [], [] => false
  | [], _ :: _ => true
  | _ :: _, [] => false
  | a :: s, b :: t => decide (a < b) || (decide (a = b) && strLt s t)

/-- Comparison of states (tuples of two strings, the first of length one). Python itself, used at jieba/posseg/viterbi.py:37, 45. -/
def stateLt (a b : PState) : Bool := decide (a.1 < b.1) || (decide (a.1 = b.1) && strLt a.2 b.2)

/-- The tables of the tagger, jieba/posseg/__init__.py:28-41, and `MIN_FLOAT`, jieba/posseg/viterbi.py:3. -/
structure Tables (F : Type _) where
  /-- `char_state_tab_P` -/
  charStates : PyDict Ch (List PState)
  start : PyDict PState F
  trans : PyDict PState (PyDict PState F)
  emit : PyDict PState (PyDict Ch F)
  minFloat : F

/-- `d[k]`; Python itself, used at jieba/posseg/viterbi.py:19, 26, 37, 51. -/
def look {K V : Type _} [DecidableEq K] (d : PyDict K V) (k : K) : Except PyErr V :=
  match d.get? k with
  | some v => .ok v
  | none => .error .keyError

/-- The elements of a set built from `l` (in some order; the iteration order is given separately).
Python itself, used at jieba/posseg/viterbi.py:28, 30. -/
def dedup {α : Type _} [DecidableEq α] : List α → List α
  | [] => []
  | a :: l => if a ∈ l then dedup l else a :: dedup l

variable {F : Type _} [LinearOrder F]

/-- `a + b` where `-inf` may be involved. Python itself, used at jieba/posseg/viterbi.py:19, 37. -/
def padd (A : Arith F) : WithBot F → WithBot F → WithBot F
  | some a, some b => some (A.add a b)
  | _, _ => ⊥

/-- `V[t]` and `mem_path[t]` (they always have the same keys): state ↦ (score, predecessor); `none` is the `''` of
`mem_path[0]`. jieba/posseg/viterbi.py:15-16, 22-23. -/
abbrev Col (F : Type _) := PyDict PState (WithBot F × Option PState)

/-- `states.get(c, all_states)`; jieba/posseg/viterbi.py:18, 31. -/
def statesFor (T : Tables F) (c : Ch) : List PState := (T.charStates.get? c).getD T.trans.keys

/-- jieba/posseg/viterbi.py:18-20: one iteration of the first loop. -/
def initOne (A : Arith F) (T : Tables F) (c : Ch) (d : Col F) (y : PState) : Except PyErr (Col F) := do
  let s ← look T.start y
  let e ← look T.emit y
  return d.set y (padd A (some s) (some ((e.get? c).getD T.minFloat)), none)

/-- jieba/posseg/viterbi.py:18-20: the first loop. -/
def initCol (A : Arith F) (T : Tables F) (c : Ch) : Except PyErr (Col F) :=
  (statesFor T c).foldlM (initOne A T c) []

/-- jieba/posseg/viterbi.py:25-26: `[x for x in mem_path[t-1].keys() if len(trans_p[x]) > 0]`, with `trans_p[x]`. -/
def prevStates (T : Tables F) : List PState → Except PyErr (List (PState × PyDict PState F))
  | [] => .ok []
  | x :: xs => do
    let tx ← look T.trans x
    let r ← prevStates T xs
    return if 0 < tx.length then (x, tx) :: r else r

/-- `max` of tuples `(score, state)`; ValueError if there is none. Python itself, used at jieba/posseg/viterbi.py:37, 45. -/
def maxState : List (WithBot F × PState) → Except PyErr (WithBot F × PState)
  | [] => .error .valueError
  | x :: xs => .ok (pyMax (tupLt stateLt) x xs)

/-- jieba/posseg/viterbi.py:37-38: one element of the generator. -/
def candidate (A : Arith F) (T : Tables F) (V : Col F) (c : Ch) (y : PState) (p : PState × PyDict PState F) :
    Except PyErr (WithBot F × PState) := do
  let v ← look V p.1
  let e ← look T.emit y
  return (padd A (padd A v.1 ((p.2.get? y).elim ⊥ some)) (some ((e.get? c).getD T.minFloat)), p.1)

/-- jieba/posseg/viterbi.py:36-40: the body of `for y in obs_states`. -/
def stepOne (A : Arith F) (T : Tables F) (V : Col F) (c : Ch) (prev : List (PState × PyDict PState F)) (d : Col F) (y : PState) :
    Except PyErr (Col F) := do
  let cands ← prev.mapM (candidate A T V c y)
  let best ← maxState cands
  return d.set y (best.1, some best.2)

/-- jieba/posseg/viterbi.py:28-34: the states over which the loop runs.  `σ` is the iteration order of sets. -/
def obsStates (T : Tables F) (σ : List PState → List PState) (c : Ch) (prev : List (PState × PyDict PState F)) : List PState :=
  let expectNext := dedup (prev.flatMap (fun p => p.2.keys))
  let obs := (dedup (statesFor T c)).filter (fun y => decide (y ∈ expectNext))
  if obs ≠ [] then σ obs
  else if expectNext ≠ [] then σ expectNext
  else T.trans.keys

/-- jieba/posseg/viterbi.py:21-40: one iteration of the loop over `t`. -/
def stepCol (A : Arith F) (T : Tables F) (σ : List PState → List PState) (V : Col F) (c : Ch) : Except PyErr (Col F) := do
  let prev ← prevStates T V.keys
  (obsStates T σ c prev).foldlM (stepOne A T V c prev) []

/-- The columns for the characters after the first, newest first; `σ t` is the iteration order at time `t`. jieba/posseg/viterbi.py:21-40. -/
def columns (A : Arith F) (T : Tables F) (σ : Nat → List PState → List PState) :
    Nat → Str → List (Col F) → Except PyErr (List (Col F))
  | _, [], cols => .ok cols
  | _, _ :: _, [] => .error .indexError
  | t, c :: cs, V :: cols => do
    let V' ← stepCol A T (σ t) V c
    columns A T σ (t + 1) cs (V' :: V :: cols)

/-- jieba/posseg/viterbi.py:47-52: following `mem_path` back; the columns come newest first.  Looking up the `''` in an
earlier column would be a KeyError. -/
def backtrace : List (Col F) → PState → Except PyErr (List PState)
  | [], _ => .ok []
  | V :: cols, st => do
    let v ← look V st
    match cols, v.2 with
    | [], _ => return [st]
    | _ :: _, none => .error .keyError
    | _ :: _, some p => do
      let r ← backtrace cols p
      return r ++ [st]

/-- jieba/posseg/viterbi.py:14-53 `viterbi` -/
def viterbi (A : Arith F) (T : Tables F) (σ : Nat → List PState → List PState) : Str → Except PyErr (WithBot F × List PState)
  | [] => .error .indexError
  | c :: cs => do
    let V0 ← initCol A T c
    let cols ← columns A T σ 1 cs [V0]
    let last := cols.headD []
    let best ← maxState (last.map (fun kv => (kv.2.1, kv.1)))
    let route ← backtrace cols best.2
    return (best.1, route)

end Jieba.Pos
