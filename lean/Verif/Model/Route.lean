import Verif.Model.Lookup
/-!
# jieba/__init__.py:172-178 — `calc` as a method of its own: any graph, any `route`

`DAG` and `route` are dicts with int keys that the caller hands in; `calc` returns nothing and fills `route`, also if it raises.
-/

namespace Jieba

variable {F : Type _} [LinearOrder F]

/-- Python's `s[i:j]` for `i >= 0` and any `j`; used at jieba/__init__.py:177. -/
def sliceInt (s : Str) (i : Nat) (j : Int) : Str :=
  slice s i (if 0 ≤ j then j.toNat else ((s.length : Int) + j).toNat)

/-- jieba/__init__.py:177-178: one tuple of the generator inside `max`. -/
def edgeScoreD (A : Arith F) (freq : Freq) (logtotal : F) (s : Str) (route : PyDict Int (F × Int)) (idx : Nat) (x : Int) :
    Except PyErr (F × Int) := do
  let lf ← A.pylog (freqOr1 freq (sliceInt s idx (x + 1)))
  match PyDict.get? route (x + 1) with
  | none => .error .keyError
  | some r => .ok (A.add (A.sub lf logtotal) r.1, x)

/-- `max(<generator>)` on tuples `(float, int)`, jieba/__init__.py:177. -/
def maxTupD : List (F × Int) → Except PyErr (F × Int)
  | [] => .error .valueError
  | x :: xs => .ok (pyMax (tupLt (fun a b => decide (a < b))) x xs)

/-- jieba/__init__.py:176-178: the loop; `n` positions are still to do, `idx = n - 1`. -/
def calcLoopD (A : Arith F) (freq : Freq) (logtotal : F) (s : Str) (dag : PyDict Int (List Int)) :
    Nat → PyDict Int (F × Int) → PyDict Int (F × Int) × Except PyErr Unit
  | 0, route => (route, .ok ())
  | idx + 1, route =>
    match PyDict.get? dag (idx : Int) with
    | none => (route, .error .keyError)
    | some L =>
      match L.mapM (edgeScoreD A freq logtotal s route idx) with
      | .error e => (route, .error e)
      | .ok cands =>
        match maxTupD cands with
        | .error e => (route, .error e)
        | .ok best => calcLoopD A freq logtotal s dag idx (PyDict.set route (idx : Int) best)

/-- jieba/__init__.py:172-178 `calc(sentence, DAG, route)`: `route` afterwards, and the exception if one is raised. -/
def calcD (S : Sys F) (w : World) (t : Nat) (s : Str) (dag : PyDict Int (List Int)) (route : PyDict Int (F × Int)) :
    PyDict Int (F × Int) × Except PyErr Unit :=
  let route := PyDict.set route (s.length : Int) (S.A.zero, 0)
  match S.A.pylog (w.tok t).total with
  | .error e => (route, .error e)
  | .ok logtotal => calcLoopD S.A (w.tok t).freq logtotal s dag s.length route

end Jieba
