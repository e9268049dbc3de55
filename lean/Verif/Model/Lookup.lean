import Verif.Model.World
/-!
# jieba/__init__.py — `get_FREQ`, `get_DAG` and `calc` called from outside

The tokenizer of the functions of the module is `dt`; the index of the tokenizer is an argument here.
-/

namespace Jieba

variable {F : Type _} [LinearOrder F]

/-- jieba/__init__.py:524 `get_FREQ(k, d)`; there is no `check_initialized()`. -/
def getFREQ (w : World) (t : Nat) (k : Str) (d : Option Int) : Option Int :=
  match (w.tok t).freq.get? k with
  | some f => some f
  | none => d

/-- jieba/__init__.py:180-196 `get_DAG` with its `check_initialized()`. -/
def getDAGW (S : Sys F) (w : World) (t : Nat) (s : Str) (io : Bool) : Res (List (List Nat)) :=
  match checkInit S w t io with
  | (w, .error e) => (w, .error e)
  | (w, .ok ()) => (w, .ok (getDAG (w.tok t).freq s))

/-- jieba/__init__.py:172-178 `calc(sentence, DAG, route)` with an empty `route`, which is returned here; there is no `check_initialized()`.
The graph is any list of lists of ends: `DAG[k]` for the keys `0`, `1`, … up to the length of the list (ends are not negative). -/
def calcW (S : Sys F) (w : World) (t : Nat) (s : Str) (dag : List (List Nat)) : Except PyErr (List (F × Nat)) :=
  calcRoute S.A (w.tok t).freq (w.tok t).total s dag

end Jieba
