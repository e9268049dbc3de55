import Verif.Model.Tokenizer
/-!
# jieba/__init__.py:542-619 — parallel mode

`enable_parallel` forks a pool of worker processes; each worker holds a copy of the module-level tokenizer `dt` as it was
at that time.  Here a worker is the `Env` it was forked with.
-/

namespace Jieba

variable {F : Type _} [LinearOrder F]

/-- `list(gen)`; Python itself, used at jieba/__init__.py:357, 360 and jieba/posseg/__init__.py:243, 246, 253. -/
def Gen.toList {α : Type _} (g : Gen α) : Except PyErr (List α) :=
  match g.err with
  | some e => .error e
  | none => .ok g.out

/-- `pool.map(f, parts)`: the results in the order of `parts`; when calls raise, one of the exceptions (the first one to
come back from a worker, so any of them) is re-raised in the parent.
Python itself, used at jieba/__init__.py:569-573, 582-584 and jieba/posseg/__init__.py:299, 301. -/
inductive PoolMap {α β : Type _} (f : α → Except PyErr β) (parts : List α) : Except PyErr (List β) → Prop
  | ok (rs : List β) : parts.map f = rs.map .ok → PoolMap f parts (.ok rs)
  | err (p : α) (e : PyErr) : p ∈ parts → f p = .error e → PoolMap f parts (.error e)

/-- jieba/__init__.py:574-576: `for r in result: for w in r: yield w`. -/
def yieldAll {α : Type _} : Except PyErr (List (List α)) → Gen α
  | .error e => Gen.raise e
  | .ok rs => Gen.ok rs.flatten

/-- jieba/__init__.py:542-563: what a worker with dictionary `E` computes for one part: `_lcut_all` ignores the HMM flag. -/
def workerCut (E : Env F) (cutAllFlag hmmFlag : Bool) (part : Str) : Except PyErr (List Str) :=
  if cutAllFlag then (cut E true true part).toList
  else if hmmFlag then (cut E false true part).toList
  else (cut E false false part).toList

/-- jieba/__init__.py:566-576 `_pcut`: `g` is a possible outcome. -/
def PCut (E : Env F) (cutAllFlag hmmFlag : Bool) (s : Str) (g : Gen Str) : Prop :=
  ∃ r, PoolMap (workerCut E cutAllFlag hmmFlag) (splitlinesKeep s) r ∧ g = yieldAll r

/-- jieba/__init__.py:579-587 `_pcut_for_search`: `g` is a possible outcome. -/
def PCutForSearch (E : Env F) (hmmFlag : Bool) (s : Str) (g : Gen Str) : Prop :=
  ∃ r, PoolMap (fun part => (cutForSearch E hmmFlag part).toList) (splitlinesKeep s) r ∧ g = yieldAll r

end Jieba
