import Verif.Model.Lazy
import Verif.Model.Parallel
import Verif.Model.PosWorld
import Mathlib.Data.List.Forall2
/-!
# jieba/__init__.py:518-619 and jieba/posseg/__init__.py:254-304 — the module-level functions with a pool of workers that keep state

`jieba.dt` is tokenizer 0 and `jieba.posseg.dt` is POS tokenizer 0.  A worker process starts with a copy of the process state at
`enable_parallel` and keeps what its tasks do to it (it may initialise a tokenizer or move pending tags); which worker gets which
line, and after which other tasks, is not determined.  As in `Model/Module.lean` the start method is `fork` and workers do not die.
-/

namespace Jieba.Pos
open Jieba

variable {F : Type _} [LinearOrder F]

/-- The process state, the state the workers were forked with, and whether `jieba.cut` and `jieba.cut_for_search` are bound to the
parallel versions. jieba/__init__.py:34, 520, 527, 529 and jieba/posseg/__init__.py:258. -/
structure PModule where
  p : PWorld
  pool : Option PWorld
  parallel : Bool

/-- jieba/__init__.py:590-611 `enable_parallel` on a POSIX system. -/
def enableParallelP (P : PSys F) (m : PModule) (io : Bool) : PModule × Except PyErr Unit :=
  match checkInit P.sys m.p.w 0 io with
  | (w, .error e) => ({ m with p := { m.p with w := w } }, .error e)
  | (w, .ok ()) => (⟨{ m.p with w := w }, some { m.p with w := w }, true⟩, .ok ())

/-- jieba/__init__.py:613-619 `disable_parallel` -/
def disableParallelP (m : PModule) : PModule := ⟨m.p, none, false⟩

/-- Run a generator to its end. Python itself, used at jieba/__init__.py:357, 360 and jieba/posseg/__init__.py:243, 246. -/
def runCo {W α : Type _} (c : Co W α Unit) (w : W) : W × Gen α :=
  match Co.drive (fun _ w => w) c 0 w with
  | (w, l, .ok ()) => (w, ⟨l, none⟩)
  | (w, l, .error e) => (w, ⟨l, some e⟩)

/-- jieba/__init__.py:542-563: `_lcut_all`, `_lcut`, `_lcut_no_hmm` in a worker. -/
def taskCut (P : PSys F) (ca hm io : Bool) (p : PWorld) (part : Str) : PWorld × Gen Str :=
  let r := if ca then cutW P.sys p.w 0 true true (.str part) io
    else if hm then cutW P.sys p.w 0 false true (.str part) io
    else cutW P.sys p.w 0 false false (.str part) io
  ({ p with w := r.1 }, r.2)

/-- jieba/__init__.py:558-563: `_lcut_for_search`, `_lcut_for_search_no_hmm` in a worker. -/
def taskSearch (P : PSys F) (hm io : Bool) (p : PWorld) (part : Str) : PWorld × Gen Str :=
  let r := if hm then runCo (Lazy.cutForSearchL P.sys 0 true (.str part) io) p.w
    else runCo (Lazy.cutForSearchL P.sys 0 false (.str part) io) p.w
  ({ p with w := r.1 }, r.2)

/-- jieba/posseg/__init__.py:263-268: `_lcut_internal`, `_lcut_internal_no_hmm` in a worker. -/
def taskTag (P : PSys F) (hm io : Bool) (p : PWorld) (part : Str) : PWorld × Gen Pair :=
  if hm then cutPW P p 0 true (.str part) io else cutPW P p 0 false (.str part) io

/-- A task that was given to a worker. jieba/__init__.py:542-563 and jieba/posseg/__init__.py:265-270. -/
inductive Task where
  | cut (ca hm io : Bool) (part : Str)
  | search (hm io : Bool) (part : Str)
  | tag (hm io : Bool) (part : Str)

/-- What a task does to the state of the worker. jieba/__init__.py:542-563 and jieba/posseg/__init__.py:265-270. -/
def Task.after (P : PSys F) (p : PWorld) : Task → PWorld
  | .cut ca hm io part => (taskCut P ca hm io p part).1
  | .search hm io part => (taskSearch P hm io p part).1
  | .tag hm io part => (taskTag P hm io p part).1

/-- `p` is a state of a worker that was forked in state `snap`. multiprocessing; jieba/__init__.py:608. -/
def WorkerState (P : PSys F) (snap p : PWorld) : Prop := ∃ ts : List Task, p = ts.foldl (Task.after P) snap

/-- `pool.map(f, parts)`: each part is worked on in some state of a worker; the results in the order of `parts`, or one of the
exceptions. multiprocessing; jieba/__init__.py:569-573, 582-584 and jieba/posseg/__init__.py:299, 301. -/
inductive PoolMapW {σ α β : Type _} (R : σ → Prop) (f : σ → α → Except PyErr β) (parts : List α) : Except PyErr (List β) → Prop
  | ok (rs : List β) : List.Forall₂ (fun part r => ∃ x, R x ∧ f x part = .ok r) parts rs → PoolMapW R f parts (.ok rs)
  | err (part : α) (x : σ) (e : PyErr) : part ∈ parts → R x → f x part = .error e → PoolMapW R f parts (.error e)

/-- A call of `pool.map`; `pool` may be `None`. jieba/__init__.py:569-573, 582-584 and jieba/posseg/__init__.py:299, 301. -/
def mapPool {β : Type _} (P : PSys F) (pool : Option PWorld) (f : PWorld → Str → Except PyErr (List β)) (parts : List Str)
    (g : Gen β) : Prop :=
  match pool with
  | none => g = Gen.raise .attributeError
  | some snap => ∃ r, PoolMapW (WorkerState P snap) f parts r ∧ g = yieldAll r

/-- `jieba.cut` through the global name (jieba/__init__.py:522, 566-576, 610, 618): `g` is a possible outcome. -/
def JCut (P : PSys F) (m : PModule) (ca hm io : Bool) (sentence : PyText) (g : Gen Str) : Prop :=
  if m.parallel then
    mapPool P m.pool (fun p part => (taskCut P ca hm io p part).2.toList) (splitlinesKeep (strdecode P.sys.gbk sentence)) g
  else g = (cutW P.sys m.p.w 0 ca hm sentence io).2

/-- `jieba.cut_for_search` through the global name (jieba/__init__.py:524, 579-587, 611, 619). -/
def JCutForSearch (P : PSys F) (m : PModule) (hm io : Bool) (sentence : PyText) (g : Gen Str) : Prop :=
  if m.parallel then
    mapPool P m.pool (fun p part => (taskSearch P hm io p part).2.toList) (splitlinesKeep (strdecode P.sys.gbk sentence)) g
  else g = (runCo (Lazy.cutForSearchL P.sys 0 hm sentence io) m.p.w).2

/-- `jieba.posseg.cut` (jieba/posseg/__init__.py:292-304): looks at `jieba.pool`, not at the binding of `jieba.cut`. -/
def JPosCut (P : PSys F) (m : PModule) (hm io : Bool) (sentence : PyText) (g : Gen Pair) : Prop :=
  if m.pool.isNone then g = (cutPW P m.p 0 hm sentence io).2
  else mapPool P m.pool (fun p part => (taskTag P hm io p part).2.toList) (splitlinesKeep (strdecode P.sys.gbk sentence)) g

/-- `jieba.lcut` (jieba/__init__.py:523, 356-357): bound to the method of `dt` when the module is imported; `self.cut` is the
method. -/
def jLcut (P : PSys F) (m : PModule) (ca hm io : Bool) (sentence : PyText) : Except PyErr (List Str) :=
  (cutW P.sys m.p.w 0 ca hm sentence io).2.toList

/-- `jieba.lcut_for_search` (jieba/__init__.py:525, 359-360). -/
def jLcutForSearch (P : PSys F) (m : PModule) (hm io : Bool) (sentence : PyText) : Except PyErr (List Str) :=
  (runCo (Lazy.cutForSearchL P.sys 0 hm sentence io) m.p.w).2.toList

/-- What can happen to the modules. jieba/__init__.py:525-539, 590, 613 and jieba/posseg/__init__.py:248, 262. -/
inductive MOp where
  | op (o : POp)
  | enable (io : Bool)
  | disable

/-- The effect of a call (jieba/__init__.py:525-539, 590-619, jieba/posseg/__init__.py:248, 262); the caller catches exceptions. -/
def MOp.run (P : PSys F) (m : PModule) : MOp → PModule
  | .op o => { m with p := o.run P m.p }
  | .enable io => (enableParallelP P m io).1
  | .disable => disableParallelP m

/-- The effect of calls one after another (jieba/__init__.py:525-539, 590-619, jieba/posseg/__init__.py:248, 262). -/
def runMOps (P : PSys F) (m : PModule) (ops : List MOp) : PModule := ops.foldl (MOp.run P) m

end Jieba.Pos
