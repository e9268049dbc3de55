import Verif.Model.Parallel
import Verif.Model.World
/-!
# jieba/__init__.py:518-619 — the module-level functions and switching parallel mode on and off

`dt` is tokenizer 0.  `enable_parallel` forks worker processes: each holds a copy of the whole process state at that time
(the model assumes the `fork` start method and that workers do not die and get replaced).
-/

namespace Jieba

variable {F : Type _} [LinearOrder F]

/-- State of the module: the process state, the state the workers were forked with, and whether the global names `cut` and
`cut_for_search` are bound to the parallel versions. jieba/__init__.py:34, 520, 527, 529. -/
structure Module where
  w : World
  pool : Option World
  parallel : Bool

/-- jieba/__init__.py:590-611 `enable_parallel` on a POSIX system. -/
def enableParallel (S : Sys F) (m : Module) (io : Bool) : Module × Except PyErr Unit :=
  match checkInit S m.w 0 io with
  | (w, .error e) => ({ m with w := w }, .error e)
  | (w, .ok ()) => (⟨w, some w, true⟩, .ok ())

/-- jieba/__init__.py:613-619 `disable_parallel` -/
def disableParallel (m : Module) : Module := ⟨m.w, none, false⟩

/-- jieba/__init__.py:542-563: a worker computes `list(dt.cut(part, …))` with its own copy of `dt`. -/
def workerCutW (S : Sys F) (snap : World) (cutAllFlag hmmFlag io : Bool) (part : Str) : Except PyErr (List Str) :=
  if cutAllFlag then (cutW S snap 0 true true (.str part) io).2.toList
  else if hmmFlag then (cutW S snap 0 false true (.str part) io).2.toList
  else (cutW S snap 0 false false (.str part) io).2.toList

/-- `jieba.cut(sentence, cut_all, HMM)` through the global name: `g` is a possible outcome, in process state `m`.  With
the parallel version bound but no pool, `pool.map` raises AttributeError. jieba/__init__.py:527, 566-576, 609, 618. -/
def ModuleCut (S : Sys F) (m : Module) (cutAllFlag hmmFlag io : Bool) (sentence : PyText) (g : Gen Str) : Prop :=
  if m.parallel then
    match m.pool with
    | none => g = Gen.raise .attributeError
    | some snap => ∃ r, PoolMap (workerCutW S snap cutAllFlag hmmFlag io) (splitlinesKeep (strdecode S.gbk sentence)) r ∧
        g = yieldAll r
  else g = (cutW S m.w 0 cutAllFlag hmmFlag sentence io).2

/-- What can happen to the module. jieba/__init__.py:525-539, 590, 613. -/
inductive ModOp where
  | op (o : Op)
  | enable (io : Bool)
  | disable

/-- The effect of a call (jieba/__init__.py:525-539, 590-619); the caller catches exceptions. -/
def ModOp.run (S : Sys F) (m : Module) : ModOp → Module
  | .op o => { m with w := o.run S m.w }
  | .enable io => (enableParallel S m io).1
  | .disable => disableParallel m

/-- The effect of calls one after another (jieba/__init__.py:525-539, 590-619). -/
def runModOps (S : Sys F) (m : Module) (ops : List ModOp) : Module := ops.foldl (ModOp.run S) m

end Jieba
