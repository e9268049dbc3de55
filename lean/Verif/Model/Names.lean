import Verif.Model.Module
import Verif.Model.Lookup
/-!
# jieba/__init__.py:518-619 — the global names of the module when `jieba.dt` is assigned to

`Model/Module` has `dt` fixed.  Here a program may bind the name to another tokenizer: `jieba.dt = t`.
-/

namespace Jieba

variable {F : Type _} [LinearOrder F]

/-- What the global names `cut` and `cut_for_search` are bound to (always at the same places): the methods of a tokenizer, or the parallel functions.
jieba/__init__.py:527, 529, 609-610, 618-619. -/
inductive Bound where
  | method (t : Nat)
  | parallel
  deriving DecidableEq

/-- State of the module: the process state, the global name `dt`, what `cut` is bound to, and the state in which the workers were forked with the `dt` of
that time.  jieba/__init__.py:34, 520, 527, 529. -/
structure Names where
  w : World
  dt : Nat
  cut : Bound
  pool : Option (World × Nat)

/-- After `import jieba`: jieba/__init__.py:518-539. -/
def Names.start (w : World) : Names := ⟨w, 0, .method 0, none⟩

/-- What can happen: calls on tokenizers and changes of files, `jieba.dt = t`, `enable_parallel`, `disable_parallel`. jieba/__init__.py:520, 590, 613. -/
inductive NameOp where
  | op (o : Op)
  | bind (t : Nat)
  | enable (io : Bool)
  | disable

/-- The effect of one of them (jieba/__init__.py:590-619); the caller catches exceptions. -/
def NameOp.run (S : Sys F) (n : Names) : NameOp → Names
  | .op o => { n with w := o.run S n.w }
  | .bind t => { n with dt := t }
  | .enable io => match checkInit S n.w n.dt io with
    | (w, .error _) => { n with w := w }
    | (w, .ok ()) => ⟨w, n.dt, .parallel, some (w, n.dt)⟩
  | .disable => ⟨n.w, n.dt, .method n.dt, none⟩

/-- One after another (jieba/__init__.py:590-619). -/
def runNames (S : Sys F) (n : Names) (ops : List NameOp) : Names := ops.foldl (NameOp.run S) n

/-- jieba/__init__.py:542-563: a worker uses the `dt` of its own process. -/
def workerCutN (S : Sys F) (snap : World) (t : Nat) (cutAllFlag hmmFlag io : Bool) (part : Str) : Except PyErr (List Str) :=
  if cutAllFlag then (cutW S snap t true true (.str part) io).2.toList
  else if hmmFlag then (cutW S snap t false true (.str part) io).2.toList
  else (cutW S snap t false false (.str part) io).2.toList

/-- `jieba.cut(sentence, cut_all, HMM)` through the global name: `g` is a possible outcome. jieba/__init__.py:527, 566-576, 609, 618. -/
def NamesCut (S : Sys F) (n : Names) (cutAllFlag hmmFlag io : Bool) (sentence : PyText) (g : Gen Str) : Prop :=
  match n.cut with
  | .method t => g = (cutW S n.w t cutAllFlag hmmFlag sentence io).2
  | .parallel => match n.pool with
    | none => g = Gen.raise .attributeError
    | some (snap, t) => ∃ r, PoolMap (workerCutN S snap t cutAllFlag hmmFlag io) (splitlinesKeep (strdecode S.gbk sentence)) r ∧ g = yieldAll r

/-- `jieba.lcut`, bound once and for all: jieba/__init__.py:528. -/
def namesLcut (S : Sys F) (n : Names) (cutAllFlag hmmFlag io : Bool) (sentence : PyText) : Except PyErr (List Str) :=
  (cutW S n.w 0 cutAllFlag hmmFlag sentence io).2.toList

/-- `jieba.add_word`, bound once and for all: jieba/__init__.py:525. -/
def namesAddWord (S : Sys F) (n : Names) (word : PyText) (freq : FreqArg) (tag : Option Str) (io : Bool) : Names × Except PyErr Unit :=
  ({ n with w := (addWord S n.w 0 word freq tag io).1 }, (addWord S n.w 0 word freq tag io).2)

/-- `jieba.get_FREQ` looks the name `dt` up at each call: jieba/__init__.py:524. -/
def namesGetFREQ (n : Names) (k : Str) (d : Option Int) : Option Int := getFREQ n.w n.dt k d

end Jieba
