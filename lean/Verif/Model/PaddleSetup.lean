import Verif.Model.Module
import Verif.Model.Paddle
import Verif.Model.PosWorld
/-!
# `enable_paddle` and the argument `use_paddle`

The machine decides what the imports give: a module (with or without a `__version__`), ImportError, or another exception.  Log
messages are not modelled.
-/

namespace Jieba.Paddle
open Jieba Jieba.Pos

variable {F : Type _} [LinearOrder F]

/-- The outcome of an `import` statement. jieba/_compat.py:29, 34, 46. -/
inductive Imported (α : Type) where
  | ok (a : α)
  | importError
  | raises (e : PyErr)

/-- '1.6.1'; jieba/_compat.py:39. -/
def minVersion : Str := [0x31, 0x2E, 0x36, 0x2E, 0x31]

/-- jieba/_compat.py:39-51; `version` is `paddle.__version__` (`none`: there is no such attribute), `predict` the outcome of the import
in line 46.  The result: the flag `is_paddle_installed` and the exception. -/
def checkVersion (version : Option Str) (predict : Imported Unit) (installed : Bool) : Bool × Except PyErr Unit :=
  match version with
  | none => (installed, .error .attributeError)
  | some v =>
    if strLt v minVersion then (installed, .ok ())
    else match predict with
      | .ok () => (true, .ok ())
      | .importError => (installed, .ok ())
      | .raises e => (installed, .error e)

/-- jieba/_compat.py:27-51 `enable_paddle`; `second` is the outcome of the import after `pip install`.  If both fail, line 39 uses the
local variable `paddle` that has no value.  The result: was pip called; the flag; the exception. -/
def enablePaddle (first second : Imported (Option Str)) (predict : Imported Unit) (installed : Bool) : Bool × Bool × Except PyErr Unit :=
  match first with
  | .ok v => (false, checkVersion v predict installed)
  | .raises e => (false, installed, .error e)
  | .importError =>
    match second with
    | .ok v => (true, checkVersion v predict installed)
    | .raises e => (true, installed, .error e)
    | .importError => (true, installed, .error .unboundLocal)

/-- jieba/__init__.py:289-336 `cut` with the argument `use_paddle`; `installed` is the flag. -/
def cutTop (S : Sys F) (D : Dataset) (net : List Int → Except PyErr (List Int)) (installed : Bool) (w : World) (t : Nat)
    (cutAllFlag hmmFlag usePaddle : Bool) (sentence : PyText) (io : Bool) : World × Gen Str :=
  if usePaddle && installed then (w, Paddle.cut D net S.gbk sentence)
  else cutW S w t cutAllFlag hmmFlag sentence io

/-- `jieba.cut(sentence, cut_all, HMM)` or, with `usePaddle = some b`, `jieba.cut(sentence, cut_all, HMM, use_paddle=b)`, through the
global name (jieba/__init__.py:525, 566, 609, 618): `_pcut` has no parameter `use_paddle`. -/
def ModuleCutTop (S : Sys F) (D : Dataset) (net : List Int → Except PyErr (List Int)) (installed : Bool) (m : Module)
    (cutAllFlag hmmFlag : Bool) (usePaddle : Option Bool) (io : Bool) (sentence : PyText) (g : Gen Str) : Prop :=
  match usePaddle with
  | none => ModuleCut S m cutAllFlag hmmFlag io sentence g
  | some b =>
    if m.parallel then g = Gen.raise .typeError
    else g = (cutTop S D net installed m.w 0 cutAllFlag hmmFlag b sentence io).2

/-- jieba/posseg/__init__.py:273-295 `posseg.cut` with the argument `use_paddle`, without parallel mode; `dt` is POS tokenizer 0. -/
def posCutTop (P : PSys F) (D : Dataset) (net : List Int → Except PyErr (List Int)) (installed : Bool) (p : PWorld)
    (hmmFlag usePaddle : Bool) (sentence : PyText) (io : Bool) : PWorld × Gen Pair :=
  if usePaddle && installed then (p, posCut D net P.sys.gbk sentence)
  else cutPW P p 0 hmmFlag sentence io

/-- jieba/posseg/__init__.py:307-310 `posseg.lcut`: with `use_paddle` the argument `HMM` is not passed on. -/
def posLcutTop (P : PSys F) (D : Dataset) (net : List Int → Except PyErr (List Int)) (installed : Bool) (p : PWorld)
    (hmmFlag usePaddle : Bool) (sentence : PyText) (io : Bool) : PWorld × Except PyErr (List Pair) :=
  if usePaddle then
    let r := posCutTop P D net installed p true true sentence io
    (r.1, r.2.toList)
  else
    let r := posCutTop P D net installed p hmmFlag false sentence io
    (r.1, r.2.toList)

end Jieba.Paddle
