import Verif.Model.Calls
import Verif.Model.PosLazy
/-!
# jieba/__init__.py and jieba/posseg/__init__.py — segmenting, tagging and changing the dictionary at the same time

As `Model/Calls`, with calls of `cut` of `POSTokenizer` objects in addition.  The simplifications are those of `Model/Calls` and
`Model/PosLazy`.
-/

namespace Jieba
open Co

/-- The generator with `f` of each value. Not part of the code. -/
def Co.mapOut {W α α' β : Type} (f : α → α') : Co W α β → Co W α' β
  | .ret b => .ret b
  | .raise e => .raise e
  | .yield a k => .yield (f a) (k.mapOut f)
  | .act g k => .act g (fun w => (k w).mapOut f)

namespace Pos.Steps
open Lazy

variable {F : Type} [LinearOrder F]

/-- A call of a method of the tokenizer, or of `cut` of POS tokenizer `k`.
jieba/__init__.py:289, 338, 380, 418, 439, 445, 476 and jieba/posseg/__init__.py:248. -/
inductive PCall where
  | tok (c : Call)
  | tag (k : Nat) (hmmFlag : Bool) (sentence : PyText)

/-- What is yielded: a word, or a word with its tag. jieba/__init__.py:289-354 and jieba/posseg/__init__.py:248-250. -/
abbrev Yield := Str × Option Str

/-- What the call does. jieba/__init__.py:289-507 and jieba/posseg/__init__.py:112-116, 248-250. -/
def PCall.prog (P : PSys F) (t : Nat) (io : Bool) : PCall → Co PWorld Yield (Option Int)
  | .tok c => ((c.prog P.sys t io).onWorld).mapOut (fun w => (w, none))
  | .tag k hm s => do
    (cutL P k hm s io).mapOut (fun x => (x.1, some x.2))
    .ret none

/-- A process in which any number of calls are under way. The process around the calls; there is no such code in the repository. -/
structure PPool where
  p : PWorld
  th : Nat → Co PWorld Yield (Option Int)
  out : Nat → List Yield

/-- Call `i` makes one access to the state, or yields one value. The process around the calls; there is no such code in the repository. -/
def PPool.step (p : PPool) (i : Nat) : PPool :=
  match p.th i with
  | .ret _ => p
  | .raise _ => p
  | .yield a k => { p with th := fun j => if j = i then k else p.th j, out := fun j => if j = i then p.out i ++ [a] else p.out j }
  | .act f k => { p with p := f p.p, th := fun j => if j = i then k p.p else p.th j }

/-- An execution: the calls named in the list move one after another. The process around the calls; there is no such code in the repository. -/
def PPool.run (p : PPool) (sched : List Nat) : PPool := sched.foldl PPool.step p

/-- The process at the beginning: the calls are about to start. The process around the calls; there is no such code in the repository. -/
def PPool.start (P : PSys F) (t : Nat) (io : Bool) (p : PWorld) (calls : List PCall) : PPool :=
  ⟨p, fun i => match calls[i]? with
    | some c => c.prog P t io
    | none => .ret none, fun _ => []⟩

end Pos.Steps
end Jieba
