import Verif.Model.Lazy
import Verif.Model.Threads
/-!
# jieba/__init__.py — threads calling `add_word` (and `initialize`, `set_dictionary`) at the same time

Extends the machine of `Model/Threads`: a thread can also be inside `add_word` (lines 418-437), which takes no lock once the
tokenizer is initialised.  Every read or write of `FREQ`, `total`, `user_word_tag_tab` and `Force_Split_Words` is a step of its
own.

Simplifications: `freq` is given (with `None`, line 427 calls `suggest_freq` first); reading the attribute `self.FREQ` and the
following operation on the dict are one step; storing the tag and the force-split word are one step each.
-/

namespace Jieba.Threads
open Jieba

/-- The arguments of a call `add_word(word, f, tag)` on tokenizer `t`. jieba/__init__.py:418. -/
structure AddArg where
  t : Nat
  word : Str
  f : Int
  tag : Option Str
  deriving DecidableEq

/-- Where a thread is inside `add_word`. jieba/__init__.py:418-437. -/
inductive AddPC
  /-- not in `add_word`; the result of the last call, as in `PC` -/
  | idle (r : Option (Option PyErr))
  /-- line 425: `check_initialized()`, line 169 -/
  | chk (x : AddArg)
  /-- line 170: in `initialize()`, whose steps are those of the thread in `St` -/
  | wait (x : AddArg)
  /-- line 428: `self.FREQ[word] = freq` -/
  | setF (x : AddArg)
  /-- line 429: read `self.total` -/
  | readT (x : AddArg)
  /-- line 429: write it, `n` was read -/
  | setT (x : AddArg) (n : Int)
  /-- lines 430-431 -/
  | tag (x : AddArg)
  /-- lines 432-434, `ch = k`: `wfrag not in self.FREQ` -/
  | look (x : AddArg) (k : Nat)
  /-- line 435: `self.FREQ[wfrag] = 0` -/
  | put (x : AddArg) (k : Nat)
  /-- lines 436-437 -/
  | force (x : AddArg)
  deriving DecidableEq

/-- The state: that of `Model/Threads` and, for each thread, where it is in `add_word`.
jieba/__init__.py:418-437; The process around the calls; there is no such code in the repository. -/
structure ASt where
  s : St
  ad : Nat → AddPC

/-- Thread `i` is now at `pc` (jieba/__init__.py:418-437). -/
def ASt.goto (a : ASt) (i : Nat) (pc : AddPC) : ASt := { a with ad := fun j => if j = i then pc else a.ad j }

/-- One step of `add_word` after `check_initialized()`, lines 428-437. -/
def addStep (w : World) : AddPC → Option (World × AddPC)
  | .setF x => some (World.modTok w x.t (fun y => { y with freq := y.freq.set x.word x.f }), .readT x)
  | .readT x => some (w, .setT x (w.tok x.t).total)
  | .setT x n => some (World.modTok w x.t (fun y => { y with total := n + x.f }), .tag x)
  | .tag x => some (World.modTok w x.t (fun y =>
      { y with tags := if truthyStr x.tag then y.tags.set x.word (x.tag.getD []) else y.tags }), .look x 0)
  | .look x k =>
    if k < x.word.length then
      some (w, if (w.tok x.t).freq.has (x.word.take (k + 1)) then .look x (k + 1) else .put x k)
    else some (w, .force x)
  | .put x k => some (World.modTok w x.t (fun y => { y with freq := y.freq.set (x.word.take (k + 1)) 0 }), .look x (k + 1))
  | .force x => some (if x.f = 0 then { w with force := if x.word ∈ w.force then w.force else x.word :: w.force } else w,
      .idle (some none))
  | _ => none

/-- Events: those of `Model/Threads`, starting `add_word`, and a step of a thread inside it.
jieba/__init__.py:93-170, 418-437; The process around the calls; there is no such code in the repository. -/
inductive AEv
  | ev (e : Ev)
  | add (i : Nat) (x : AddArg)
  | step (i : Nat)

variable {F : Type _} [LinearOrder F]

/-- The effect of an event; `none`: it cannot happen now.
jieba/__init__.py:93-170, 418-437; The process around the calls; there is no such code in the repository. -/
def AEv.run (S : Sys F) (a : ASt) : AEv → Option ASt
  | .ev e => match e with
    | .start i c => match a.ad i with
      | .idle _ => (Ev.run S a.s (.start i c)).map (fun s => { a with s := s })
      | _ => none
    | e => (e.run S a.s).map (fun s => { a with s := s })
  | .add i x => match a.ad i, a.s.th i with
    | .idle _, .idle _ => some (a.goto i (.chk x))
    | _, _ => none
  | .step i => match a.ad i with
    | .chk x =>
      if (a.s.w.tok x.t).initialized then some (a.goto i (.setF x))
      else some ({ a with s := a.s.goto i (.readD x.t) }.goto i (.wait x))
    | .wait x => match a.s.th i with
      | .idle (some none) => some (a.goto i (.setF x))
      | .idle (some (some e)) => some (a.goto i (.idle (some (some e))))
      | _ => none
    | pc => (addStep a.s.w pc).map (fun r => { a with s := { a.s with w := r.1 } }.goto i r.2)

/-- An execution. The process around the calls; there is no such code in the repository. -/
def runA (S : Sys F) : ASt → List AEv → Option ASt
  | a, [] => some a
  | a, e :: es => match e.run S a with
    | none => none
    | some a => runA S a es

/-- A process with no thread in a call. The process around the calls; there is no such code in the repository. -/
def ASt.init (w : World) : ASt := ⟨St.init w, fun _ => .idle none⟩

/-- A generator of `Model/Lazy` running beside the other threads: before each of its accesses to the state any events satisfying
`ok` may happen. The generators of jieba/__init__.py:198-354; The process around the calls; there is no such code in the repository. -/
inductive Beside (S : Sys F) (ok : AEv → Prop) {α β : Type} : ASt → Co World α β → List α → Except PyErr β → Prop
  | ret (a b) : Beside S ok a (.ret b) [] (.ok b)
  | raise (a e) : Beside S ok a (.raise e) [] (.error e)
  | yield (a x k l r) : Beside S ok a k l r → Beside S ok a (.yield x k) (x :: l) r
  | act (a a' es f k l r) : (∀ e ∈ es, ok e) → runA S a es = some a' →
      Beside S ok { a' with s := { a'.s with w := f a'.s.w } } (k a'.s.w) l r → Beside S ok a (.act f k) l r

end Jieba.Threads
