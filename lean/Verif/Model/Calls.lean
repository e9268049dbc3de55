import Verif.Model.Lazy
/-!
# jieba/__init__.py — whole calls as programs, and threads making calls at the same time

`add_word`, `del_word`, `suggest_freq` and `load_userdict` as programs with explicit accesses to the state (like the generators
of `Model/Lazy`), and a process in which any number of calls are under way at the same time.  Unlike in `Model/AddRace` the
frequency may be left out (then `add_word` calls `suggest_freq`, which runs `cut`), and frequencies may be suggested and tuned.

Simplifications: `check_initialized()`, which holds the lock, is one access; so is opening and reading the file of
`load_userdict`; reading the attribute `self.FREQ` and the following operation on the dict are one access.
-/

namespace Jieba.Lazy
open Co

variable {F : Type} [LinearOrder F] {α : Type}

/-- One write access. A statement such as jieba/__init__.py:428, 429, 431, 435. -/
def upd (f : World → World) : Co World α Unit := .act f (fun _ => .ret ())

/-- jieba/__init__.py:168-170 `check_initialized` -/
def checkInitL (S : Sys F) (t : Nat) (io : Bool) : Co World α Unit :=
  .act (fun w => (checkInit S w t io).1) (fun w => lift (checkInit S w t io).2)

/-- jieba/__init__.py:432-435: the prefixes of length `k + 1`, one after another. -/
def addPrefixesL (t : Nat) (word : Str) : List Nat → Co World α Unit
  | [] => .ret ()
  | k :: ks => do
    if ← get (fun w => PyDict.has (w.tok t).freq (word.take (k + 1))) then addPrefixesL t word ks
    else do
      upd (fun w => w.setTok t { w.tok t with freq := (w.tok t).freq.set (word.take (k + 1)) 0 })
      addPrefixesL t word ks

/-- jieba/__init__.py:430-431 -/
def setTagL (t : Nat) (word : Str) (tag : Option Str) : Co World α Unit :=
  if truthyStr tag then upd (fun w => w.setTok t { w.tok t with tags := (w.tok t).tags.set word (tag.getD []) }) else .ret ()

/-- jieba/__init__.py:436-437 -/
def forceL (word : Str) (freq : Int) : Co World α Unit :=
  if freq = 0 then upd (fun w => { w with force := if word ∈ w.force then w.force else word :: w.force }) else .ret ()

/-- jieba/__init__.py:428-437: the part of `add_word` after `freq` has been determined; `self.total += freq` reads and then
writes. -/
def addFreqL (t : Nat) (word : Str) (freq : Int) (tag : Option Str) : Co World α Unit := do
  upd (fun w => w.setTok t { w.tok t with freq := (w.tok t).freq.set word freq })
  let total ← get (fun w => (w.tok t).total)
  upd (fun w => w.setTok t { w.tok t with total := total + freq })
  setTagL t word tag
  addPrefixesL t word (List.range word.length)
  forceL word freq

/-- jieba/__init__.py:458-465, 469-471: `int(freq * self.total)` with the segments produced by `gen`, a generator (for a word) or
the tuple itself; `freq` is the integer 1 (`none`) until there is a segment. -/
def expectL (A : Arith F) (t : Nat) (gen : Co World Str Unit) : Co World α Int := do
  let ftotal ← get (fun w => (w.tok t).total)
  let freq ← forIn gen (fun seg (acc : Option F) => do
    let n ← get (fun w => (PyDict.get? (w.tok t).freq seg).getD 1)
    if ftotal = 0 then .raise .zeroDivisionError
    else .ret (some (A.mul (acc.getD (A.ofInt 1)) (A.div (A.ofInt n) (A.ofInt ftotal))))) none
  let total ← get (fun w => (w.tok t).total)
  .ret (match freq with
    | none => total
    | some x => A.trunc (A.mul x (A.ofInt total)))

/-- jieba/__init__.py:457-465: `suggest_freq(word)` for a `str`. -/
def suggestWordL (S : Sys F) (t : Nat) (word : Str) (io : Bool) : Co World α Int := do
  checkInitL S t io
  let n ← expectL S.A t (cutL S t false false (.str word) io)
  let m ← get (fun w => (PyDict.get? (w.tok t).freq word).getD 1)
  .ret (max (n + 1) m)

/-- jieba/__init__.py:457-459, 466-471: `suggest_freq(segment)` for a tuple. -/
def suggestSplitL (S : Sys F) (t : Nat) (segs : List Str) (io : Bool) : Co World α Int := do
  checkInitL S t io
  let n ← expectL S.A t (yieldAll segs)
  let m ← get (fun w => (PyDict.get? (w.tok t).freq segs.flatten).getD 0)
  .ret (min n m)

/-- jieba/__init__.py:427: the frequency to use -/
def freqArgL (S : Sys F) (t : Nat) (word : Str) (io : Bool) : FreqArg → Co World α Int
  | .int n => .ret n
  | .str s => match pyInt s with
    | some n => .ret n
    | none => .raise .valueError
  | .none => suggestWordL S t word io

/-- jieba/__init__.py:418-437 `add_word` -/
def addWordL (S : Sys F) (t : Nat) (word : PyText) (freq : FreqArg) (tag : Option Str) (io : Bool) : Co World α Unit := do
  checkInitL S t io
  let f ← freqArgL S t (strdecode S.gbk word) io freq
  addFreqL t (strdecode S.gbk word) f tag

/-- jieba/__init__.py:439-443 `del_word` -/
def delWordL (S : Sys F) (t : Nat) (word : PyText) (io : Bool) : Co World α Unit := addWordL S t word (.int 0) none io

/-- jieba/__init__.py:457-471: the word and the frequency; a `bytes` object is iterated, its elements are integers. -/
def suggestCoreL (S : Sys F) (t : Nat) (io : Bool) : Segment → Co World α (Str × Int)
  | .text (.str word) => do
    let f ← suggestWordL S t word io
    .ret (word, f)
  | .text (.bytes b) =>
    if b = [] then do
      let f ← suggestSplitL S t [] io
      .ret ([], f)
    else do
      checkInitL S t io
      .raise .attributeError
  | .tuple l => do
    let f ← suggestSplitL S t (l.map (strdecode S.gbk)) io
    .ret ((l.map (strdecode S.gbk)).flatten, f)

/-- jieba/__init__.py:472-473 -/
def tuneL (S : Sys F) (t : Nat) (tune : Bool) (word : Str) (f : Int) (io : Bool) : Co World α Unit :=
  if tune then addWordL S t (.str word) (.int f) none io else .ret ()

/-- jieba/__init__.py:445-474 `suggest_freq` -/
def suggestFreqL (S : Sys F) (t : Nat) (segment : Segment) (tune io : Bool) : Co World α Int := do
  let r ← suggestCoreL S t io segment
  tuneL S t tune r.1 r.2 io
  .ret r.2

/-- jieba/__init__.py:401-416: the body of the loop of `load_userdict`. -/
def userdictLineL (S : Sys F) (t : Nat) (io : Bool) (ln : PyText) : Co World α Unit :=
  match userLine ln with
  | none => .raise .valueError
  | some line =>
    if line = [] then .ret ()
    else match userFields line with
      | none => .raise .attributeError
      | some (word, freq, tag) => addWordL S t (.str word) (fieldArg freq) tag io

/-- jieba/__init__.py:401-416: the loop of `load_userdict`. -/
def userdictLoopL (S : Sys F) (t : Nat) (io : Bool) : List PyText → Co World α Unit
  | [] => .ret ()
  | ln :: lns => do
    userdictLineL S t io ln
    userdictLoopL S t io lns

/-- jieba/__init__.py:395-400: the lines of the user dictionary. -/
def userLinesL : UserDict → Co World α (List PyText)
  | .path p => do
    match ← get (fun w => w.files p) with
    | none => .raise .fileNotFound
    | some f => .ret ((fileLines f.data).map .bytes)
  | .file data => .ret ((fileLines data).map .bytes)
  | .lines l => .ret l

/-- jieba/__init__.py:380-416 `load_userdict` -/
def loadUserdictL (S : Sys F) (t : Nat) (f : UserDict) (io : Bool) : Co World α Unit := do
  checkInitL S t io
  let lns ← userLinesL f
  userdictLoopL S t io lns

/-- A call, on some tokenizer. jieba/__init__.py:289, 338, 380, 418, 439, 445, 476. -/
inductive Call where
  | addWord (word : PyText) (freq : FreqArg) (tag : Option Str)
  | delWord (word : PyText)
  | suggestFreq (segment : Segment) (tune : Bool)
  | loadUserdict (f : UserDict)
  | cut (cutAllFlag hmmFlag : Bool) (sentence : PyText)
  | cutForSearch (hmmFlag : Bool) (sentence : PyText)

/-- What the call does; the value returned is that of `suggest_freq`. jieba/__init__.py:289-507. -/
def Call.prog (S : Sys F) (t : Nat) (io : Bool) : Call → Co World Str (Option Int)
  | .addWord word freq tag => do addWordL S t word freq tag io; .ret none
  | .delWord word => do delWordL S t word io; .ret none
  | .suggestFreq segment tune => do
    let f ← suggestFreqL S t segment tune io
    .ret (some f)
  | .loadUserdict f => do loadUserdictL S t f io; .ret none
  | .cut ca hm s => do cutL S t ca hm s io; .ret none
  | .cutForSearch hm s => do cutForSearchL S t hm s io; .ret none

/-- A process in which any number of calls are under way: the state, what each call has still to do, and what it has yielded so
far.  A thread that makes several calls one after another is the special case in which the later ones do not move before the
earlier ones have ended. The process around the calls; there is no such code in the repository. -/
structure Pool where
  w : World
  th : Nat → Co World Str (Option Int)
  out : Nat → List Str

/-- Call `i` makes one access to the state, or yields one value. The process around the calls; there is no such code in the repository. -/
def Pool.step (p : Pool) (i : Nat) : Pool :=
  match p.th i with
  | .ret _ => p
  | .raise _ => p
  | .yield a k => { p with th := fun j => if j = i then k else p.th j, out := fun j => if j = i then p.out i ++ [a] else p.out j }
  | .act f k => { p with w := f p.w, th := fun j => if j = i then k p.w else p.th j }

/-- An execution: the calls named in the list move one after another. The process around the calls; there is no such code in the repository. -/
def Pool.run (p : Pool) (sched : List Nat) : Pool := sched.foldl Pool.step p

/-- The process at the beginning: the calls are about to start. The process around the calls; there is no such code in the repository. -/
def Pool.start (S : Sys F) (t : Nat) (io : Bool) (w : World) (calls : List Call) : Pool :=
  ⟨w, fun i => match calls[i]? with
    | some c => c.prog S t io
    | none => .ret none, fun _ => []⟩

end Jieba.Lazy
