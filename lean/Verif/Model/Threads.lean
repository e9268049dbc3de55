import Verif.Model.World
/-!
# jieba/__init__.py — threads calling `initialize`, `check_initialized` and `set_dictionary`

A small-step machine: every read or write of shared state (attributes of a tokenizer, `DICT_WRITING`, locks, files) is a
step of its own, and steps of different threads and of the outside world interleave arbitrarily.  A crash of the process is
an execution that stops.

Simplifications: the body of `with self.lock` never acquires a lock that the thread already holds, so `RLock` is modelled as a
lock with an owner; the contents of a file are read at one moment (a cache file is complete before it is renamed and never
written again, so this is exact for caches); logging is left out; `add_word` is added to
the machine in `Model/AddRace`; nobody else touches the temporary files.
-/

namespace Jieba.Threads
open Jieba

/-- Inside `with wlock:`, jieba/__init__.py:144-156.  `a` is `abs_path`, `c` is `cache_file`. -/
inductive Bld
  /-- line 145, `get_dict_file`, line 375: read `self.dictionary` -/
  | dictF (a : Option Path) (c : Path)
  /-- lines 376-378 and `gen_pfdict`: open and parse dictionary `d` -/
  | openD (a : Option Path) (c : Path) (d : Option Path)
  /-- line 145: assign `self.FREQ` -/
  | setF (a : Option Path) (c : Path) (x : Freq × Int)
  /-- line 145: assign `self.total` -/
  | setT (a : Option Path) (c : Path) (n : Int)
  /-- line 150: `mkstemp` -/
  | mk (a : Option Path) (c : Path)
  /-- lines 151-153: read `self.FREQ`, `self.total` and write the first bytes to temporary file `q` -/
  | part (a : Option Path) (c q : Path)
  /-- lines 151-153: the rest is written -/
  | full (a : Option Path) (c q : Path) (x : Freq × Int)
  /-- line 154: `_replace_file` -/
  | ren (a : Option Path) (c q : Path)
  /-- leave `with wlock`, with an exception or not -/
  | relW (a : Option Path) (e : Option PyErr)
  deriving DecidableEq

/-- Inside `with self.lock:`, jieba/__init__.py:104-166 and 510-515. -/
inductive CS
  /-- line 106: `DICT_WRITING[abs_path]` -/
  | look (a : Option Path)
  /-- line 106: `with`: acquire that lock -/
  | waitW (a : Option Path) (L : Nat)
  /-- line 107: release it -/
  | passW (a : Option Path) (L : Nat)
  /-- line 110: `if self.initialized` -/
  | ifInit (a : Option Path)
  /-- lines 115-125 -/
  | cname (a : Option Path)
  /-- line 130: `os.path.isfile(cache_file)` -/
  | isFile (a : Option Path) (c : Path)
  /-- line 131: `os.path.getmtime(cache_file)`; the default dictionary is not checked -/
  | mtC (p c : Path)
  /-- line 131: `os.path.getmtime(abs_path)` -/
  | mtD (p c : Path) (m : Nat)
  /-- lines 135-136: open and load the cache -/
  | openC (a : Option Path) (c : Path)
  /-- line 136: assign `self.FREQ` -/
  | setF (x : Freq × Int)
  /-- line 136: assign `self.total` -/
  | setT (n : Int)
  /-- line 142: `DICT_WRITING.get(abs_path, threading.RLock())` -/
  | getW (a : Option Path) (c : Path)
  /-- line 143: `DICT_WRITING[abs_path] = wlock` -/
  | putW (a : Option Path) (c : Path) (L : Nat)
  /-- line 144: `with wlock` -/
  | acqW (a : Option Path) (c : Path) (L : Nat)
  /-- lines 145-156, holding lock `L` -/
  | bld (L : Nat) (b : Bld)
  /-- lines 158-161: `del DICT_WRITING[abs_path]` -/
  | del (a : Option Path)
  /-- line 163: `self.initialized = True` -/
  | setI
  /-- leave `with self.lock` -/
  | rel (r : Option PyErr)
  /-- lines 511-513 of `set_dictionary` -/
  | sdFile (p : Path)
  /-- line 514 -/
  | sdD (p : Path)
  /-- line 515 -/
  | sdI
  deriving DecidableEq

/-- Where a thread is. jieba/__init__.py:93-170, 509-515. -/
inductive PC
  /-- not in a call; with the result of the last one: `some none` is normal return, `some (some e)` an exception -/
  | idle (r : Option (Option PyErr))
  /-- line 169: `if not self.initialized` -/
  | chk (t : Nat)
  /-- line 96: read `self.dictionary` -/
  | argD (t : Nat) (p : Path)
  /-- line 96: read `self.initialized` -/
  | argI (t : Nat) (p : Path)
  /-- line 99 -/
  | setD (t : Nat) (p : Path)
  /-- line 100 -/
  | clrI (t : Nat) (p : Path)
  /-- line 102 -/
  | readD (t : Nat)
  /-- line 104: `with self.lock` -/
  | acq (t : Nat) (a : Option Path)
  /-- line 510: `with self.lock` -/
  | sdAcq (t : Nat) (p : Path)
  | cs (t : Nat) (k : CS)
  deriving DecidableEq

/-- The calls a thread can make. jieba/__init__.py:93, 168, 509. -/
inductive Call
  /-- `check_initialized()` -/
  | check (t : Nat)
  /-- `initialize(d)`; `none`, and the empty string: `initialize()` -/
  | init (t : Nat) (d : Option Path)
  /-- `set_dictionary(p)` -/
  | setDict (t : Nat) (p : Path)

/-- The state of the process: `dw` is `DICT_WRITING` (paths to lock objects), `lock` and `wl` the owners of the tokenizers' locks
and of lock objects, `fresh` the next unused lock object.  `built t` is not part of the program: it counts the assignments
to `FREQ` of tokenizer `t`. jieba/__init__.py:32, 56, 93-170; The process around the calls; there is no such code in the repository. -/
structure St where
  w : World
  lock : Nat → Option Nat
  dw : PyDict (Option Path) Nat
  wl : Nat → Option Nat
  fresh : Nat
  th : Nat → PC
  built : Nat → Nat

/-- Tokenizer `t` is changed by `f` (jieba/__init__.py:99, 100, 136, 145, 163, 514, 515). -/
def World.modTok (w : World) (t : Nat) (f : Tok → Tok) : World := w.setTok t (f (w.tok t))

/-- Thread `i` is now at `pc` (jieba/__init__.py:93-170, 509-515). -/
def St.goto (s : St) (i : Nat) (pc : PC) : St := { s with th := fun j => if j = i then pc else s.th j }

/-- `o` owns the lock of tokenizer `t` (jieba/__init__.py:104, 510). -/
def St.setLock (s : St) (t : Nat) (o : Option Nat) : St := { s with lock := fun u => if u = t then o else s.lock u }

/-- `o` owns the lock object `L` (jieba/__init__.py:106, 144). -/
def St.setWl (s : St) (L : Nat) (o : Option Nat) : St := { s with wl := fun M => if M = L then o else s.wl M }

/-- What is not determined by the state: `fail`: an I/O operation while dumping the cache raises; `name q n`: `mkstemp` chooses `q`,
and `n` bytes are written first. jieba/__init__.py:148-156. -/
inductive Choice
  | go
  | fail
  | name (q : Path) (n : Nat)

/-- `del d[a]`, a missing key being ignored. jieba/__init__.py:158-161. -/
def dwDel (d : PyDict (Option Path) Nat) (a : Option Path) : PyDict (Option Path) Nat := d.filter (fun e => decide (e.1 ≠ a))

variable {F : Type _} [LinearOrder F]

/-- One step inside `with wlock` of a thread working on tokenizer `t`, except leaving it. jieba/__init__.py:145-156. -/
def bldStep (S : Sys F) (t : Nat) (w : World) (ch : Choice) : Bld → Option (World × Bld)
  | .dictF a c => some (w, .openD a c (w.tok t).dictionary)
  | .openD a c d => match dictFile w d with
    | .error e => some (w, .relW a (some e))
    | .ok data => match genPfdict data with
      | .error e => some (w, .relW a (some e))
      | .ok x => some (w, .setF a c x)
  | .setF a c x => some (World.modTok w t (fun y => { y with freq := x.1 }), .setT a c x.2)
  | .setT a c n => some (World.modTok w t (fun y => { y with total := n }), .mk a c)
  | .mk a c => match ch with
    | .fail => some (w, .relW a none)
    | .name q _ => match w.files q with
      | some _ => none
      | none => some (w.setFile q (some ⟨[], w.clock⟩), .part a c q)
    | .go => none
  | .part a c q => match ch with
    | .fail => some (w, .relW a none)
    | .name _ n =>
      some (w.setFile q (some ⟨(S.dump ((w.tok t).freq, (w.tok t).total)).take n, w.clock⟩),
        .full a c q ((w.tok t).freq, (w.tok t).total))
    | .go => none
  | .full a c q x => match ch with
    | .fail => some (w, .relW a none)
    | _ => some (w.setFile q (some ⟨S.dump x, w.clock⟩), .ren a c q)
  | .ren a c q => match ch with
    | .fail => some (w, .relW a none)
    | _ => match w.files q with
      | none => some (w, .relW a none)
      | some f => some ((w.setFile q none).setFile c (some f), .relW a none)
  | .relW _ _ => none

/-- One step inside `with self.lock`, not involving locks or `DICT_WRITING`. jieba/__init__.py:110-141, 163. -/
def csStep (S : Sys F) (t : Nat) (w : World) (ch : Choice) : CS → Option (World × CS)
  | .ifInit a => some (w, if (w.tok t).initialized then .rel none else .cname a)
  | .cname a => some (w, .isFile a (cachePath S (w.tok t) a))
  | .isFile a c => match w.files c with
    | none => some (w, .getW a c)
    | some _ => match a with
      | none => some (w, .openC a c)
      | some p => some (w, .mtC p c)
  | .mtC p c => match w.files c with
    | none => some (w, .rel (some .fileNotFound))
    | some f => some (w, .mtD p c f.mtime)
  | .mtD p c m => match w.files p with
    | none => some (w, .rel (some .fileNotFound))
    | some f => some (w, if f.mtime < m then .openC (some p) c else .getW (some p) c)
  | .openC a c => match (w.files c).bind (fun f => S.load f.data) with
    | none => some (w, .getW a c)
    | some x => some (w, .setF x)
  | .setF x => some (World.modTok w t (fun y => { y with freq := x.1 }), .setT x.2)
  | .setT n => some (World.modTok w t (fun y => { y with total := n }), .setI)
  | .bld L b => (bldStep S t w ch b).map (fun r => (r.1, .bld L r.2))
  | .setI => some (World.modTok w t (fun y => { y with initialized := true }), .rel none)
  | .sdFile p => match w.files p with
    | none => some (w, .rel (some .exception))
    | some _ => some (w, .sdD p)
  | .sdD p => some (World.modTok w t (fun y => { y with dictionary := some p }), .sdI)
  | .sdI => some (World.modTok w t (fun y => { y with initialized := false }), .rel none)
  | _ => none

/-- Is this step an assignment to `self.FREQ`?; jieba/__init__.py:136, 145. -/
def CS.writesFreq : CS → Bool
  | .setF _ => true
  | .bld _ (.setF _ _ _) => true
  | _ => false

/-- Starting a call. jieba/__init__.py:93-102, 168-170, 509-511. -/
def Call.start (S : Sys F) : Call → PC
  | .check t => .chk t
  | .init t (some (c :: p)) => .argD t (S.abspath (c :: p))
  | .init t _ => .readD t
  | .setDict t p => .sdAcq t (S.abspath p)

/-- One step of thread `i`, jieba/__init__.py:93-170, 509-515; `none`: it cannot make this step now. -/
def step (S : Sys F) (i : Nat) (ch : Choice) (s : St) : Option St :=
  match s.th i with
  | .idle _ => none
  | .chk t => some (s.goto i (if (s.w.tok t).initialized then .idle (some none) else .readD t))
  | .argD t p => some (s.goto i (if (s.w.tok t).dictionary = some p then .argI t p else .setD t p))
  | .argI t p => some (s.goto i (if (s.w.tok t).initialized then .idle (some none) else .setD t p))
  | .setD t p => some ({ s with w := World.modTok s.w t (fun y => { y with dictionary := some p }) }.goto i (.clrI t p))
  | .clrI t p => some ({ s with w := World.modTok s.w t (fun y => { y with initialized := false }) }.goto i (.acq t (some p)))
  | .readD t => some (s.goto i (.acq t (s.w.tok t).dictionary))
  | .acq t a => match s.lock t with
    | some _ => none
    | none => some ((s.setLock t (some i)).goto i (.cs t (.look a)))
  | .sdAcq t p => match s.lock t with
    | some _ => none
    | none => some ((s.setLock t (some i)).goto i (.cs t (.sdFile p)))
  | .cs t (.look a) => match s.dw.get? a with
    | none => some (s.goto i (.cs t (.ifInit a)))
    | some L => some (s.goto i (.cs t (.waitW a L)))
  | .cs t (.waitW a L) => match s.wl L with
    | some _ => none
    | none => some ((s.setWl L (some i)).goto i (.cs t (.passW a L)))
  | .cs t (.passW a L) => some ((s.setWl L none).goto i (.cs t (.ifInit a)))
  | .cs t (.getW a c) => match s.dw.get? a with
    | some L => some ({ s with fresh := s.fresh + 1 }.goto i (.cs t (.putW a c L)))
    | none => some ({ s with fresh := s.fresh + 1 }.goto i (.cs t (.putW a c s.fresh)))
  | .cs t (.putW a c L) => some ({ s with dw := s.dw.set a L }.goto i (.cs t (.acqW a c L)))
  | .cs t (.acqW a c L) => match s.wl L with
    | some _ => none
    | none => some ((s.setWl L (some i)).goto i (.cs t (.bld L (.dictF a c))))
  | .cs t (.bld L (.relW a e)) =>
    some ((s.setWl L none).goto i (match e with
      | none => .cs t (.del a)
      | some e => .cs t (.rel (some e))))
  | .cs t (.del a) => some ({ s with dw := dwDel s.dw a }.goto i (.cs t .setI))
  | .cs t (.rel r) => some ((s.setLock t none).goto i (.idle (some r)))
  | .cs t k => (csStep S t s.w ch k).map (fun r =>
    { s with
      w := r.1
      built := fun u => if u = t ∧ k.writesFreq = true then s.built u + 1 else s.built u }.goto i (.cs t r.2))

/-- One event of an execution: a thread starts a call or makes a step, or someone else changes a file, or time passes.
The process around the calls; there is no such code in the repository. -/
inductive Ev
  | start (i : Nat) (c : Call)
  | step (i : Nat) (ch : Choice)
  | write (p : Path) (data : Bytes)
  | remove (p : Path)
  | tick

/-- The effect of an event; `none`: it cannot happen now.
jieba/__init__.py:93-170, 509-515; The process around the calls; there is no such code in the repository. -/
def Ev.run (S : Sys F) (s : St) : Ev → Option St
  | .start i c => match s.th i with
    | .idle _ => some (s.goto i (c.start S))
    | _ => none
  | .step i ch => Jieba.Threads.step S i ch s
  | .write p data => some { s with w := s.w.setFile p (some ⟨data, s.w.clock⟩) }
  | .remove p => some { s with w := s.w.setFile p none }
  | .tick => some { s with w := { s.w with clock := s.w.clock + 1 } }

/-- An execution. The process around the calls; there is no such code in the repository. -/
def runEvs (S : Sys F) : St → List Ev → Option St
  | s, [] => some s
  | s, e :: es => match e.run S s with
    | none => none
    | some s => runEvs S s es

/-- A process with no thread in a call. The process around the calls; there is no such code in the repository. -/
def St.init (w : World) : St := ⟨w, fun _ => none, [], fun _ => none, 0, fun _ => .idle none, fun _ => 0⟩

end Jieba.Threads
