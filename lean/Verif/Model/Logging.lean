import Verif.Model.PaddleSetup
/-!
# What is written to stderr: the log messages

jieba/__init__.py:27-30, 49-50, 93-170 and jieba/_compat.py:6-12, 27-51 once more, with the log messages. A message stands for its text; the seconds in
"Loading model cost ..." and the traceback after "Dump cache file failed." are left out. The package `logging` of CPython 3.11, with its
defaults: `logging.disable` is not used, nobody adds filters or handlers to the loggers `jieba` and `jieba._compat` or sets their `propagate` or `parent`.
What handlers of the root logger (there are none unless the application adds some) write is not considered.
-/

namespace Jieba
open Jieba.Pos

/-- A log message. jieba/__init__.py:113, 132-133, 146-147, 156, 164-166, jieba/_compat.py:31, 36-38, 40-43, 47, 50-51. -/
inductive Msg where
  /-- "Building prefix dict from ... ..." -/
  | building (dictionary : Option Path)
  /-- "Loading model from cache ..." -/
  | loading (cache : Path)
  /-- "Dumping model to file cache ..." -/
  | dumping (cache : Path)
  /-- "Dump cache file failed." -/
  | dumpFailed
  /-- "Loading model cost ... seconds." -/
  | cost
  /-- "Prefix dict has been built successfully." -/
  | built
  /-- "Installing paddle-tiny, please wait a minute......" -/
  | installing
  /-- "Import paddle error, please use command to install: ..." -/
  | importFailed
  /-- "Find your own paddle version doesn't satisfy the minimum requirement (1.6.1), ..." -/
  | oldVersion
  /-- "Paddle enabled successfully......" -/
  | enabled
  /-- "Import error, cannot find paddle.fluid and jieba.lac_small.predict module. ..." -/
  | noPredict
  deriving DecidableEq

/-- The level of a message: `debug` is 10, `exception` is 40. jieba/__init__.py:113, 132, 146, 156, 164, 166, jieba/_compat.py:31-50. -/
def Msg.level : Msg → Nat
  | .dumpFailed => 40
  | _ => 10

variable {F : Type _} [LinearOrder F]

/-- jieba/__init__.py:141-161 with its messages. -/
def buildDictLog (S : Sys F) (w : World) (t : Nat) (cache : Path) (io : Bool) : Res Unit × List Msg :=
  match dictFile w (w.tok t).dictionary with
  | .error e => ((w, .error e), [])
  | .ok data => match genPfdict data with
    | .error e => ((w, .error e), [])
    | .ok (freq, total) =>
      let w := w.setTok t { w.tok t with freq := freq, total := total }
      let w := if io then w.setFile cache (some ⟨S.dump (freq, total), w.clock⟩) else w
      ((w, .ok ()), [.dumping cache] ++ if io then [] else [.dumpFailed])

/-- jieba/__init__.py:104-166 with its messages. -/
def initLockedLog (S : Sys F) (w : World) (t : Nat) (absPath : Option Path) (io : Bool) : Res Unit × List Msg :=
  if (w.tok t).initialized then ((w, .ok ()), [])
  else
    let cache := cachePath S (w.tok t) absPath
    match cacheUsable w absPath cache with
    | .error e => ((w, .error e), [.building absPath])
    | .ok cf =>
      let l := [.building absPath] ++ if cf.isSome then [.loading cache] else []
      match cf.bind (fun f => S.load f.data) with
      | some (freq, total) => ((markInit (w.setTok t { w.tok t with freq := freq, total := total }) t, .ok ()), l ++ [.cost, .built])
      | none => match buildDictLog S w t cache io with
        | ((w, .error e), l') => ((w, .error e), l ++ l')
        | ((w, .ok ()), l') => ((markInit w t, .ok ()), l ++ l' ++ [.cost, .built])

/-- jieba/__init__.py:93-166 `initialize(dictionary)` with its messages. -/
def initTokLog (S : Sys F) (w : World) (t : Nat) (dictionary : Option Path) (io : Bool) : Res Unit × List Msg :=
  match dictionary with
  | some (c :: p) =>
    let absPath := S.abspath (c :: p)
    if (w.tok t).dictionary = some absPath ∧ (w.tok t).initialized = true then ((w, .ok ()), [])
    else initLockedLog S (w.setTok t { w.tok t with dictionary := some absPath, initialized := false }) t (some absPath) io
  | _ => initLockedLog S w t (w.tok t).dictionary io

/-- jieba/_compat.py:39-51 with its messages. -/
def checkVersionLog (version : Option Str) (predict : Paddle.Imported Unit) : List Msg :=
  match version with
  | none => []
  | some v =>
    if strLt v Paddle.minVersion then [.oldVersion]
    else match predict with
      | .ok () => [.enabled]
      | .importError => [.noPredict]
      | .raises _ => []

/-- jieba/_compat.py:27-51 `enable_paddle`: its messages. -/
def enablePaddleLog (first second : Paddle.Imported (Option Str)) (predict : Paddle.Imported Unit) : List Msg :=
  match first with
  | .ok v => checkVersionLog v predict
  | .raises _ => []
  | .importError => [.installing] ++ match second with
    | .ok v => checkVersionLog v predict
    | .raises _ => []
    | .importError => [.importFailed]

/-- The levels of the loggers: the root logger (30 unless the application sets it), `jieba` and its child `jieba._compat` (10 when imported,
jieba/__init__.py:28-29, jieba/_compat.py:7-8). -/
structure Levels where
  root : Nat
  jieba : Nat
  compat : Nat

/-- `getEffectiveLevel` of the logger `jieba`. Python itself, used at jieba/__init__.py:113-166. -/
def Levels.ofJieba (l : Levels) : Nat := if l.jieba ≠ 0 then l.jieba else l.root

/-- `getEffectiveLevel` of the logger `jieba._compat`. Python itself, used at jieba/_compat.py:31-50. -/
def Levels.ofCompat (l : Levels) : Nat := if l.compat ≠ 0 then l.compat else l.ofJieba

/-- What the handler of the logger `jieba` writes to stderr (jieba/__init__.py:27, 30): a logger asks its own effective level; the handler, also
for the child logger, asks none. Python itself. -/
def shown (level : Nat) (ms : List Msg) : List Msg := ms.filter (fun m => decide (level ≤ m.level))

/-- A call that may write to stderr. jieba/__init__.py:49-50, 93, 168, jieba/_compat.py:11-12, 27. -/
inductive LogCall where
  /-- `jieba.setLogLevel(n)` -/
  | setLogLevel (n : Nat)
  /-- `jieba._compat.setLogLevel(n)` -/
  | setCompatLevel (n : Nat)
  | init (t : Nat) (dictionary : Option Path) (io : Bool)
  | checkInitialized (t : Nat) (io : Bool)
  | enablePaddle (first second : Paddle.Imported (Option Str)) (predict : Paddle.Imported Unit)

/-- A call: the state afterwards (the caller catches exceptions) and what is written. jieba/__init__.py:49-50, 93-170, jieba/_compat.py:11-12, 27-51. -/
def LogCall.run (S : Sys F) (w : World) (l : Levels) : LogCall → (World × Levels) × List Msg
  | .setLogLevel n => ((w, { l with jieba := n }), [])
  | .setCompatLevel n => ((w, { l with compat := n }), [])
  | .init t d io => let r := initTokLog S w t d io; ((r.1.1, l), shown l.ofJieba r.2)
  | .checkInitialized t io =>
    if (w.tok t).initialized then ((w, l), []) else let r := initTokLog S w t none io; ((r.1.1, l), shown l.ofJieba r.2)
  | .enablePaddle a b c => ((w, l), shown l.ofCompat (enablePaddleLog a b c))

/-- Calls one after the other. The process around the calls; there is no such code in the repository. -/
def runLog (S : Sys F) (w : World) (l : Levels) : List LogCall → (World × Levels) × List Msg
  | [] => ((w, l), [])
  | c :: cs =>
    let r := c.run S w l
    let r' := runLog S r.1.1 r.1.2 cs
    (r'.1, r.2 ++ r'.2)

end Jieba
