import Verif.Model.Dict
/-!
# jieba/__init__.py — `Tokenizer` objects, the file system and all operations on them

Sequential semantics: one operation after the other (see `Model/Threads` for interleavings).
Every operation maps a world to a world and a result; an exception keeps the changes made before it.
-/

namespace Jieba

/-- A file or directory name. E.g. jieba/__init__.py:60, 124, 130, 396. -/
abbrev Path := Str

/-- A regular file. jieba/__init__.py:130-136, 151, 378, 398. -/
structure File where
  data : Bytes
  mtime : Nat
  deriving DecidableEq

/-- The attributes of a `Tokenizer`, jieba/__init__.py:55-66 (`lock` only matters for threads). -/
structure Tok where
  dictionary : Option Path
  freq : Freq
  total : Int
  tags : PyDict Str Str
  initialized : Bool
  tmpDir : Option Path
  cacheFile : Option Path

/-- Everything fixed: arithmetic, HMM tables and the library functions that are not modelled.
Used at jieba/__init__.py:22, 122-123, 136, 152, jieba/_compat.py:81 and jieba/finalseg/__init__.py:32-34. -/
structure Sys (F : Type _) where
  A : Arith F
  tables : FinalSeg.Tables F
  /-- `b.decode('gbk', 'ignore')` -/
  gbk : Bytes → Str
  /-- `md5(path.encode('utf-8', 'replace')).hexdigest()` -/
  md5 : Path → Str
  /-- `tempfile.gettempdir()` -/
  tempdir : Path
  /-- `_get_abs_path`, jieba/__init__.py:22 (the current directory does not change) -/
  abspath : Path → Path
  /-- `marshal.dump` and `marshal.load`; `none`: `load` raises or the value cannot be unpacked into two -/
  dump : Freq × Int → Bytes
  load : Bytes → Option (Freq × Int)
  load_dump : ∀ x, load (dump x) = some x

/-- The mutable state outside single tokenizers, and all tokenizers (by an index).
The process around the calls; there is no such code in the repository. -/
structure World where
  files : Path → Option File
  /-- current time: the modification time of files written now -/
  clock : Nat
  /-- the `dict.txt` shipped with the package -/
  defaultDict : Bytes
  /-- `finalseg.Force_Split_Words` -/
  force : List Str
  tok : Nat → Tok

/-- jieba/__init__.py:55-66 `Tokenizer()` -/
def Tok.new (dictionary : Option Path) : Tok := ⟨dictionary, [], 0, [], false, none, none⟩

/-- The attributes of tokenizer `t` become `x` (jieba/__init__.py:61-66). -/
def World.setTok (w : World) (t : Nat) (x : Tok) : World :=
  { w with tok := fun u => if u = t then x else w.tok u }

/-- The file `p` is written or removed (jieba/__init__.py:151-154). -/
def World.setFile (w : World) (p : Path) (f : Option File) : World :=
  { w with files := fun q => if q = p then f else w.files q }

/-- Result of an operation: exception or value. Python itself. -/
abbrev Res (α : Type _) := World × Except PyErr α

variable {F : Type _} [LinearOrder F]

/-- What `cut` on tokenizer `t` reads. jieba/__init__.py:172-336. -/
def World.env (S : Sys F) (w : World) (t : Nat) : Env F := ⟨S.A, (w.tok t).freq, (w.tok t).total, S.tables, w.force⟩

/-! ## initialize -/

/-- `os.path.join(dir, name)` on POSIX. Python itself, used at jieba/__init__.py:124. -/
def pathJoin (dir name : Path) : Path :=
  if name.head? = some 0x2F then name
  else if dir = [] ∨ dir.getLast? = some 0x2F then dir ++ name
  else dir ++ [0x2F] ++ name

/-- Truth of an optional string. Python itself, used at jieba/__init__.py:94, 115, 430. -/
def truthyStr : Option Str → Bool
  | some (_ :: _) => true
  | _ => false

/-- jieba/__init__.py:115-125: the path of the cache file. -/
def cachePath (S : Sys F) (x : Tok) (absPath : Option Path) : Path :=
  let name := if truthyStr x.cacheFile then x.cacheFile.getD []
    else match absPath with
      | none => lit ['j', 'i', 'e', 'b', 'a', '.', 'c', 'a', 'c', 'h', 'e']
      | some p => lit ['j', 'i', 'e', 'b', 'a', '.', 'u'] ++ S.md5 p ++ lit ['.', 'c', 'a', 'c', 'h', 'e']
  pathJoin (if truthyStr x.tmpDir then x.tmpDir.getD [] else S.tempdir) name

/-- jieba/__init__.py:130-131: is there a cache file that is newer than the dictionary? `getmtime` of a missing
dictionary raises. -/
def cacheUsable (w : World) (absPath : Option Path) (cache : Path) : Except PyErr (Option File) :=
  match w.files cache with
  | none => .ok none
  | some cf => match absPath with
    | none => .ok (some cf)
    | some p => match w.files p with
      | none => .error .fileNotFound
      | some df => .ok (if df.mtime < cf.mtime then some cf else none)

/-- jieba/__init__.py:374-378 `get_dict_file`: the contents of the dictionary file. -/
def dictFile (w : World) (dictionary : Option Path) : Except PyErr Bytes :=
  match dictionary with
  | none => .ok w.defaultDict
  | some p => match w.files p with
    | none => .error .fileNotFound
    | some f => .ok f.data

/-- jieba/__init__.py:141-161: build from the dictionary file and dump to the cache; `io`: dumping the cache succeeds
(a failure is logged and otherwise ignored).  Only the effect on the cache file is recorded, not left-over temporary
files. -/
def buildDict (S : Sys F) (w : World) (t : Nat) (cache : Path) (io : Bool) : Res Unit :=
  match dictFile w (w.tok t).dictionary with
  | .error e => (w, .error e)
  | .ok data => match genPfdict data with
    | .error e => (w, .error e)
    | .ok (freq, total) =>
      let w := w.setTok t { w.tok t with freq := freq, total := total }
      let w := if io then w.setFile cache (some ⟨S.dump (freq, total), w.clock⟩) else w
      (w, .ok ())

/-- `self.initialized = True`; jieba/__init__.py:163. -/
def markInit (w : World) (t : Nat) : World := w.setTok t { w.tok t with initialized := true }

/-- jieba/__init__.py:104-166: the body of `with self.lock` in `initialize`. -/
def initLocked (S : Sys F) (w : World) (t : Nat) (absPath : Option Path) (io : Bool) : Res Unit :=
  if (w.tok t).initialized then (w, .ok ())
  else
    let cache := cachePath S (w.tok t) absPath
    match cacheUsable w absPath cache with
    | .error e => (w, .error e)
    | .ok cf => match cf.bind (fun f => S.load f.data) with
      | some (freq, total) => (markInit (w.setTok t { w.tok t with freq := freq, total := total }) t, .ok ())
      | none => match buildDict S w t cache io with
        | (w, .error e) => (w, .error e)
        | (w, .ok ()) => (markInit w t, .ok ())

/-- jieba/__init__.py:93-166 `initialize(dictionary)`. -/
def initTok (S : Sys F) (w : World) (t : Nat) (dictionary : Option Path) (io : Bool) : Res Unit :=
  match dictionary with
  | some (c :: p) =>
    let absPath := S.abspath (c :: p)
    if (w.tok t).dictionary = some absPath ∧ (w.tok t).initialized = true then (w, .ok ())
    else initLocked S (w.setTok t { w.tok t with dictionary := some absPath, initialized := false }) t (some absPath) io
  | _ => initLocked S w t (w.tok t).dictionary io

/-- jieba/__init__.py:168-170 `check_initialized` -/
def checkInit (S : Sys F) (w : World) (t : Nat) (io : Bool) : Res Unit :=
  if (w.tok t).initialized then (w, .ok ()) else initTok S w t none io

/-- jieba/__init__.py:509-515 `set_dictionary` -/
def setDictionary (S : Sys F) (w : World) (t : Nat) (path : Path) : Res Unit :=
  match w.files (S.abspath path) with
  | none => (w, .error .exception)
  | some _ => (w.setTok t { w.tok t with dictionary := some (S.abspath path), initialized := false }, .ok ())

/-! ## Segmentation on a tokenizer that may have to be initialised first -/

/-- jieba/__init__.py:321-336 with the `check_initialized()` of `get_DAG`. -/
def cutBlocksW (S : Sys F) (t : Nat) (cutAllFlag hmmFlag io : Bool) : World → List Str → World × Gen Str
  | w, [] => (w, Gen.ok [])
  | w, blk :: blks =>
    if blk = [] then cutBlocksW S t cutAllFlag hmmFlag io w blks
    else if reHanDefault.isMatch blk then
      match checkInit S w t io with
      | (w, .error e) => (w, Gen.raise e)
      | (w, .ok ()) =>
        let g := cutBlock (w.env S t) cutAllFlag hmmFlag blk
        match g.err with
        | some e => (w, ⟨g.out, some e⟩)
        | none =>
          let r := cutBlocksW S t cutAllFlag hmmFlag io w blks
          (r.1, Gen.andThen g r.2)
    else
      let r := cutBlocksW S t cutAllFlag hmmFlag io w blks
      (r.1, Gen.andThen (Gen.ok (cutSkip cutAllFlag blk)) r.2)

/-- jieba/__init__.py:289-336 `cut` on any tokenizer. -/
def cutW (S : Sys F) (w : World) (t : Nat) (cutAllFlag hmmFlag : Bool) (sentence : PyText) (io : Bool) : World × Gen Str :=
  cutBlocksW S t cutAllFlag hmmFlag io w (reHanDefault.split (strdecode S.gbk sentence))

/-! ## Changing the dictionary -/

/-- `freq` argument of `add_word`; jieba/__init__.py:418, 427. -/
inductive FreqArg where
  | none
  | int (n : Int)
  | str (s : Str)
  deriving DecidableEq

/-- jieba/__init__.py:428-437: the part of `add_word` after `freq` has been determined. -/
def addFreq (w : World) (t : Nat) (word : Str) (freq : Int) (tag : Option Str) : World :=
  let x := w.tok t
  let x := { x with freq := register x.freq word freq, total := x.total + freq,
                    tags := if truthyStr tag then x.tags.set word (tag.getD []) else x.tags }
  let w := w.setTok t x
  if freq = 0 then { w with force := if word ∈ w.force then w.force else word :: w.force } else w

/-- jieba/__init__.py:463-464 and 469-470: `freq *= FREQ.get(seg, 1) / ftotal` for each segment (the first factor is the
integer 1, which is neutral). -/
def mulFreqs (A : Arith F) (freq : Freq) (ftotal : F) : F → List Str → F
  | acc, [] => acc
  | acc, seg :: segs =>
    mulFreqs A freq ftotal (A.mul acc (A.div (A.ofInt ((freq.get? seg).getD 1)) ftotal)) segs

/-- jieba/__init__.py:458-471: `int(freq * self.total)`; a division by `0.0` raises as soon as there is a segment, without
segments `freq` is still the integer 1. -/
def expectFreq (A : Arith F) (freq : Freq) (total : Int) (segs : List Str) : Except PyErr Int :=
  if segs = [] then .ok total
  else if total = 0 then .error .zeroDivisionError
  else .ok (A.trunc (A.mul (mulFreqs A freq (A.ofInt total) (A.ofInt 1) segs) (A.ofInt total)))

/-- jieba/__init__.py:460-465: `suggest_freq(word)` for a `str` after `check_initialized()`.  The tokens are consumed as
they are generated, so a failing division comes before an exception from the generator. -/
def suggestWord (S : Sys F) (w : World) (t : Nat) (word : Str) : Except PyErr Int :=
  let g := cut (w.env S t) false false word
  match expectFreq S.A (w.tok t).freq (w.tok t).total g.out with
  | .error e => .error e
  | .ok n => match g.err with
    | some e => .error e
    | none => .ok (max (n + 1) (((w.tok t).freq.get? word).getD 1))

/-- jieba/__init__.py:466-471: `suggest_freq(segment)` for a tuple after `check_initialized()`. -/
def suggestSplit (S : Sys F) (w : World) (t : Nat) (segs : List Str) : Except PyErr Int :=
  (expectFreq S.A (w.tok t).freq (w.tok t).total segs).map
    (fun n => min n (((w.tok t).freq.get? segs.flatten).getD 0))

/-- `segment` argument of `suggest_freq`: a text or a tuple of texts. jieba/__init__.py:445, 461, 467. -/
inductive Segment where
  | text (x : PyText)
  | tuple (l : List PyText)

/-- jieba/__init__.py:460-471: the word and the frequency.  A `bytes` object is not in `string_types`, so it is iterated:
its elements are integers, which `strdecode` cannot decode (AttributeError). -/
def suggestCore (S : Sys F) (w : World) (t : Nat) : Segment → Except PyErr (Str × Int)
  | .text (.str word) => (suggestWord S w t word).map (fun f => (word, f))
  | .text (.bytes b) => if b = [] then (suggestSplit S w t []).map (fun f => ([], f)) else .error .attributeError
  | .tuple l =>
    let segs := l.map (strdecode S.gbk)
    (suggestSplit S w t segs).map (fun f => (segs.flatten, f))

/-- jieba/__init__.py:445-474 `suggest_freq` -/
def suggestFreq (S : Sys F) (w : World) (t : Nat) (segment : Segment) (tune io : Bool) : Res Int :=
  match checkInit S w t io with
  | (w, .error e) => (w, .error e)
  | (w, .ok ()) => match suggestCore S w t segment with
    | .error e => (w, .error e)
    | .ok (word, f) => (if tune then addFreq w t word f none else w, .ok f)

/-- jieba/__init__.py:427: the frequency to use -/
def addWordFreq (S : Sys F) (w : World) (t : Nat) (word : Str) : FreqArg → Except PyErr Int
  | .int n => .ok n
  | .str s => match pyInt s with
    | some n => .ok n
    | none => .error .valueError
  | .none => suggestWord S w t word

/-- jieba/__init__.py:418-437 `add_word` -/
def addWord (S : Sys F) (w : World) (t : Nat) (word : PyText) (freq : FreqArg) (tag : Option Str) (io : Bool) : Res Unit :=
  match checkInit S w t io with
  | (w, .error e) => (w, .error e)
  | (w, .ok ()) =>
    let word := strdecode S.gbk word
    match addWordFreq S w t word freq with
    | .error e => (w, .error e)
    | .ok f => (addFreq w t word f tag, .ok ())

/-- jieba/__init__.py:439-443 `del_word` -/
def delWord (S : Sys F) (w : World) (t : Nat) (word : PyText) (io : Bool) : Res Unit := addWord S w t word (.int 0) none io

/-- The frequency argument that `load_userdict` passes on, jieba/__init__.py:411-416. -/
def fieldArg : Option Str → FreqArg
  | some f => .str f
  | none => .none

/-- jieba/__init__.py:401-416: the body of the loop of `load_userdict`. -/
def userdictLine (S : Sys F) (w : World) (t : Nat) (ln : PyText) : Res Unit :=
  match userLine ln with
  | none => (w, .error .valueError)
  | some line =>
    if line = [] then (w, .ok ())
    else match userFields line with
      | none => (w, .error .attributeError)
      | some (word, freq, tag) => addWord S w t (.str word) (fieldArg freq) tag true

/-- jieba/__init__.py:401-416: the loop of `load_userdict`. -/
def userdictLoop (S : Sys F) (t : Nat) : World → List PyText → Res Unit
  | w, [] => (w, .ok ())
  | w, ln :: lns => match userdictLine S w t ln with
    | (w, .error e) => (w, .error e)
    | (w, .ok ()) => userdictLoop S t w lns

/-- Argument of `load_userdict`: a path, an open binary file, or another iterable of lines. jieba/__init__.py:380, 396-401. -/
inductive UserDict where
  | path (p : Path)
  | file (data : Bytes)
  | lines (l : List PyText)

/-- jieba/__init__.py:380-416 `load_userdict` -/
def loadUserdict (S : Sys F) (w : World) (t : Nat) (f : UserDict) (io : Bool) : Res Unit :=
  match checkInit S w t io with
  | (w, .error e) => (w, .error e)
  | (w, .ok ()) => match f with
    | .path p => match w.files p with
      | none => (w, .error .fileNotFound)
      | some f => userdictLoop S t w ((fileLines f.data).map .bytes)
    | .file data => userdictLoop S t w ((fileLines data).map .bytes)
    | .lines l => userdictLoop S t w l

/-! ## Histories -/

/-- Anything that can happen between two points of time: calls on a tokenizer, and changes of files from outside.
jieba/__init__.py:93, 289, 380, 418, 439, 445, 509; The process around the calls; there is no such code in the repository. -/
inductive Op where
  | addWord (t : Nat) (word : PyText) (freq : FreqArg) (tag : Option Str) (io : Bool)
  | delWord (t : Nat) (word : PyText) (io : Bool)
  | suggestFreq (t : Nat) (segment : Segment) (tune io : Bool)
  | loadUserdict (t : Nat) (f : UserDict) (io : Bool)
  | cut (t : Nat) (cutAllFlag hmmFlag : Bool) (sentence : PyText) (io : Bool)
  | init (t : Nat) (dictionary : Option Path) (io : Bool)
  | setDictionary (t : Nat) (path : Path)
  /-- `Tokenizer(dictionary)` stored at index `t` (paths are made absolute) -/
  | new (t : Nat) (dictionary : Option Path)
  /-- a file is written from outside -/
  | write (p : Path) (data : Bytes)
  | remove (p : Path)
  /-- time passes -/
  | tick

/-- The world after an operation (the caller catches exceptions).
jieba/__init__.py:93, 289, 380, 418, 439, 445, 509; The process around the calls; there is no such code in the repository. -/
def Op.run (S : Sys F) (w : World) : Op → World
  | .addWord t word freq tag io => (Jieba.addWord S w t word freq tag io).1
  | .delWord t word io => (Jieba.delWord S w t word io).1
  | .suggestFreq t segment tune io => (Jieba.suggestFreq S w t segment tune io).1
  | .loadUserdict t f io => (Jieba.loadUserdict S w t f io).1
  | .cut t ca hm s io => (cutW S w t ca hm s io).1
  | .init t d io => (initTok S w t d io).1
  | .setDictionary t p => (Jieba.setDictionary S w t p).1
  | .new t d => w.setTok t (Tok.new (d.map S.abspath))
  | .write p data => w.setFile p (some ⟨data, w.clock⟩)
  | .remove p => w.setFile p none
  | .tick => { w with clock := w.clock + 1 }

/-- The world after a history. The process around the calls; there is no such code in the repository. -/
def runOps (S : Sys F) (w : World) (ops : List Op) : World := ops.foldl (Op.run S) w

end Jieba
