import Verif.Model.PosCalls
import Verif.Model.TextRank
/-!
# jieba/analyse/tfidf.py and jieba/analyse/textrank.py — several threads that extract keywords

As `Model/PosCalls`, with calls of `extract_tags`, `textrank`, `set_stop_words` and `set_idf_path` in addition.  What a keyword
extractor keeps in its attributes is shared: the stop words, the filter `pos_filt` that each call of `textrank` sets anew, and the
IDF table.  An attribute that holds a `dict` holds a reference, here an index into `dicts`.

Simplifications: as in `Model/Calls` and `Model/PosLazy`; `cm`, `g`, `freq` and the list of tokens are local to a call; one operation
on a `dict` or a `set` is one access.
-/

namespace Jieba.Analyse
open Jieba Jieba.Pos Jieba.Pos.Steps Co

namespace Steps

/-- A `TFIDF` object, tfidf.py:61-66, with its `IDFLoader`, tfidf.py:37-42 (`path`, `lidf`, `lmedian`). -/
structure TfObj (F : Type) where
  tok : Nat
  pos : Nat
  stop : List Str
  path : Path
  lidf : Nat
  lmedian : F
  idf : Nat
  median : F

/-- A `TextRank` object, textrank.py:59-63. -/
structure RkObj where
  pos : Nat
  stop : List Str
  span : Nat
  filt : List Str

/-- The state of the process: tokenizers and files, the extractors, the IDF tables and how many of these there are.
The process around the calls; there is no such code in the repository. -/
structure KWorld (F : Type) where
  p : PWorld
  tf : Nat → TfObj F
  rk : Nat → RkObj
  dicts : Nat → PyDict Str F
  next : Nat

/-- The attributes of TF-IDF extractor `e` become `x` (jieba/analyse/tfidf.py:59-73). -/
def KWorld.setTf {F : Type} (w : KWorld F) (e : Nat) (x : TfObj F) : KWorld F := { w with tf := fun i => if i = e then x else w.tf i }

/-- The attributes of TextRank extractor `e` become `x` (jieba/analyse/textrank.py:57-63). -/
def KWorld.setRk {F : Type} (w : KWorld F) (e : Nat) (x : RkObj) : KWorld F := { w with rk := fun i => if i = e then x else w.rk i }

/-- The IDF table `r` becomes `d` (jieba/analyse/tfidf.py:48-51). -/
def KWorld.setDict {F : Type} (w : KWorld F) (r : Nat) (d : PyDict Str F) : KWorld F := { w with dicts := fun i => if i = r then d else w.dicts i }

/-- A program of the tokenizers. Not part of the code. -/
def onP {F α β : Type} : Co PWorld α β → Co (KWorld F) α β
  | .ret b => .ret b
  | .raise e => .raise e
  | .yield a k => .yield a (onP k)
  | .act f k => .act (fun w => { w with p := f w.p }) (fun w => onP (k w.p))

variable {F : Type} [LinearOrder F] {α : Type}

/-! ## `extract_tags` -/

/-- tfidf.py:101-103: one token that has passed the filter for flags -/
def countL (K : KSys F) (e : Nat) (k : Key) (freq : PyDict Key F) : Co (KWorld F) α (PyDict Key F) :=
  if (stripBy isSpace k.text).length < 2 then .ret freq
  else do
    let stop ← get (fun w => (w.tf e).stop)
    .ret (if K.lower k.text ∈ stop then freq
      else freq.set k (K.pos.sys.A.add ((freq.get? k).getD K.pos.sys.A.zero) (K.pos.sys.A.ofInt 1)))

/-- tfidf.py:88-103: counting the accepted tokens while the text is segmented -/
def countsL (K : KSys F) (e : Nat) (sentence : PyText) (allow : List Str) (withFlag io : Bool) : Co (KWorld F) α (PyDict Key F) :=
  if allow = [] then do
    let t ← get (fun w => (w.tf e).tok)
    Co.forIn (onP (Lazy.cutL K.pos.sys t false true sentence io).onWorld) (fun w freq => countL K e (.word w) freq) []
  else do
    let k ← get (fun w => (w.tf e).pos)
    Co.forIn (onP (cutL K.pos k true sentence io))
      (fun x freq => if x.2 ∈ allow then countL K e (if withFlag then .pair x.1 x.2 else .word x.1) freq else .ret freq) []

/-- tfidf.py:105-107; `self.idf_freq`, `self.median_idf` and the look-up in the table are three accesses -/
def scaleL (A : Arith F) (e : Nat) (total : F) : PyDict Key F → Co (KWorld F) α (PyDict Key F)
  | [] => .ret []
  | (k, v) :: d => do
    let r ← get (fun w => (w.tf e).idf)
    let m ← get (fun w => (w.tf e).median)
    let x ← get (fun w => (PyDict.get? (w.dicts r) k.text).getD m)
    let q ← lift (pyDiv A x total)
    let d ← scaleL A e total d
    .ret ((k, A.mul v q) :: d)

/-- tfidf.py:75-116 `extract_tags` of TF-IDF extractor `e` -/
def tagsL (K : KSys F) (e : Nat) (sentence : PyText) (topK : Option Int) (withWeight : Bool) (allow : List Str) (withFlag io : Bool) :
    Co (KWorld F) α (List (Key × Option F)) := do
  let freq ← countsL K e sentence allow withFlag io
  let freq ← scaleL K.pos.sys.A e (freq.values.foldl K.pos.sys.A.add K.pos.sys.A.zero) freq
  lift ((rankTags freq withWeight).map (topOf topK))

/-! ## `textrank` -/

/-- textrank.py:65-67 `pairfilter` -/
def pairfilterL (K : KSys F) (e : Nat) (wp : Pair) : Co (KWorld F) α Bool := do
  let filt ← get (fun w => (w.rk e).filt)
  if wp.2 ∈ filt ∧ 2 ≤ (stripBy isSpace wp.1).length then get (fun w => !decide (K.lower wp.1 ∈ (w.rk e).stop)) else .ret false

/-- textrank.py:87-95: the words after `wp` -/
def windowL (K : KSys F) (e : Nat) (mk : Pair → Key) (wp : Pair) : List Pair → PyDict (Key × Key) Nat → Co (KWorld F) α (PyDict (Key × Key) Nat)
  | [], cm => .ret cm
  | wj :: ws, cm => do
    let ok ← pairfilterL K e wj
    windowL K e mk wp ws (if ok then bump cm (mk wp, mk wj) else cm)

/-- textrank.py:85-95 -/
def cooccurL (K : KSys F) (e : Nat) (mk : Pair → Key) : List Pair → PyDict (Key × Key) Nat → Co (KWorld F) α (PyDict (Key × Key) Nat)
  | [], cm => .ret cm
  | wp :: rest, cm => do
    let ok ← pairfilterL K e wp
    if ok then do
      let span ← get (fun w => (w.rk e).span)
      let cm ← windowL K e mk wp (rest.take (span - 1)) cm
      cooccurL K e mk rest cm
    else cooccurL K e mk rest cm

/-- textrank.py:69-108 `textrank` of TextRank extractor `e` -/
def rankL (R : RSys F) (e : Nat) (sentence : PyText) (topK : Option Int) (withWeight : Bool) (allow : List Str) (withFlag io : Bool) :
    Co (KWorld F) α (List (Key × Option F)) := do
  .act (fun w => w.setRk e { w.rk e with filt := allow }) (fun _ => .ret ())
  let k ← get (fun w => (w.rk e).pos)
  let words ← Co.forIn (onP (cutL R.k.pos k true sentence io)) (fun x ws => .ret (ws ++ [x])) []
  let cm ← cooccurL R.k e (nodeOf allow withFlag) words []
  let ws ← lift (rank R (buildGraph cm))
  lift ((rankTags ws withWeight).map (topOf topK))

/-! ## `set_stop_words` and `set_idf_path` -/

/-- Whose stop words. jieba/analyse/tfidf.py:23-29. -/
inductive Extractor where
  | tf (e : Nat)
  | rk (e : Nat)
  deriving DecidableEq

/-- `self.stop_words.add(line)`; jieba/analyse/tfidf.py:29. -/
def addStop (x : Extractor) (line : Str) (w : KWorld F) : KWorld F :=
  match x with
  | .tf e => w.setTf e { w.tf e with stop := if line ∈ (w.tf e).stop then (w.tf e).stop else (w.tf e).stop ++ [line] }
  | .rk e => w.setRk e { w.rk e with stop := if line ∈ (w.rk e).stop then (w.rk e).stop else (w.rk e).stop ++ [line] }

/-- tfidf.py:28-29 -/
def addStopsL (x : Extractor) : List Str → Co (KWorld F) α Unit
  | [] => .ret ()
  | l :: ls => do
    .act (addStop x l) (fun _ => .ret ())
    addStopsL x ls

/-- tfidf.py:23-29 `set_stop_words` -/
def stopL (K : KSys F) (x : Extractor) (path : Path) : Co (KWorld F) α Unit := do
  match ← get (fun w => w.p.w.files (K.pos.sys.abspath path)) with
  | none => .raise .exception
  | some _ =>
    match ← get (fun w => w.p.w.files (K.pos.sys.abspath path)) with
    | none => .raise .fileNotFound
    | some f =>
      match utf8Decode f.data with
      | none => .raise .unicodeDecodeError
      | some content => addStopsL x (splitlines content)

/-- tfidf.py:49-51 -/
def idfLinesL (K : KSys F) (e : Nat) : List Str → Co (KWorld F) α Unit
  | [] => .ret ()
  | l :: ls =>
    match idfLine K l with
    | none => .raise .valueError
    | some (word, x) => do
      .act (fun w => w.setDict (w.tf e).lidf ((w.dicts (w.tf e).lidf).set word x)) (fun _ => .ret ())
      idfLinesL K e ls

/-- tfidf.py:44-53 `set_new_path` -/
def newPathL (K : KSys F) (e : Nat) (path : Path) : Co (KWorld F) α Unit := do
  let old ← get (fun w => (w.tf e).path)
  if old = path then .ret ()
  else do
    .act (fun w => w.setTf e { w.tf e with path := path }) (fun _ => .ret ())
    match ← get (fun w => w.p.w.files path) with
    | none => .raise .fileNotFound
    | some f =>
      match utf8Decode f.data with
      | none => .raise .unicodeDecodeError
      | some content => do
        .act (fun w => { (w.setTf e { w.tf e with lidf := w.next }).setDict w.next [] with next := w.next + 1 }) (fun _ => .ret ())
        idfLinesL K e (splitlines content)
        let vs ← get (fun w => (w.dicts (w.tf e).lidf).values)
        let n ← get (fun w => (w.dicts (w.tf e).lidf).length)
        match (sortBy (fun a b => decide (a ≤ b)) vs)[n / 2]? with
        | none => .raise .indexError
        | some m => .act (fun w => w.setTf e { w.tf e with lmedian := m }) (fun _ => .ret ())

/-- tfidf.py:68-73 `set_idf_path`, with tfidf.py:55-56 -/
def idfL (K : KSys F) (e : Nat) (path : Path) : Co (KWorld F) α Unit := do
  match ← get (fun w => w.p.w.files (K.pos.sys.abspath path)) with
  | none => .raise .exception
  | some _ => do
    newPathL K e (K.pos.sys.abspath path)
    let r ← get (fun w => (w.tf e).lidf)
    let m ← get (fun w => (w.tf e).lmedian)
    .act (fun w => w.setTf e { w.tf e with idf := r }) (fun _ => .ret ())
    .act (fun w => w.setTf e { w.tf e with median := m }) (fun _ => .ret ())

/-! ## Several calls at the same time -/

/-- A call. jieba/analyse/tfidf.py:23, 68, 75 and jieba/analyse/textrank.py:69. -/
inductive KCall where
  | tok (c : PCall)
  | tags (e : Nat) (sentence : PyText) (topK : Option Int) (withWeight : Bool) (allow : List Str) (withFlag : Bool)
  | rank (e : Nat) (sentence : PyText) (topK : Option Int) (withWeight : Bool) (allow : List Str) (withFlag : Bool)
  | stop (x : Extractor) (path : Path)
  | idf (e : Nat) (path : Path)

/-- What a call returns. jieba/analyse/tfidf.py:113-116 and jieba/analyse/textrank.py:105-108. -/
inductive KResult (F : Type) where
  | tok (r : Option Int)
  | keys (l : List (Key × Option F))
  | none

/-- What the call does; the tokenizer calls are on tokenizer `t`. jieba/analyse/tfidf.py:23-29, 68-116 and jieba/analyse/textrank.py:69-108. -/
def KCall.prog (R : RSys F) (t : Nat) (io : Bool) : KCall → Co (KWorld F) Yield (KResult F)
  | .tok c => do .ret (.tok (← onP (c.prog R.k.pos t io)))
  | .tags e s topK ww allow wf => do .ret (.keys (← tagsL R.k e s topK ww allow wf io))
  | .rank e s topK ww allow wf => do .ret (.keys (← rankL R e s topK ww allow wf io))
  | .stop x path => do stopL R.k x path; .ret .none
  | .idf e path => do idfL R.k e path; .ret .none

/-- A process in which any number of calls are under way. The process around the calls; there is no such code in the repository. -/
structure KPool (F : Type) where
  w : KWorld F
  th : Nat → Co (KWorld F) Yield (KResult F)
  out : Nat → List Yield

/-- Call `i` makes one access to the state, or yields one value. The process around the calls; there is no such code in the repository. -/
def KPool.step (p : KPool F) (i : Nat) : KPool F :=
  match p.th i with
  | .ret _ => p
  | .raise _ => p
  | .yield a k => { p with th := fun j => if j = i then k else p.th j, out := fun j => if j = i then p.out i ++ [a] else p.out j }
  | .act f k => { p with w := f p.w, th := fun j => if j = i then k p.w else p.th j }

/-- An execution: the calls named in the list move one after another. The process around the calls; there is no such code in the repository. -/
def KPool.run (p : KPool F) (sched : List Nat) : KPool F := sched.foldl KPool.step p

/-- The process at the beginning: the calls are about to start. The process around the calls; there is no such code in the repository. -/
def KPool.start (R : RSys F) (t : Nat) (io : Bool) (w : KWorld F) (calls : List KCall) : KPool F :=
  ⟨w, fun i => match calls[i]? with
    | some c => c.prog R t io
    | none => .ret .none, fun _ => []⟩

end Steps
end Jieba.Analyse
