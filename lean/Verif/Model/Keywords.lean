import Verif.Model.PosWorld
/-!
# jieba/analyse/tfidf.py — keyword extraction with TF-IDF

`str.lower` and `float` of a string are parameters.  Sorting is a stable insertion sort, which gives the same result as
Python's `sorted`.
-/

namespace Jieba.Analyse
open Jieba Jieba.Pos

/-- Everything fixed: that of the POS tokenizers, `str.lower` (which leaves no ASCII capital) and `float(s)` (`none`: ValueError).
Used at jieba/analyse/tfidf.py:51, 101 and jieba/analyse/textrank.py:67. -/
structure KSys (F : Type _) where
  pos : PSys F
  lower : Str → Str
  float : Str → Option F
  lower_upper : ∀ s, ∀ c ∈ lower s, isUpper c = false

/-- What `freq` and the result contain: words, or `pair` objects (compared by word and flag, jieba/posseg/__init__.py:68-72). -/
inductive Key where
  | word (w : Str)
  | pair (w flag : Str)
  deriving DecidableEq

/-- The word itself (`kw`, `wc`). jieba/analyse/tfidf.py:100, 106. -/
def Key.text : Key → Str
  | .word w => w
  | .pair w _ => w

/-! ## `sorted` -/

/-- Insert before the first element that is not better.
Part of `sorted`, used at jieba/analyse/tfidf.py:52, 110, 112 and jieba/analyse/textrank.py:34, 101, 103. -/
def insertBy {α : Type _} (le : α → α → Bool) (x : α) : List α → List α
  | [] => [x]
  | y :: l => if le x y then x :: y :: l else y :: insertBy le x l

/-- A stable sort. Python itself, used at jieba/analyse/tfidf.py:52, 110, 112 and jieba/analyse/textrank.py:34, 101, 103. -/
def sortBy {α : Type _} (le : α → α → Bool) : List α → List α
  | [] => []
  | x :: l => insertBy le x (sortBy le l)

variable {F : Type _} [LinearOrder F]

/-- `[key(x) for x in l]`, paired with the elements. Part of `sorted`, used at jieba/analyse/tfidf.py:110, 112 and jieba/analyse/textrank.py:101, 103. -/
def withKeys {α : Type _} (key : α → Except PyErr F) : List α → Except PyErr (List (α × F))
  | [] => .ok []
  | x :: l => match key x with
    | .error e => .error e
    | .ok k => match withKeys key l with
      | .error e => .error e
      | .ok r => .ok ((x, k) :: r)

/-- `sorted(l, key=key, reverse=True)` (which keeps the order of elements with equal keys).
Python itself, used at jieba/analyse/tfidf.py:110, 112 and jieba/analyse/textrank.py:101, 103. -/
def pySortedDesc {α : Type _} (key : α → Except PyErr F) (l : List α) : Except PyErr (List α) :=
  match withKeys key l with
  | .error e => .error e
  | .ok r => .ok ((sortBy (fun a b => decide (b.2 ≤ a.2)) r).map Prod.fst)

/-- `l[:k]`; Python itself, used at jieba/analyse/tfidf.py:114 and jieba/analyse/textrank.py:106. -/
def sliceTo {α : Type _} (l : List α) (k : Int) : List α :=
  if 0 ≤ k then l.take k.toNat else l.take (l.length - (-k).toNat)

/-- The end of `extract_tags` and `textrank`, tfidf.py:113-116: `topK` is `None` or a number. -/
def topOf {α : Type _} (topK : Option Int) (tags : List α) : List α :=
  match topK with
  | none => tags
  | some k => if k = 0 then tags else sliceTo tags k

/-- `d[k]`; Python itself, used at jieba/analyse/tfidf.py:53, 112 and jieba/analyse/textrank.py:103. -/
def getItem {K V : Type _} [DecidableEq K] (d : PyDict K V) (k : K) : Except PyErr V :=
  match d.get? k with
  | none => .error .keyError
  | some v => .ok v

/-- tfidf.py:109-112, textrank.py:100-103 -/
def rankTags (d : PyDict Key F) (withWeight : Bool) : Except PyErr (List (Key × Option F)) :=
  if withWeight then (pySortedDesc (fun e => .ok e.2) d).map (fun l => l.map (fun e => (e.1, some e.2)))
  else (pySortedDesc (getItem d) d.keys).map (fun l => l.map (fun k => (k, none)))

/-- `x / y`; Python itself, used at jieba/analyse/tfidf.py:107 and jieba/analyse/textrank.py:39, 52. -/
def pyDiv (A : Arith F) (x y : F) : Except PyErr F := if y = A.zero then .error .zeroDivisionError else .ok (A.div x y)

/-! ## IDF files -/

/-- `str.splitlines()`; Python itself, used at jieba/analyse/tfidf.py:28, 49. -/
def splitlines (s : Str) : List Str := go s []
where
  go : Str → Str → List Str
    | [], acc => if acc = [] then [] else [acc]
    | 0x0D :: 0x0A :: s, acc => acc :: go s []
    | c :: s, acc => if isLineBreak c then acc :: go s [] else go s (acc ++ [c])

/-- An `IDFLoader`, tfidf.py:35-56 -/
structure Loader (F : Type _) where
  path : Path
  freq : PyDict Str F
  median : F

/-- tfidf.py:50-51: one line; `none`: ValueError -/
def idfLine (K : KSys F) (line : Str) : Option (Str × F) :=
  match splitOn1 0x20 (stripBy isSpace line) with
  | [word, freq] => (K.float freq).map (fun x => (word, x))
  | _ => none

/-- tfidf.py:49-51: with the table at the point where it stops -/
def idfLoop (K : KSys F) : List Str → PyDict Str F → PyDict Str F × Except PyErr Unit
  | [], d => (d, .ok ())
  | l :: ls, d => match idfLine K l with
    | none => (d, .error .valueError)
    | some (word, x) => idfLoop K ls (d.set word x)

/-- tfidf.py:44-53 `set_new_path`, for a file with contents `data` -/
def setNewPath (K : KSys F) (L : Loader F) (path : Path) (data : Bytes) : Loader F × Except PyErr Unit :=
  if L.path = path then (L, .ok ())
  else
    let L := { L with path := path }
    match utf8Decode data with
    | none => (L, .error .unicodeDecodeError)
    | some content =>
      match idfLoop K (splitlines content) [] with
      | (d, .error e) => ({ L with freq := d }, .error e)
      | (d, .ok ()) =>
        match (sortBy (fun a b => decide (a ≤ b)) d.values)[d.length / 2]? with
        | none => ({ L with freq := d }, .error .indexError)
        | some m => ({ L with freq := d, median := m }, .ok ())

/-! ## The extractor -/

/-- A `TFIDF` object, tfidf.py:61-66; `tok` and `pos` are the indices of its tokenizers, `stop` the elements of the stop word set. -/
structure Tfidf (F : Type _) where
  tok : Nat
  pos : Nat
  stop : List Str
  loader : Loader F
  idf : PyDict Str F
  median : F

/-- tfidf.py:68-73 `set_idf_path` -/
def setIdfPath (K : KSys F) (w : World) (x : Tfidf F) (path : Path) : Tfidf F × Except PyErr Unit :=
  match w.files (K.pos.sys.abspath path) with
  | none => (x, .error .exception)
  | some f => match setNewPath K x.loader (K.pos.sys.abspath path) f.data with
    | (L, .error e) => ({ x with loader := L }, .error e)
    | (L, .ok ()) => ({ x with loader := L, idf := L.freq, median := L.median }, .ok ())

/-- tfidf.py:23-29 `set_stop_words`: the stop words afterwards -/
def setStopWords (K : KSys F) (w : World) (stop : List Str) (path : Path) : List Str × Except PyErr Unit :=
  match w.files (K.pos.sys.abspath path) with
  | none => (stop, .error .exception)
  | some f => match utf8Decode f.data with
    | none => (stop, .error .unicodeDecodeError)
    | some content => ((splitlines content).foldl (fun s l => if l ∈ s then s else s ++ [l]) stop, .ok ())

/-- tfidf.py:101: not skipped -/
def keeps (K : KSys F) (stop : List Str) (k : Key) : Bool :=
  !(decide ((stripBy isSpace k.text).length < 2) || decide (K.lower k.text ∈ stop))

/-- tfidf.py:103 for all accepted tokens -/
def countKeys (A : Arith F) (ks : List Key) : PyDict Key F :=
  ks.foldl (fun d k => d.set k (A.add ((d.get? k).getD A.zero) (A.ofInt 1))) []

/-- tfidf.py:105-107 -/
def scaleBy (A : Arith F) (idf : PyDict Str F) (median total : F) : PyDict Key F → Except PyErr (PyDict Key F)
  | [] => .ok []
  | (k, v) :: d => match pyDiv A ((idf.get? k.text).getD median) total with
    | .error e => .error e
    | .ok q => match scaleBy A idf median total d with
      | .error e => .error e
      | .ok d => .ok ((k, A.mul v q) :: d)

/-- tfidf.py:88-100: the tokens with an allowed flag, in the form in which they are counted -/
def candidates (K : KSys F) (p : PWorld) (tok pos : Nat) (sentence : PyText) (allow : List Str) (withFlag io : Bool) :
    PWorld × Gen Key :=
  if allow = [] then
    let r := cutW K.pos.sys p.w tok false true sentence io
    ({ p with w := r.1 }, r.2.mapOut (fun w => [.word w]))
  else
    let r := cutPW K.pos p pos true sentence io
    (r.1, r.2.mapOut (fun t => if t.2 ∈ allow then [if withFlag then .pair t.1 t.2 else .word t.1] else []))

/-- tfidf.py:75-116 `extract_tags` -/
def extractTags (K : KSys F) (p : PWorld) (x : Tfidf F) (sentence : PyText) (topK : Option Int) (withWeight : Bool)
    (allow : List Str) (withFlag io : Bool) : PWorld × Except PyErr (List (Key × Option F)) :=
  let r := candidates K p x.tok x.pos sentence allow withFlag io
  (r.1, match r.2.err with
    | some e => .error e
    | none =>
      let freq := countKeys K.pos.sys.A (r.2.out.filter (keeps K x.stop))
      match scaleBy K.pos.sys.A x.idf x.median (freq.values.foldl K.pos.sys.A.add K.pos.sys.A.zero) freq with
      | .error e => .error e
      | .ok freq => (rankTags freq withWeight).map (topOf topK))

end Jieba.Analyse
