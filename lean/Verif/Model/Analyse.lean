import Verif.Model.TextRank
/-!
# jieba/analyse/__init__.py — the module with its two extractors

`jieba.dt` is tokenizer 0 and `jieba.posseg.dt` is POS tokenizer 0, as in `Model/Main`.
-/

namespace Jieba.Analyse
open Jieba Jieba.Pos

/-- jieba/analyse/tfidf.py:17-21 `STOP_WORDS` -/
def stopWords : List Str :=
  ["the", "of", "is", "and", "to", "in", "that", "we", "for", "an", "are", "by", "be", "as", "on", "with", "can", "if", "from", "which",
    "you", "it", "this", "then", "at", "have", "all", "not", "one", "has", "or"].map (fun s => lit s.toList)

/-- `default_tfidf` and `default_textrank`; jieba/analyse/__init__.py:9-10. -/
structure Extractors (F : Type _) where
  tfidf : Tfidf F
  textrank : TextRank

variable {F : Type _} [LinearOrder F]

/-- jieba/analyse/tfidf.py:61-66 `TFIDF()`, for an idf.txt with contents `data` -/
def newTfidf (K : KSys F) (defaultIdf : Path) (data : Bytes) : Except PyErr (Tfidf F) :=
  match setNewPath K ⟨[], [], K.pos.sys.A.zero⟩ defaultIdf data with
  | (_, .error e) => .error e
  | (L, .ok ()) => .ok ⟨0, 0, stopWords, L, L.freq, L.median⟩

/-- jieba/analyse/textrank.py:59-63 `TextRank()` -/
def newTextRank : TextRank := ⟨0, stopWords, 5⟩

/-- jieba/analyse/__init__.py:9-10 -/
def importAnalyse (K : KSys F) (defaultIdf : Path) (data : Bytes) : Except PyErr (Extractors F) :=
  match newTfidf K defaultIdf data with
  | .error e => .error e
  | .ok x => .ok ⟨x, newTextRank⟩

/-- jieba/analyse/__init__.py:16-18 `set_stop_words` -/
def setBothStopWords (K : KSys F) (w : World) (x : Extractors F) (path : Path) : Extractors F × Except PyErr Unit :=
  match setStopWords K w x.tfidf.stop path with
  | (stop, .error e) => ({ x with tfidf := { x.tfidf with stop := stop } }, .error e)
  | (stop, .ok ()) =>
    let x := { x with tfidf := { x.tfidf with stop := stop } }
    let r := setStopWords K w x.textrank.stop path
    ({ x with textrank := { x.textrank with stop := r.1 } }, r.2)

/-- jieba/analyse/__init__.py:13 `set_idf_path` -/
def setModuleIdf (K : KSys F) (w : World) (x : Extractors F) (path : Path) : Extractors F × Except PyErr Unit :=
  let r := setIdfPath K w x.tfidf path
  ({ x with tfidf := r.1 }, r.2)

/-- A call of a function of the module, with the files at the time. jieba/analyse/__init__.py:13, 16-18. -/
inductive ACall where
  | stopWords (w : World) (path : Path)
  | idf (w : World) (path : Path)

/-- The effect of a call (jieba/analyse/__init__.py:13, 16-18); the caller catches exceptions. -/
def ACall.run (K : KSys F) (x : Extractors F) : ACall → Extractors F
  | .stopWords w path => (setBothStopWords K w x path).1
  | .idf w path => (setModuleIdf K w x path).1

/-- The effect of calls one after another (jieba/analyse/__init__.py:13, 16-18). -/
def runACalls (K : KSys F) (x : Extractors F) (calls : List ACall) : Extractors F := calls.foldl (ACall.run K) x

end Jieba.Analyse
