import Verif.Model.Codec
/-!
# jieba/lac_small — segmentation with a neural network (`use_paddle=True`)

The network is an arbitrary function `net` from the word ids of a sentence to the label ids (or an exception); it is fed with the
ids and returns them unchanged as `words`, and both results have the offsets `[0, n]`.  numpy, paddle and the files of the model
are not modelled; nor is the conversion of ids to 64-bit integers (predict.py:53, 70), which would raise or wrap only for
ids outside that range.  `parse_padding_result` (utils.py:76-119) is not called by anything and is not modelled.
-/

namespace Jieba.Paddle
open Jieba

/-- `str(n)` for a natural number. Python itself, used at jieba/lac_small/utils.py:44, 47, 49. -/
def strNat (n : Nat) : Str :=
  if n < 10 then [0x30 + n] else strNat (n / 10) ++ [0x30 + n % 10]
termination_by n
decreasing_by omega

/-- `str(n)`; Python itself, used at jieba/lac_small/utils.py:44, 47, 49. -/
def strInt : Int → Str
  | .ofNat n => strNat n
  | .negSucc n => 0x2D :: strNat (n + 1)

/-- jieba/lac_small/reader_small.py:24-48 `load_kv_dict` on the lines of the file (read in text mode); `conv` is `value_func`,
`none` being ValueError. -/
def loadKV {V : Type} (reverse : Bool) (conv : Str → Option V) : List Str → PyDict Str V → Except PyErr (PyDict Str V)
  | [], d => .ok d
  | line :: lines, d =>
    match splitOn1 0x09 (stripBy (· == 0x0A) line) with
    | [a, b] =>
      let key := if reverse then b else a
      let value := if reverse then a else b
      if d.has key then .error .keyError
      else match conv value with
        | none => .error .valueError
        | some v => loadKV reverse conv lines (d.set key v)
    | _ => loadKV reverse conv lines d

/-- jieba/lac_small/reader_small.py:50-63: the tables that are used for prediction. -/
structure Dataset where
  word2id : PyDict Str Int
  id2word : PyDict Str Str
  id2label : PyDict Str Str

/-- jieba/lac_small/reader_small.py:52-63 `Dataset()`, given the lines of word.dic and tag.dic. -/
def Dataset.load (words tags : List Str) : Except PyErr Dataset := do
  let word2id ← loadKV true pyInt words []
  let id2word ← loadKV false some words []
  let _ ← loadKV true pyInt tags []
  let id2label ← loadKV false some tags []
  .ok ⟨word2id, id2word, id2label⟩

/-- 'OOV'; jieba/lac_small/utils.py:44, jieba/lac_small/reader_small.py:80. -/
def oov : Str := [0x4F, 0x4F, 0x56]

/-- `d[k]`; Python itself, used at jieba/lac_small/utils.py:44, 47, 49 and jieba/lac_small/reader_small.py:81. -/
def index {K V : Type} [DecidableEq K] (d : PyDict K V) (k : K) : Except PyErr V :=
  match d.get? k with
  | some v => .ok v
  | none => .error .keyError

/-- jieba/lac_small/reader_small.py:75-83 `word_to_ids`; iterating over a `str` gives its characters. -/
def wordToIds (D : Dataset) : Str → Except PyErr (List Int)
  | [] => .ok []
  | c :: s => do
    let i ← index D.word2id (if D.word2id.has [c] then [c] else oov)
    let is ← wordToIds D s
    .ok (i :: is)

/-- jieba/lac_small/reader_small.py:95-98 `get_vars` -/
def getVars (D : Dataset) (s : Str) : Except PyErr (List Int) := wordToIds D (stripBy isSpace s)

/-- jieba/lac_small/utils.py:42-47: the pieces of text of a sentence. -/
def decodeWords (D : Dataset) : List Int → Except PyErr (List Str)
  | [] => .ok []
  | i :: is => do
    let w ← index D.id2word (strInt i)
    let ws ← decodeWords D is
    .ok ((if w = oov then [0x20] else w) :: ws)

/-- jieba/lac_small/utils.py:48-50: the labels of a sentence. -/
def decodeLabels (D : Dataset) : List Int → Except PyErr (List Str)
  | [] => .ok []
  | i :: is => do
    let t ← index D.id2label (strInt i)
    let ts ← decodeLabels D is
    .ok (t :: ts)

/-- `tag.split('-')[0]`; jieba/lac_small/utils.py:59, 65. -/
def tagHead (tag : Str) : Str := tag.takeWhile (· ≠ 0x2D)

/-- jieba/lac_small/utils.py:63: does a new word begin here? -/
def begins (prev tag : Str) : Bool := [0x2D, 0x42].isSuffixOf tag || (tag == [0x4F] && prev != [0x4F])

/-- jieba/lac_small/utils.py:52-69: the loop over the tags; `sent` and `tags` are what is left of the two lists, `prev` is
`tags[ind - 1]`.  The result: `sent_out`, `tags_out`, `parital_word`. -/
def parseLoop : List Str → List Str → Str → Str → List Str → List Str → Except PyErr (List Str × List Str × Str)
  | _, [], _, word, sentOut, tagsOut => .ok (sentOut, tagsOut, word)
  | [], _ :: _, _, _, _, _ => .error .indexError
  | w :: sent, tag :: tags, prev, word, sentOut, tagsOut =>
    if word = [] then parseLoop sent tags tag w sentOut (tagsOut ++ [tagHead tag])
    else if begins prev tag then parseLoop sent tags tag w (sentOut ++ [word]) (tagsOut ++ [tagHead tag])
    else parseLoop sent tags tag (word ++ w) sentOut tagsOut

/-- jieba/lac_small/utils.py:52-73: one sentence. -/
def parseSentence (sent tags : List Str) : Except PyErr (List Str × List Str) := do
  let (sentOut, tagsOut, word) ← parseLoop sent tags [] [] [] []
  .ok (if sentOut.length < tagsOut.length then sentOut ++ [word] else sentOut, tagsOut)

/-- jieba/lac_small/utils.py:40-74: the loop over the sentences of the batch; `last` is the result for the previous one. -/
def parseBatch (D : Dataset) (words labels : List Int) :
    List Nat → Option (List Str × List Str) → Except PyErr (List Str × List Str)
  | b :: e :: offsets, _ => do
    let sent ← decodeWords D (slice words b e)
    let tags ← decodeLabels D (slice labels b e)
    let r ← parseSentence sent tags
    parseBatch D words labels (e :: offsets) (some r)
  | _, some r => .ok r
  | _, none => .error .unboundLocal

/-- jieba/lac_small/utils.py:33-74 `parse_result` -/
def parseResult (D : Dataset) (offsets : List Nat) (words labels : List Int) : Except PyErr (List Str × List Str) :=
  parseBatch D words labels offsets none

/-- jieba/lac_small/predict.py:68-82 `get_result`; `get_sent` (lines 51-66) is its first component. -/
def getResult (D : Dataset) (net : List Int → Except PyErr (List Int)) (s : Str) : Except PyErr (List Str × List Str) := do
  let ids ← getVars D s
  let labels ← net ids
  parseResult D [0, ids.length] ids labels

/-- jieba/__init__.py:301-311: `cut(sentence, use_paddle=True)` after `enable_paddle()`. -/
def cut (D : Dataset) (net : List Int → Except PyErr (List Int)) (gbk : Bytes → Str) (sentence : PyText) : Gen Str :=
  if strdecode gbk sentence = [] then Gen.ok []
  else Gen.ofExcept (getResult D net (strdecode gbk sentence)) (fun r => Gen.ok r.1)

/-- jieba/posseg/__init__.py:287-290: the loop. -/
def zipTags : List Str → List Str → Gen (Str × Str)
  | [], _ => Gen.ok []
  | _ :: _, [] => Gen.raise .indexError
  | w :: ws, t :: ts => Gen.andThen (Gen.ok [(w, t)]) (zipTags ws ts)

/-- jieba/posseg/__init__.py:281-291: `posseg.cut(sentence, use_paddle=True)` after `enable_paddle()`.  An empty `bytes` object
is not equal to `""`. -/
def posCut (D : Dataset) (net : List Int → Except PyErr (List Int)) (gbk : Bytes → Str) (sentence : PyText) : Gen (Str × Str) :=
  if sentence = .str [] then Gen.ok []
  else Gen.ofExcept (getResult D net (strdecode gbk sentence)) (fun r => zipTags r.1 r.2)

end Jieba.Paddle
