import Verif.Model.Paddle
/-!
# jieba/lac_small/reader_small.py — the sizes that the network is built with, and labels as numbers

`label2id_dict` is not a part of `Dataset` in the model, since prediction does not use it; it is given as a dict of its own.
-/

namespace Jieba.Paddle
open Jieba

/-- `max(l)`; Python itself, used at jieba/lac_small/reader_small.py:68, 73. -/
def maxInt : List Int → Except PyErr Int
  | [] => .error .valueError
  | i :: is => .ok (is.foldl (fun m j => if m < j then j else m) i)

/-- jieba/lac_small/reader_small.py:68, 73: `max(d.values()) + 1` -/
def dictSize (d : PyDict Str Int) : Except PyErr Int := do
  let m ← maxInt d.values
  .ok (m + 1)

/-- jieba/lac_small/reader_small.py:65-68 `vocab_size`; jieba/lac_small/predict.py:43 builds the network with it. -/
def vocabSize (D : Dataset) : Except PyErr Int := dictSize D.word2id

/-- jieba/lac_small/reader_small.py:61-62: `label2id_dict`, given the lines of tag.dic. -/
def labelTable (tags : List Str) : Except PyErr (PyDict Str Int) := loadKV true pyInt tags []

/-- jieba/lac_small/reader_small.py:70-73 `num_labels`; jieba/lac_small/predict.py:43 builds the network with it. -/
def numLabels (L : PyDict Str Int) : Except PyErr Int := dictSize L

/-- jieba/lac_small/reader_small.py:85-93 `label_to_ids` -/
def labelToIds (L : PyDict Str Int) : List Str → Except PyErr (List Int)
  | [] => .ok []
  | label :: labels => do
    let i ← index L (if L.has label then label else [0x4F])
    let is ← labelToIds L labels
    .ok (i :: is)

end Jieba.Paddle
