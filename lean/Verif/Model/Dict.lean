import Verif.Model.Codec
import Verif.Model.Tokenizer
/-!
# jieba/__init__.py — dictionary files and changes to the dictionary

`gen_pfdict`, the lines of a user dictionary and the update that `add_word` makes.
-/

namespace Jieba

/-- Iterating over a file opened in binary mode: the lines with their `\n`.
Python itself, used at jieba/__init__.py:76, 401 and jieba/posseg/__init__.py:100. -/
def fileLines (b : Bytes) : List Bytes := go b []
where
  go : Bytes → Bytes → List Bytes
    | [], acc => if acc = [] then [] else [acc]
    | c :: s, acc => if c = 0x0A then (acc ++ [c]) :: go s [] else go s (acc ++ [c])

/-- jieba/__init__.py:78-80: one line of a dictionary file; `none` is ValueError (UnicodeDecodeError is one too). -/
def dictLine (line : Bytes) : Option (Str × Int) :=
  match utf8Decode (stripBy isByteSpace line) with
  | none => none
  | some line => match splitOn1 0x20 line with
    | word :: freq :: _ => (pyInt freq).map (fun f => (word, f))
    | _ => none

/-- jieba/__init__.py:83-86 and 432-435: register the prefixes of `word` that are missing; `n` is `len(word)`. -/
def addPrefixes (word : Str) : Nat → Freq → Freq
  | 0, d => d
  | n + 1, d =>
    let d := addPrefixes word n d
    if d.has (word.take (n + 1)) then d else d.set (word.take (n + 1)) 0

/-- `FREQ[word] = freq` followed by the prefix loop. jieba/__init__.py:81, 83-86 and 428, 432-435. -/
def register (d : Freq) (word : Str) (freq : Int) : Freq := addPrefixes word word.length (d.set word freq)

/-- jieba/__init__.py:76-89: the loop of `gen_pfdict`. -/
def genPfdictLoop : List Bytes → Freq → Int → Except PyErr (Freq × Int)
  | [], d, t => .ok (d, t)
  | line :: ls, d, t => match dictLine line with
    | none => .error .valueError
    | some (word, freq) => genPfdictLoop ls (register d word freq) (t + freq)

/-- jieba/__init__.py:72-91 `gen_pfdict` on the contents of the file. -/
def genPfdict (data : Bytes) : Except PyErr (Freq × Int) := genPfdictLoop (fileLines data) [] 0

/-- jieba/__init__.py:402-407: a line of a user dictionary given as bytes; `none` is ValueError. -/
def userLineBytes (ln : Bytes) : Option Str :=
  (utf8Decode (stripBy isByteSpace ln)).map (fun l => l.dropWhile (· == 0xFEFF))

/-- A line of a user dictionary, as bytes (binary file) or text (any other iterable). jieba/__init__.py:402-407. -/
def userLine : PyText → Option Str
  | .bytes ln => userLineBytes ln
  | .str ln => some (stripBy isSpace ln)

/-- jieba/__init__.py:411-415: the fields of a non-empty line: word, frequency, tag (the last two `strip()`ped);
`none` is the AttributeError for a line that does not match. -/
def userFields (line : Str) : Option (Str × Option Str × Option Str) :=
  match reUserdict.pmatch line with
  | none => none
  | some (_, caps) =>
    match RE.group caps 1 with
    | none => none
    | some word => some (word, (RE.group caps 2).map (stripBy isSpace), (RE.group caps 3).map (stripBy isSpace))

end Jieba
