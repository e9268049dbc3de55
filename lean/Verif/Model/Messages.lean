import Verif.Model.Repr
import Verif.Model.PosWorld
import Verif.Model.Paddle
/-!
# The messages for malformed lines of dictionary files

jieba/__init__.py:72-91 and jieba/posseg/__init__.py:97-110 once more, with the text of the ValueError. The name of the file, `resolve_filename(f)`
(jieba/_compat.py:85-89), is a parameter. Python 3, without `-b`.
-/

namespace Jieba
open Jieba.Pos

/-- `'%s' % b` for `bytes`, which is `repr(b)`: the escapes are those of `repr` of a `str` in which nothing beyond ASCII is printable.
Python itself, used at jieba/__init__.py:89 and jieba/posseg/__init__.py:109. -/
def bytesRepr (b : Bytes) : Str := 0x62 :: strRepr (fun _ => false) b

/-- The value of the variable `line` when the exception is raised: the assignment at jieba/__init__.py:78 (jieba/posseg/__init__.py:102) has taken
place unless `decode` raises. -/
def shownLine (line : Bytes) : Str :=
  match utf8Decode (stripBy isByteSpace line) with
  | some t => t
  | none => bytesRepr line

/-- jieba/__init__.py:88-89 (`pos = false`) and jieba/posseg/__init__.py:108-109 (`pos = true`): the message. -/
def entryMsg (pos : Bool) (name : Str) (lineno : Nat) (line : Bytes) : Str :=
  lit ['i', 'n', 'v', 'a', 'l', 'i', 'd', ' '] ++ (if pos then lit ['P', 'O', 'S', ' '] else []) ++
    lit ['d', 'i', 'c', 't', 'i', 'o', 'n', 'a', 'r', 'y', ' ', 'e', 'n', 't', 'r', 'y', ' ', 'i', 'n', ' '] ++ name ++
    lit [' ', 'a', 't', ' ', 'L', 'i', 'n', 'e', ' '] ++ Paddle.strNat lineno ++ lit [':', ' '] ++ shownLine line

/-- jieba/__init__.py:76-89: the loop of `gen_pfdict`, with `lineno`. -/
def genPfdictMsgLoop (name : Str) : List Bytes → Nat → Freq → Int → Except Str (Freq × Int)
  | [], _, d, t => .ok (d, t)
  | line :: ls, lineno, d, t => match dictLine line with
    | none => .error (entryMsg false name lineno line)
    | some (word, freq) => genPfdictMsgLoop name ls (lineno + 1) (register d word freq) (t + freq)

/-- jieba/__init__.py:72-91 `gen_pfdict` on the contents of the file. -/
def genPfdictMsg (name : Str) (data : Bytes) : Except Str (Freq × Int) := genPfdictMsgLoop name (fileLines data) 1 [] 0

/-- jieba/posseg/__init__.py:100-109: the loop of `load_word_tag`, with `lineno`. -/
def loadTagsMsgLoop (name : Str) : List Bytes → Nat → PyDict Str Str → PyDict Str Str × Except Str Unit
  | [], _, d => (d, .ok ())
  | line :: ls, lineno, d => match tagLine line with
    | none => (d, .error (entryMsg true name lineno line))
    | some none => loadTagsMsgLoop name ls (lineno + 1) d
    | some (some (word, tag)) => loadTagsMsgLoop name ls (lineno + 1) (d.set word tag)

/-- jieba/posseg/__init__.py:97-110 `load_word_tag` on the contents of the file. -/
def loadTagsMsg (name : Str) (data : Bytes) : PyDict Str Str × Except Str Unit := loadTagsMsgLoop name (fileLines data) 1 []

end Jieba
