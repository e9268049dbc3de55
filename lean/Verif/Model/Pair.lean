import Verif.Model.Posseg
import Verif.Model.Codec
/-!
# jieba/posseg/__init__.py — the methods of `pair`
-/

namespace Jieba.Pos

/-- jieba/posseg/__init__.py:50-51 `__unicode__`; in Python 3 also `__str__` (56-60). -/
def pairStr (p : Pair) : Str := p.1 ++ [0x2F] ++ p.2

/-- jieba/posseg/__init__.py:62-63 `__iter__` -/
def pairIter (p : Pair) : List Str := [p.1, p.2]

/-- jieba/posseg/__init__.py:65-66 `__lt__` -/
def pairLt (p q : Pair) : Bool := strLt p.1 q.1

/-- What a pair may be compared with. jieba/posseg/__init__.py:65-69. -/
inductive PyObj where
  | pair (p : Pair)
  | str (s : Str)
  | tuple (l : List Str)
  deriving DecidableEq

/-- jieba/posseg/__init__.py:68-69 `__eq__` -/
def pairEq (p : Pair) : PyObj → Bool
  | .pair q => p.1 == q.1 && p.2 == q.2
  | _ => false

/-- jieba/posseg/__init__.py:71-72 `__hash__`; `h` is `hash` of strings. -/
def pairHash (h : Str → Int) (p : Pair) : Int := h p.1

/-- jieba/posseg/__init__.py:74-75 `encode('utf-8')`; `none` is UnicodeEncodeError. -/
def pairEncode (p : Pair) : Option Bytes := utf8Encode (pairStr p)

end Jieba.Pos
