import Verif.Model.Pair
import Verif.Model.World
/-!
# `repr` of words, pairs, tokenizers and of lists of words or pairs

What `print(jieba.lcut(text))` and `print(posseg.lcut(text))` show, and `__repr__` of jieba/__init__.py:68-69, jieba/posseg/__init__.py:53-54, 84-85.
`repr` of a `str` is `unicode_repr` of CPython (Objects/unicodeobject.c).  Which characters are printable (`Py_UNICODE_ISPRINTABLE`) is a parameter
`pr`; it is asked for characters from U+0080 on only.
-/

namespace Jieba
open Jieba.Pos

/-- `Py_hexdigits[n]`. CPython; used by `%r` at jieba/posseg/__init__.py:54. -/
def hexDig (n : Nat) : Nat := if n < 10 then 0x30 + n else 0x57 + n

/-- `k` hexadecimal digits of `n`. CPython; used by `%r` at jieba/posseg/__init__.py:54. -/
def hexN : Nat → Nat → Str
  | 0, _ => []
  | k + 1, n => hexN k (n / 16) ++ [hexDig (n % 16)]

/-- One character inside the quotes `q`. CPython; used by `%r` at jieba/posseg/__init__.py:54. -/
def reprCh (pr : Ch → Bool) (q : Ch) (c : Ch) : Str :=
  if c = q ∨ c = 0x5C then [0x5C, c]
  else if c = 0x09 then [0x5C, 0x74]
  else if c = 0x0A then [0x5C, 0x6E]
  else if c = 0x0D then [0x5C, 0x72]
  else if c < 0x20 ∨ c = 0x7F then 0x5C :: 0x78 :: hexN 2 c
  else if c < 0x7F then [c]
  else if pr c then [c]
  else if c ≤ 0xFF then 0x5C :: 0x78 :: hexN 2 c
  else if c ≤ 0xFFFF then 0x5C :: 0x75 :: hexN 4 c
  else 0x5C :: 0x55 :: hexN 8 c

/-- The quote that is used: `"` if there is a `'` and no `"`. CPython; used by `%r` at jieba/posseg/__init__.py:54. -/
def quoteOf (s : Str) : Ch := if 0x27 ∈ s ∧ 0x22 ∉ s then 0x22 else 0x27

/-- `repr(s)` of a `str`. CPython; used by `%r` at jieba/__init__.py:69 and jieba/posseg/__init__.py:54. -/
def strRepr (pr : Ch → Bool) (s : Str) : Str := quoteOf s :: s.flatMap (reprCh pr (quoteOf s)) ++ [quoteOf s]

/-- jieba/posseg/__init__.py:53-54 `pair.__repr__` -/
def pairRepr (pr : Ch → Bool) (p : Pair) : Str :=
  lit ['p', 'a', 'i', 'r', '('] ++ strRepr pr p.1 ++ lit [',', ' '] ++ strRepr pr p.2 ++ lit [')']

/-- The elements of a list after the first. Python itself (`list.__repr__`). -/
def moreRepr {α : Type _} (r : α → Str) : List α → Str
  | [] => lit [']']
  | x :: l => lit [',', ' '] ++ r x ++ moreRepr r l

/-- `repr` of a list with the `repr` of the elements given. Python itself, for the results of jieba/__init__.py:356-357 and
jieba/posseg/__init__.py:252-253. -/
def listRepr {α : Type _} (r : α → Str) : List α → Str
  | [] => lit ['[', ']']
  | x :: l => lit ['['] ++ r x ++ moreRepr r l

/-- jieba/__init__.py:68-69 `Tokenizer.__repr__`; `none` is `None`. -/
def tokRepr (pr : Ch → Bool) (x : Tok) : Str :=
  lit ['<', 'T', 'o', 'k', 'e', 'n', 'i', 'z', 'e', 'r', ' ', 'd', 'i', 'c', 't', 'i', 'o', 'n', 'a', 'r', 'y', '='] ++
    (match x.dictionary with
    | none => lit ['N', 'o', 'n', 'e']
    | some p => strRepr pr p) ++ lit ['>']

/-- jieba/posseg/__init__.py:84-85 `POSTokenizer.__repr__` -/
def posTokRepr (pr : Ch → Bool) (x : Tok) : Str :=
  lit ['<', 'P', 'O', 'S', 'T', 'o', 'k', 'e', 'n', 'i', 'z', 'e', 'r', ' ', 't', 'o', 'k', 'e', 'n', 'i', 'z', 'e', 'r', '='] ++ tokRepr pr x ++ lit ['>']

end Jieba
