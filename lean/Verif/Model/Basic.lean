/-!
# Base types of the model: text, exceptions, generators, dicts, character classes

Models the Python 3 built-ins the jieba source relies on.
-/

namespace Jieba

/-- A Python 3 `str` element: a code point (any natural, so lone surrogates are covered too). -/
abbrev Ch := Nat
/-- A Python 3 `str`. -/
abbrev Str := List Ch
/-- A Python 3 `bytes` object (elements are meant to be < 256). -/
abbrev Bytes := List Nat

/-- Code points of a list of character literals; only used to write down concrete examples. Not part of the code. -/
def lit (cs : List Char) : Str := cs.map Char.toNat

/-- The exceptions the modelled code can raise.
Raised at jieba/__init__.py:88, 175, 177, 407, 411, 486, 513, 601, jieba/posseg/__init__.py:108, jieba/analyse/tfidf.py:26, 71 and by Python itself. -/
inductive PyErr where
  | valueError | keyError | indexError | attributeError | typeError
  | unicodeDecodeError | zeroDivisionError | fileNotFound | notImplemented
  | unboundLocal | exception
  deriving DecidableEq, Repr

/-- Python's `s[i:j]` for non-negative `i`, `j`. -/
def slice {α : Type _} (s : List α) (i j : Nat) : List α := (s.take j).drop i

/-- `''.join(ws)` / `[x for l in ls for x in l]`. Python itself, used at jieba/__init__.py:468 and jieba/__main__.py:55. -/
abbrev join {α : Type _} (ws : List (List α)) : List α := ws.flatten

/-! ## Generators -/

/-- A fully consumed Python generator: what it yielded and the exception (if any) that ended it. -/
structure Gen (α : Type _) where
  out : List α
  err : Option PyErr
  deriving DecidableEq

namespace Gen

/-- A generator that yields `l` and ends (Python itself, e.g. jieba/__init__.py:198-354). -/
def ok {α : Type _} (l : List α) : Gen α := ⟨l, none⟩
/-- A generator that raises at once (Python itself, e.g. jieba/__init__.py:486). -/
def raise {α : Type _} (e : PyErr) : Gen α := ⟨[], some e⟩

/-- Run `g`, and, if it did not raise, run `h`. Python itself, used at jieba/__init__.py:321-336. -/
def andThen {α : Type _} (g h : Gen α) : Gen α :=
  match g.err with
  | some e => ⟨g.out, some e⟩
  | none => ⟨g.out ++ h.out, h.err⟩

/-- `for a in l: yield from f(a)`. Python itself, used at jieba/__init__.py:321-326, 574-576. -/
def forEach {α β : Type _} (l : List α) (f : α → Gen β) : Gen β :=
  match l with
  | [] => ok []
  | a :: l => andThen (f a) (forEach l f)

/-- `for a in g: <yield the list f(a)>` where `g` is itself a generator. Python itself, used at jieba/__init__.py:343-354. -/
def mapOut {α β : Type _} (g : Gen α) (f : α → List β) : Gen β := ⟨g.out.flatMap f, g.err⟩

/-- `x = <expression that may raise>; yield from k(x)`. Python itself, used at jieba/__init__.py:228-229, 251-252. -/
def ofExcept {α β : Type _} (x : Except PyErr α) (k : α → Gen β) : Gen β :=
  match x with
  | .error e => raise e
  | .ok a => k a

end Gen

/-! ## Insertion-ordered dicts -/

/-- A Python (≥ 3.7) dict: association list in insertion order. -/
abbrev PyDict (K V : Type _) := List (K × V)

namespace PyDict
variable {K V : Type _} [DecidableEq K]

/-- `d.get(k)`. Python itself, used at jieba/__init__.py:177, 267, 347. -/
def get? : PyDict K V → K → Option V
  | [], _ => none
  | (k', v) :: d, k => if k' = k then some v else get? d k

/-- `k in d`. Python itself, used at jieba/__init__.py:85, 188, 434. -/
def has (d : PyDict K V) (k : K) : Bool := (get? d k).isSome

/-- `d[k] = v` (an existing key keeps its position). Python itself, used at jieba/__init__.py:81, 86, 428, 435. -/
def set : PyDict K V → K → V → PyDict K V
  | [], k, v => [(k, v)]
  | (k', v') :: d, k, v => if k' = k then (k', v) :: d else (k', v') :: set d k v

/-- `d.keys()` in iteration order. Python itself, used at jieba/posseg/viterbi.py:17, 26, 29, 42 and jieba/analyse/textrank.py:34. -/
def keys (d : PyDict K V) : List K := d.map Prod.fst

/-- `d.values()` in iteration order. Python itself, used at jieba/analyse/tfidf.py:53, 104. -/
def values (d : PyDict K V) : List V := d.map Prod.snd

/-- `d.update(e)`. Python itself, used at jieba/posseg/__init__.py:114. -/
def update (d e : PyDict K V) : PyDict K V := e.foldl (fun d kv => set d kv.1 kv.2) d

end PyDict

/-! ## `max` -/

/-- Python's `max` over a non-empty sequence `x, xs...`: the first element not smaller than any other. -/
def pyMax {α : Type _} (lt : α → α → Bool) (x : α) (xs : List α) : α :=
  xs.foldl (fun m y => if lt m y then y else m) x

/-! ## Character classes -/

/-- `[一-鿕]`; jieba/__init__.py:44, jieba/finalseg/__init__.py:77, jieba/posseg/__init__.py:15, 17, jieba/analyse/analyzer.py:16. -/
def isHan (c : Ch) : Bool := 0x4E00 ≤ c && c ≤ 0x9FD5
/-- `[0-9]` -/
def isDigit (c : Ch) : Bool := 0x30 ≤ c && c ≤ 0x39
/-- `[a-z]`; jieba/__init__.py:36, 38, 44. -/
def isLower (c : Ch) : Bool := 0x61 ≤ c && c ≤ 0x7A
/-- `[A-Z]`; jieba/__init__.py:38, 44. -/
def isUpper (c : Ch) : Bool := 0x41 ≤ c && c ≤ 0x5A
/-- `[a-zA-Z0-9]` -/
def isAlnum (c : Ch) : Bool := isLower c || isUpper c || isDigit c

/-- `\s` / `str.isspace()` of CPython 3: the code points below, checked against CPython 3.11. -/
def isSpace (c : Ch) : Bool :=
  (0x09 ≤ c && c ≤ 0x0D) || (0x1C ≤ c && c ≤ 0x20) || c == 0x85 || c == 0xA0 || c == 0x1680 ||
  (0x2000 ≤ c && c ≤ 0x200A) || c == 0x2028 || c == 0x2029 || c == 0x202F || c == 0x205F || c == 0x3000

/-- Line boundaries of `str.splitlines()` (CPython 3). -/
def isLineBreak (c : Ch) : Bool :=
  (0x0A ≤ c && c ≤ 0x0D) || (0x1C ≤ c && c ≤ 0x1E) || c == 0x85 || c == 0x2028 || c == 0x2029

/-- ASCII whitespace stripped by `bytes.strip()`. Python itself, used at jieba/__init__.py:78, 402 and jieba/posseg/__init__.py:102. -/
def isByteSpace (c : Nat) : Bool := (0x09 ≤ c && c ≤ 0x0D) || c == 0x20

/-- Start code points of the decimal digit blocks (category Nd, Unicode 14): each block is ten digits 0..9.
Python itself, used at jieba/__init__.py:80, 427 and jieba/finalseg/__init__.py:78. -/
def ndStarts : List Nat :=
  [0x30, 0x660, 0x6f0, 0x7c0, 0x966, 0x9e6, 0xa66, 0xae6, 0xb66, 0xbe6, 0xc66, 0xce6, 0xd66, 0xde6,
   0xe50, 0xed0, 0xf20, 0x1040, 0x1090, 0x17e0, 0x1810, 0x1946, 0x19d0, 0x1a80, 0x1a90, 0x1b50, 0x1bb0,
   0x1c40, 0x1c50, 0xa620, 0xa8d0, 0xa900, 0xa9d0, 0xa9f0, 0xaa50, 0xabf0, 0xff10, 0x104a0, 0x10d30,
   0x11066, 0x110f0, 0x11136, 0x111d0, 0x112f0, 0x11450, 0x114d0, 0x11650, 0x116c0, 0x11730, 0x118e0,
   0x11950, 0x11c50, 0x11d50, 0x11da0, 0x16a60, 0x16ac0, 0x16b50, 0x1d7ce, 0x1d7d8, 0x1d7e2, 0x1d7ec,
   0x1d7f6, 0x1e140, 0x1e2f0, 0x1e950, 0x1fbf0]

/-- Value of a decimal digit character (any script), as used by `int()`; `none` if not a digit. Python itself, used at jieba/__init__.py:80, 427. -/
def digitValue (c : Ch) : Option Nat :=
  (ndStarts.find? (fun b => b ≤ c && c < b + 10)).map (fun b => c - b)

/-- `\d` in a unicode pattern. Python itself, used at jieba/finalseg/__init__.py:78. -/
def isDecimal (c : Ch) : Bool := (digitValue c).isSome

/-- `s.strip()` with whitespace predicate `p` (`isSpace` for str, `isByteSpace` for bytes).
Python itself, used at jieba/__init__.py:78, 402, 413, 415, jieba/posseg/__init__.py:102, jieba/analyse/tfidf.py:50, 101, jieba/analyse/textrank.py:66. -/
def stripBy (p : Nat → Bool) (s : List Nat) : List Nat :=
  (((s.dropWhile p).reverse).dropWhile p).reverse

/-- `s.rstrip(chars)`. Python itself, used at jieba/__main__.py:54, 55. -/
def rstripBy (p : Nat → Bool) (s : List Nat) : List Nat := (s.reverse.dropWhile p).reverse

/-- `s.split(sep)` for a one-character separator.
Python itself, used at jieba/__init__.py:79, jieba/posseg/__init__.py:105 and jieba/analyse/tfidf.py:50. -/
def splitOn1 (sep : Nat) : List Nat → List (List Nat)
  | [] => [[]]
  | c :: s => if c = sep then [] :: splitOn1 sep s
              else match splitOn1 sep s with
                   | [] => [[c]]
                   | w :: ws => (c :: w) :: ws

/-- `str.splitlines(True)` (keeping the line ends; `\r\n` counts as one break).
Python itself, used at jieba/__init__.py:567, 580 and jieba/posseg/__init__.py:297. -/
def splitlinesKeep (s : Str) : List Str := go s []
where
  go : Str → Str → List Str
    | [], acc => if acc = [] then [] else [acc]
    | 0x0D :: 0x0A :: s, acc => (acc ++ [0x0D, 0x0A]) :: go s []
    | c :: s, acc => if isLineBreak c then (acc ++ [c]) :: go s [] else go s (acc ++ [c])

end Jieba
