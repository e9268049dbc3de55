import Verif.Model.Codec
import Verif.Model.Ieee
/-!
# `float(s)` of a text

jieba/analyse/tfidf.py:51 reads the numbers of an IDF file with `float`.  This is `float` of CPython for a `str`: `PyFloat_FromString` (Objects/floatobject.c),
`_Py_string_to_number_with_underscores` and `PyOS_string_to_double` (Python/pystrtod.c).  The digits are turned into a number exactly and then rounded
once, which is what `_Py_dg_strtod` promises.  The sign of zero is left out.
-/

namespace Jieba

/-- What `float` returns. CPython; used at jieba/analyse/tfidf.py:51. -/
inductive PyFloat where
  | num (q : ℚ)
  | inf (neg : Bool)
  | nan
  deriving DecidableEq

/-- `_PyUnicode_TransformDecimalAndSpaceToASCII`, one character: digits of other scripts become ASCII digits, other blanks become a space.  CPython ends the text
at the first character that it cannot translate, with a `?`; here every such character becomes a `?`.  No number contains one. -/
def asc (c : Nat) : Nat :=
  if c < 127 then c
  else if isSpace c then 0x20
  else match digitValue c with
    | some d => 0x30 + d
    | none => 0x3F

/-- `_Py_string_to_number_with_underscores`: underscores are dropped, they must stand between digits; `prev` is the character before.
Part of CPython's `float(s)`, used at jieba/analyse/tfidf.py:51. -/
def dropUnder : Nat → Str → Option Str
  | prev, [] => if prev = 0x5F then none else some []
  | prev, c :: s =>
    if c = 0x5F then (if isDigit prev then dropUnder c s else none)
    else if prev = 0x5F ∧ isDigit c = false then none
    else (dropUnder c s).map (c :: ·)

/-- The value of ASCII digits. Part of CPython's `float(s)`, used at jieba/analyse/tfidf.py:51. -/
def decVal (ds : Str) : Nat := ds.foldl (fun n c => n * 10 + (c - 0x30)) 0

/-- A sign, if there is one: is it a minus, and what follows. Part of CPython's `float(s)`, used at jieba/analyse/tfidf.py:51. -/
def signOf : Str → Bool × Str
  | [] => (false, [])
  | c :: t => if c = 0x2D then (true, t) else if c = 0x2B then (false, t) else (false, c :: t)

/-- `_Py_dg_strtod`: digits with a point in, before or after them, and what follows; `none` if there is no digit.
Part of CPython's `float(s)`, used at jieba/analyse/tfidf.py:51. -/
def mantissa (u : Str) : Option (ℚ × Str) :=
  let a := u.takeWhile isDigit
  match u.dropWhile isDigit with
  | [] => if a = [] then none else some (decVal a, [])
  | c :: r =>
    if c = 0x2E then
      let b := r.takeWhile isDigit
      if a = [] ∧ b = [] then none else some ((decVal (a ++ b) : ℚ) / 10 ^ b.length, r.dropWhile isDigit)
    else if a = [] then none else some (decVal a, c :: r)

/-- `_Py_dg_strtod`: an exponent and what follows.  An `e` without digits after it is not consumed.
Part of CPython's `float(s)`, used at jieba/analyse/tfidf.py:51. -/
def exponent : Str → ℤ × Str
  | [] => (0, [])
  | c :: t =>
    if c = 0x65 ∨ c = 0x45 then
      let r := signOf t
      let x := r.2.takeWhile isDigit
      if x = [] then (0, c :: t) else (if r.1 then -(decVal x : ℤ) else decVal x, r.2.dropWhile isDigit)
    else (0, c :: t)

/-- `_Py_dg_strtod` without the sign: the exact number, and what follows. Part of CPython's `float(s)`, used at jieba/analyse/tfidf.py:51. -/
def strtod (u : Str) : Option (ℚ × Str) :=
  (mantissa u).map (fun m => (m.1 * 10 ^ (exponent m.2).1, (exponent m.2).2))

/-- The nearest double; too large numbers are infinite. Part of CPython's `float(s)`, used at jieba/analyse/tfidf.py:51. -/
def toDouble (q : ℚ) : PyFloat := if |roundBounded q| < 2 ^ 1024 then .num (roundBounded q) else .inf (decide (q < 0))

/-- `_Py_parse_inf_or_nan` for the whole text after the sign, in any case. Part of CPython's `float(s)`, used at jieba/analyse/tfidf.py:51. -/
def infNan (neg : Bool) (t : Str) : Option PyFloat :=
  let l := t.map (fun c => if isUpper c then c + 0x20 else c)
  if l = lit ['i', 'n', 'f'] ∨ l = lit ['i', 'n', 'f', 'i', 'n', 'i', 't', 'y'] then some (.inf neg)
  else if l = lit ['n', 'a', 'n'] then some .nan
  else none

/-- `float(s)`; `none`: ValueError. CPython; used at jieba/analyse/tfidf.py:51. -/
def pyFloat (s : Str) : Option PyFloat :=
  match dropUnder 0 (stripBy isByteSpace (s.map asc)) with
  | none => none
  | some u =>
    match strtod (signOf u).2 with
    | some (q, []) => some (toDouble (if (signOf u).1 then -q else q))
    | some (_, _ :: _) => none
    | none => infNan (signOf u).1 (signOf u).2

end Jieba
