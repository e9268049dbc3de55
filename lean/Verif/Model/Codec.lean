import Verif.Model.Basic
/-!
# Text and bytes: strict UTF-8, `strdecode`, `int()` on strings
-/

namespace Jieba

/-- A surrogate code point. Python itself: what UTF-8 cannot encode; used for jieba/__init__.py:78, 405. -/
def isSurrogate (c : Nat) : Bool := 0xD800 ≤ c && c ≤ 0xDFFF

/-- One character of `s.encode('utf-8')`; `none` is UnicodeEncodeError (lone surrogate).
Python itself; the inverse of the decoding at jieba/_compat.py:79 and jieba/__init__.py:78, 405. -/
def utf8EncodeCh (c : Nat) : Option Bytes :=
  if c < 0x80 then some [c]
  else if c < 0x800 then some [0xC0 + c / 64, 0x80 + c % 64]
  else if isSurrogate c then none
  else if c < 0x10000 then some [0xE0 + c / 4096, 0x80 + c / 64 % 64, 0x80 + c % 64]
  else if c < 0x110000 then some [0xF0 + c / 262144, 0x80 + c / 4096 % 64, 0x80 + c / 64 % 64, 0x80 + c % 64]
  else none

/-- `s.encode('utf-8')`. Python itself; the inverse of the decoding at jieba/_compat.py:79 and jieba/__init__.py:78, 405. -/
def utf8Encode : Str → Option Bytes
  | [] => some []
  | c :: s => match utf8EncodeCh c, utf8Encode s with
    | some b, some bs => some (b ++ bs)
    | _, _ => none

/-- A continuation byte `10xxxxxx`. Python itself; for the decoding at jieba/_compat.py:79 and jieba/__init__.py:78, 405. -/
def isCont (b : Nat) : Bool := 0x80 ≤ b && b ≤ 0xBF

/-- `b.decode('utf-8')` (strict, as CPython: no overlong forms, no surrogates, nothing above U+10FFFF);
`none` is UnicodeDecodeError. -/
def utf8Decode : Bytes → Option Str
  | [] => some []
  | b0 :: rest =>
    if b0 < 0x80 then (utf8Decode rest).map (b0 :: ·)
    else match rest with
      | [] => none
      | b1 :: rest1 =>
        if 0xC2 ≤ b0 && b0 ≤ 0xDF then
          if isCont b1 then (utf8Decode rest1).map (((b0 - 0xC0) * 64 + (b1 - 0x80)) :: ·) else none
        else match rest1 with
          | [] => none
          | b2 :: rest2 =>
            if 0xE0 ≤ b0 && b0 ≤ 0xEF then
              if isCont b1 && isCont b2 && !(b0 == 0xE0 && b1 < 0xA0) && !(b0 == 0xED && 0xA0 ≤ b1) then
                (utf8Decode rest2).map (((b0 - 0xE0) * 4096 + (b1 - 0x80) * 64 + (b2 - 0x80)) :: ·)
              else none
            else match rest2 with
              | [] => none
              | b3 :: rest3 =>
                if 0xF0 ≤ b0 && b0 ≤ 0xF4 then
                  if isCont b1 && isCont b2 && isCont b3 && !(b0 == 0xF0 && b1 < 0x90) && !(b0 == 0xF4 && 0x90 ≤ b1) then
                    (utf8Decode rest3).map
                      (((b0 - 0xF0) * 262144 + (b1 - 0x80) * 4096 + (b2 - 0x80) * 64 + (b3 - 0x80)) :: ·)
                  else none
                else none

/-- A `str` or `bytes` argument. The argument of `strdecode`, jieba/_compat.py:76-82. -/
inductive PyText where
  | str (s : Str)
  | bytes (b : Bytes)
  deriving DecidableEq

/-- jieba/_compat.py:76-82 `strdecode`.  `gbk b` is `b.decode('gbk', 'ignore')`: with the `ignore` handler it never
raises, so it is a total function; its table is not modelled. -/
def strdecode (gbk : Bytes → Str) : PyText → Str
  | .str s => s
  | .bytes b => match utf8Decode b with
    | some s => s
    | none => gbk b

/-- Whitespace that `int()` strips from a `str`: ASCII `isspace` of C plus non-ASCII Unicode whitespace
(not U+001C..U+001F; checked against CPython 3.11). -/
def isIntSpace (c : Ch) : Bool := isByteSpace c || (0x80 ≤ c && isSpace c)

/-- Digits with single underscores between them; `acc` is the value so far, `us` says that the last character was an
underscore. Part of `int(s)`, jieba/__init__.py:80, 427. -/
def digitsGo : Nat → Bool → Str → Option Nat
  | acc, us, [] => if us then none else some acc
  | acc, us, c :: s =>
    if c = 0x5F then (if us then none else digitsGo acc true s)
    else match digitValue c with
      | some d => digitsGo (acc * 10 + d) false s
      | none => none

/-- A non-empty digit string. Part of `int(s)`, jieba/__init__.py:80, 427. -/
def digitsValue : Str → Option Nat
  | [] => none
  | c :: s => match digitValue c with
    | some d => digitsGo d false s
    | none => none

/-- `int(s)` for a `str`; `none` is ValueError.  CPython's limit on the number of digits (4300 by default) is not
modelled. -/
def pyInt (s : Str) : Option Int :=
  match stripBy isIntSpace s with
  | [] => none
  | c :: t =>
    if c = 0x2B then (digitsValue t).map Int.ofNat
    else if c = 0x2D then (digitsValue t).map (fun n => -(n : Int))
    else (digitsValue (c :: t)).map Int.ofNat

end Jieba
