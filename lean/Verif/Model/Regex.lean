import Verif.Model.Basic
/-!
# A fragment of Python's `re`

Patterns as a syntax tree, with the prioritised backtracking semantics of CPython's `re` given by
"list of successes": `run r b s` lists, in the order in which the backtracking engine would try them,
all ways in which `r` can match a prefix of `s` (`b`: are we at the start of the subject?).
The engine's answer is the head of the list.  Quantifiers are only modelled on character classes
(`+` greedy, `+?` lazy) and `?` greedy on sub-patterns, which is all the repo uses.
-/

namespace Jieba

/-- The parts of the patterns of Python's `re` that are used at jieba/__init__.py:36-46, 320-330, 411, jieba/finalseg/__init__.py:77-98, jieba/posseg/__init__.py:15-23, 136-147, 218-237. -/
inductive RE where
  | cls (p : Ch → Bool)          -- [..]
  | plus (p : Ch → Bool)         -- [..]+
  | plusLazy (p : Ch → Bool)     -- [..]+?
  | seq (a b : RE)
  | alt (a b : RE)               -- a|b
  | opt (a : RE)                 -- (?:a)?
  | grp (n : Nat) (a : RE)       -- capturing group
  | bos                          -- ^ (no MULTILINE)
  | eos                          -- $ (no MULTILINE: at the end or before a final newline)

/-- Captured groups: group number and captured text.
Python's `re`, used at jieba/__init__.py:36-46, 320-330, 411, jieba/finalseg/__init__.py:77-98, jieba/posseg/__init__.py:15-23, 136-147, 218-237. -/
abbrev Caps := List (Nat × Str)

namespace RE

/-- All matches of `r` at the beginning of `s`, as (length, captures), in priority order.
Python's `re`, used at jieba/__init__.py:36-46, 320-330, 411, jieba/finalseg/__init__.py:77-98, jieba/posseg/__init__.py:15-23, 136-147, 218-237. -/
def run : RE → Bool → Str → List (Nat × Caps)
  | cls p, _, s => match s with
      | [] => []
      | c :: _ => if p c then [(1, [])] else []
  | plus p, _, s => (List.range (s.takeWhile p).length).reverse.map (fun i => (i + 1, []))
  | plusLazy p, _, s => (List.range (s.takeWhile p).length).map (fun i => (i + 1, []))
  | seq a b, st, s => (run a st s).flatMap (fun h =>
      (run b (st && h.1 == 0) (s.drop h.1)).map (fun h' => (h.1 + h'.1, h.2 ++ h'.2)))
  | alt a b, st, s => run a st s ++ run b st s
  | opt a, st, s => run a st s ++ [(0, [])]
  | grp n a, st, s => (run a st s).map (fun h => (h.1, h.2 ++ [(n, s.take h.1)]))
  | bos, st, _ => if st then [(0, [])] else []
  | eos, _, s => if s = [] ∨ s = [0x0A] then [(0, [])] else []

/-- `r.match(s)`: the preferred match at the start of the subject.
Python's `re`, used at jieba/__init__.py:36-46, 320-330, 411, jieba/finalseg/__init__.py:77-98, jieba/posseg/__init__.py:15-23, 136-147, 218-237. -/
def pmatch (r : RE) (s : Str) : Option (Nat × Caps) := (run r true s).head?

/-- Truth value of `r.match(s)`.
Python's `re`, used at jieba/__init__.py:36-46, 320-330, 411, jieba/finalseg/__init__.py:77-98, jieba/posseg/__init__.py:15-23, 136-147, 218-237. -/
def isMatch (r : RE) (s : Str) : Bool := (pmatch r s).isSome

/-- `m.group(n)`; `none` stands for Python's `None` (group did not take part). -/
def group (caps : Caps) (n : Nat) : Option Str := (caps.find? (fun x => x.1 == n)).map Prod.snd

/-- Scanner behind `r.split(s)`: `acc` is the text since the last match, `st` is "at start of subject".
A successful empty match would need the empty-match rule of `re.split`; no pattern in the repo that is used
with `split` can match the empty string, the scanner just steps over such a position.
Python's `re`, used at jieba/__init__.py:36-46, 320-330, 411, jieba/finalseg/__init__.py:77-98, jieba/posseg/__init__.py:15-23, 136-147, 218-237. -/
def splitGo (r : RE) : Nat → Bool → Str → Str → List Str
  | 0, _, acc, _ => [acc]
  | _ + 1, _, acc, [] => [acc]
  | fuel + 1, st, acc, c :: s =>
    match (run r st (c :: s)).head? with
    | some (n + 1, caps) =>
        acc :: (group caps 1).getD [] :: splitGo r fuel false [] ((c :: s).drop (n + 1))
    | _ => splitGo r fuel false (acc ++ [c]) s

/-- `r.split(s)` for a pattern with exactly one capturing group, group 1.
Python's `re`, used at jieba/__init__.py:36-46, 320-330, 411, jieba/finalseg/__init__.py:77-98, jieba/posseg/__init__.py:15-23, 136-147, 218-237. -/
def split (r : RE) (s : Str) : List Str := splitGo r (s.length + 1) true [] s

end RE

/-! ## The patterns of the repo -/

/-- Character class of `re_han_default`, jieba/__init__.py:44 `[一-鿕a-zA-Z0-9+#&\._%\-]`. -/
def isWordCh (c : Ch) : Bool :=
  isHan c || isAlnum c || c == 0x2B || c == 0x23 || c == 0x26 || c == 0x2E || c == 0x5F || c == 0x25 || c == 0x2D

/-- Character class of `re_han_internal`, jieba/posseg/__init__.py:17 `[一-鿕a-zA-Z0-9+#&\._]`. -/
def isWordChPos (c : Ch) : Bool :=
  isHan c || isAlnum c || c == 0x2B || c == 0x23 || c == 0x26 || c == 0x2E || c == 0x5F

/-- jieba/__init__.py:44 -/
def reHanDefault : RE := .grp 1 (.plus isWordCh)
/-- jieba/__init__.py:46 `(\r\n|\s)`; also `re_skip_internal`, jieba/posseg/__init__.py:18 -/
def reSkipDefault : RE :=
  .grp 1 (.alt (.seq (.cls (· == 0x0D)) (.cls (· == 0x0A))) (.cls isSpace))
/-- jieba/__init__.py:38 `[a-zA-Z0-9]` -/
def reEng : RE := .cls isAlnum
/-- jieba/__init__.py:36 `^(.+?)( [0-9]+)?( [a-z]+)?$` (`.` matches anything but newline) -/
def reUserdict : RE :=
  .seq .bos (.seq (.grp 1 (.plusLazy (fun c => c != 0x0A)))
    (.seq (.opt (.grp 2 (.seq (.cls (· == 0x20)) (.plus isDigit))))
      (.seq (.opt (.grp 3 (.seq (.cls (· == 0x20)) (.plus isLower)))) .eos)))

/-- jieba/finalseg/__init__.py:77 and jieba/posseg/__init__.py:15 `([一-鿕]+)` -/
def reHan : RE := .grp 1 (.plus isHan)
/-- jieba/finalseg/__init__.py:78 `([a-zA-Z0-9]+(?:\.\d+)?%?)` -/
def reSkipFinal : RE :=
  .grp 1 (.seq (.plus isAlnum)
    (.seq (.opt (.seq (.cls (· == 0x2E)) (.plus isDecimal))) (.opt (.cls (· == 0x25)))))

/-- jieba/posseg/__init__.py:16 `([\.0-9]+|[a-zA-Z0-9]+)` -/
def reSkipDetail : RE := .grp 1 (.alt (.plus (fun c => c == 0x2E || isDigit c)) (.plus isAlnum))
/-- jieba/posseg/__init__.py:17 -/
def reHanInternal : RE := .grp 1 (.plus isWordChPos)
/-- jieba/posseg/__init__.py:20 `[a-zA-Z0-9]+` -/
def reEngPos : RE := .plus isAlnum
/-- jieba/posseg/__init__.py:21 `[\.0-9]+` -/
def reNum : RE := .plus (fun c => c == 0x2E || isDigit c)
/-- jieba/posseg/__init__.py:23 `^[a-zA-Z0-9]$` -/
def reEng1 : RE := .seq .bos (.seq (.cls isAlnum) .eos)
/-- jieba/analyse/analyzer.py:16 `[一-鿕]+` -/
def reAccepted : RE := .plus isHan

end Jieba
