import Verif.Model.Lazy
/-!
# jieba/analyse/analyzer.py — the tokenizer for Whoosh

`Tokenizer` and `Token` of whoosh are not modelled beyond the attributes that are set (the arguments of `Token()` are not used).
-/

namespace Jieba.Lazy
open Co

variable {F : Type} [LinearOrder F]

/-- The attributes `ChineseTokenizer` sets.  It sets them on one `Token` object that it yields each time; a value here is the
content of that object at the time of the `yield`. jieba/analyse/analyzer.py:27-30. -/
structure WToken where
  original : Str
  text : Str
  pos : Nat
  startchar : Nat
  endchar : Nat
  deriving DecidableEq

/-- jieba/analyse/analyzer.py:21-31 `ChineseTokenizer.__call__`; `t` is `jieba.dt`. -/
def chineseTokenizerL (S : Sys F) (t : Nat) (text : PyText) (io : Bool) : Co World WToken Unit :=
  forIn (tokenizeL S t true true text io) (fun e (_ : Unit) =>
    if !(reAccepted.isMatch e.1) && e.1.length ≤ 1 then .ret ()
    else yieldAll [⟨e.1, e.1, e.2.1, e.2.1, e.2.2⟩]) ()

/-! ## The same with the `Token` object -/

/-- A `Token` object: the attributes above, once they are set, and any other attributes. jieba/analyse/analyzer.py:23. -/
structure WObj where
  core : Option WToken
  extra : List (Str × Str)

/-- The objects of the process by their addresses. Python itself. -/
abbrev Objs := Nat → WObj

/-- A program on the state of the process is one on the state with the objects. Not part of the code. -/
def onFst {W H α β : Type} : Co W α β → Co (W × H) α β
  | .ret b => .ret b
  | .raise e => .raise e
  | .yield a k => .yield a (onFst k)
  | .act f k => .act (fun p => (f p.1, p.2)) (fun p => onFst (k p.1))

/-- jieba/analyse/analyzer.py:27-31: the attributes of the object at `r` are set (line by line; nothing else runs between) and
the object is yielded. -/
def setToken (r : Nat) (w : Str) (start stop : Nat) : Co (World × Objs) Nat Unit :=
  .act (fun p => (p.1, fun x => if x = r then { p.2 r with core := some ⟨w, w, start, start, stop⟩ } else p.2 x)) (fun _ =>
    .yield r (.ret ()))

/-- jieba/analyse/analyzer.py:21-31 `ChineseTokenizer.__call__`, where `Token()` makes an object at the address `r`. -/
def chineseTokenizerO (S : Sys F) (t r : Nat) (text : PyText) (io : Bool) : Co (World × Objs) Nat Unit :=
  .act (fun p => (p.1, fun x => if x = r then ⟨none, []⟩ else p.2 x)) (fun _ =>
    forIn (onFst (tokenizeL S t true true text io)) (fun e (_ : Unit) =>
      if !(reAccepted.isMatch e.1) && e.1.length ≤ 1 then .ret ()
      else setToken r e.1 e.2.1 e.2.2) ())

end Jieba.Lazy
