import Verif.Model.PosWorld
/-!
# jieba/__main__.py — the command line

`args` is what `parse_args` returns (argparse is in Model/Options); decoding of the input, encoding of the output and `setLogLevel` are not
modelled.  The module `jieba` starts with `dt` as tokenizer 0 and `jieba.posseg.dt` is POS tokenizer 0.
-/

namespace Jieba.Main
open Jieba Jieba.Pos

/-- Reading in text mode turns `\r\n` and `\r` into `\n`. Python itself, used at jieba/__main__.py:43, 52, 59. -/
def universalNewlines : Str → Str
  | 0x0D :: 0x0A :: s => 0x0A :: universalNewlines s
  | 0x0D :: s => 0x0A :: universalNewlines s
  | c :: s => c :: universalNewlines s
  | [] => []

/-- The successive results of `fp.readline()` on a text file until it returns the empty string. Python itself, used at jieba/__main__.py:52, 59. -/
def readLines (text : Str) : List Str := fileLines (universalNewlines text)

/-- jieba/__main__.py:7-27: the options that matter here; `delimiter` is `' / '` by default. -/
structure Args where
  delimiter : Str
  pos : Option Str
  dict : Option Path
  userDict : Option Path
  cutAll : Bool
  hmm : Bool

variable {F : Type _} [LinearOrder F]

/-- jieba/__main__.py:31-32, 45-50: `import jieba.posseg` (only with POS tagging), `initialize` and `load_userdict`. -/
def setup (P : PSys F) (p : PWorld) (a : Args) (io : Bool) : PWorld × Except PyErr Unit :=
  match if truthyStr a.pos then newPos p 0 0 else (p, .ok ()) with
  | (p, .error e) => (p, .error e)
  | (p, .ok ()) => match initTok P.sys p.w 0 a.dict io with
    | (w, .error e) => ({ p with w := w }, .error e)
    | (w, .ok ()) =>
      if truthyStr a.userDict then
        let r := loadUserdict P.sys w 0 (.path (a.userDict.getD [])) io
        ({ p with w := r.1 }, r.2)
      else ({ p with w := w }, .ok ())

/-- jieba/__main__.py:31-38 `cutfunc` -/
def cutfunc (P : PSys F) (p : PWorld) (a : Args) (l : Str) (io : Bool) : PWorld × Gen Str :=
  if truthyStr a.pos then
    let r := cutPW P p 0 a.hmm (.str l) io
    (r.1, r.2.mapOut (fun q => [q.1 ++ a.pos.getD [] ++ q.2]))
  else
    let r := cutW P.sys p.w 0 a.cutAll a.hmm (.str l) io
    ({ p with w := r.1 }, r.2)

/-- jieba/__main__.py:52-59: the loop; what is printed, without the final line ends. -/
def printLoop (P : PSys F) (a : Args) (io : Bool) : PWorld → List Str → PWorld × Gen Str
  | p, [] => (p, Gen.ok [])
  | p, ln :: lns =>
    let r := cutfunc P p a (rstripBy (fun c => c == 0x0D || c == 0x0A) ln) io
    match r.2.err with
    | some e => (r.1, Gen.raise e)
    | none =>
      let q := printLoop P a io r.1 lns
      (q.1, Gen.andThen (Gen.ok [a.delimiter.intercalate r.2.out]) q.2)

/-- jieba/__main__.py:29-61: everything after `parse_args`, for a file (or standard input) with the given text. -/
def run (P : PSys F) (p : PWorld) (a : Args) (text : Str) (io : Bool) : PWorld × Gen Str :=
  match setup P p a io with
  | (p, .error e) => (p, Gen.raise e)
  | (p, .ok ()) => printLoop P a io p (readLines text)

/-- What is written to standard output by `print`. Python itself, used at jieba/__main__.py:58. -/
def stdout (g : Gen Str) : Str := (g.out.map (fun l => l ++ [0x0A])).flatten

end Jieba.Main
