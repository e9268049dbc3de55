import Verif.Model.Main
/-!
# jieba/__main__.py 7-29, 43 — the options of the command line

The declarations `parser.add_argument(...)` as a table, and what `parse_args` does with them; `argparse` is that of CPython 3.11.10
(`Lib/argparse.py`; other versions differ in the errors for unusual arguments).  The texts of messages are left out.
-/

namespace Jieba.Main
open Jieba Jieba.Pos

/-- The declared options and `-h`, which argparse adds. jieba/__main__.py:8-25. -/
inductive Opt where
  | delimiter | pos | dict | userDict | cutAll | noHmm | quiet | version | help
  deriving DecidableEq, Repr

/-- The option strings, jieba/__main__.py:8, 11, 13, 14, 16, 19, 21, 23, and those of `-h`. -/
def optionStrings : List (Str × Opt) :=
  [(lit ['-', 'd'], .delimiter), (lit ['-', '-', 'd', 'e', 'l', 'i', 'm', 'i', 't', 'e', 'r'], .delimiter),
   (lit ['-', 'p'], .pos), (lit ['-', '-', 'p', 'o', 's'], .pos),
   (lit ['-', 'D'], .dict), (lit ['-', '-', 'd', 'i', 'c', 't'], .dict),
   (lit ['-', 'u'], .userDict), (lit ['-', '-', 'u', 's', 'e', 'r', '-', 'd', 'i', 'c', 't'], .userDict),
   (lit ['-', 'a'], .cutAll), (lit ['-', '-', 'c', 'u', 't', '-', 'a', 'l', 'l'], .cutAll),
   (lit ['-', 'n'], .noHmm), (lit ['-', '-', 'n', 'o', '-', 'h', 'm', 'm'], .noHmm),
   (lit ['-', 'q'], .quiet), (lit ['-', '-', 'q', 'u', 'i', 'e', 't'], .quiet),
   (lit ['-', 'V'], .version), (lit ['-', '-', 'v', 'e', 'r', 's', 'i', 'o', 'n'], .version),
   (lit ['-', 'h'], .help), (lit ['-', '-', 'h', 'e', 'l', 'p'], .help)]

/-- `option_string in self._option_string_actions`. argparse, used at jieba/__main__.py:27. -/
def findOption (s : Str) : Option Opt := (optionStrings.find? (fun e => e.1 == s)).map Prod.snd

/-- How many values an option takes: none, at most one (`nargs='?'`), exactly one. jieba/__main__.py:8-25. -/
inductive Arity where
  | zero | atMostOne | one
  deriving DecidableEq

/-- jieba/__main__.py:8-25: `nargs='?'` for `-d` and `-p`, actions without a value for the switches. -/
def Opt.arity : Opt → Arity
  | .delimiter | .pos => .atMostOne
  | .dict | .userDict => .one
  | _ => .zero

/-- The result of `parse_args` (`delimiter` to `quiet` are jieba/__main__.py:8-22, `filename` is line 25). -/
structure Opts where
  args : Args
  quiet : Bool
  filename : Option Str

/-- The defaults: jieba/__main__.py:8 `' / '`, 16-17 `False`, 19-20 `True`, 21 `False`, otherwise `None`. -/
def Opts.default : Opts := ⟨⟨lit [' ', '/', ' '], none, none, none, false, true⟩, false, none⟩

/-- Storing the value of an option; `none`: no value given, then `-d` is `' '` and `-p` is `'_'` (`const`). jieba/__main__.py:8-22.
`none` cannot happen for `-D` and `-u`. -/
def Opts.store (o : Opts) (opt : Opt) (v : Option Str) : Opts :=
  match opt with
  | .delimiter => { o with args := { o.args with delimiter := v.getD (lit [' ']) } }
  | .pos => { o with args := { o.args with pos := some (v.getD (lit ['_'])) } }
  | .dict => { o with args := { o.args with dict := v } }
  | .userDict => { o with args := { o.args with userDict := v } }
  | .cutAll => { o with args := { o.args with cutAll := true } }
  | .noHmm => { o with args := { o.args with hmm := false } }
  | .quiet => { o with quiet := true }
  | .version | .help => o

/-- What an argument looks like to argparse (used at jieba/__main__.py:27): `A`, `O` or `-` in `arg_strings_pattern`.  In an option with
something attached, the flag says whether there is a `=` in between (`sep`). -/
inductive Kind where
  /-- `A`: a value or positional argument -/
  | value
  /-- `O`: an option string and what is attached to it -/
  | option (name : Str) (opt : Opt) (attached : Option (Bool × Str))
  /-- `O`: looks like an option but is none -/
  | unknown
  /-- an abbreviation of more than one option -/
  | ambiguous
  /-- `--` -/
  | dashes
  deriving DecidableEq

/-- `^-\d+$|^-\d*\.\d+$`, where `$` also matches before a final newline. argparse `_negative_number_matcher`, used at
jieba/__main__.py:27. -/
def isNegative (arg : Str) : Bool :=
  let s := if arg.getLast? = some 0x0A then arg.dropLast else arg
  match s with
  | 0x2D :: r =>
    let f := r.dropWhile isDecimal
    (r != [] && f == []) || (f.head? == some 0x2E && f.tail != [] && f.tail.all isDecimal)
  | _ => false

/-- argparse `_get_option_tuples`, used at jieba/__main__.py:27: the options that an argument with two dashes abbreviates, or the option
with the first letter of an argument with one dash (`startswith` cannot succeed there: the options with one dash have two characters). -/
def optionTuples (arg : Str) : List (Str × Opt × Option (Bool × Str)) :=
  if arg.take 2 = lit ['-', '-'] then
    let pre := arg.takeWhile (· != 0x3D)
    let attached := if 0x3D ∈ arg then some (true, arg.drop (pre.length + 1)) else none
    (optionStrings.filter (fun e => pre.isPrefixOf e.1)).map (fun e => (e.1, e.2, attached))
  else
    (optionStrings.filter (fun e => e.1 == arg.take 2)).map (fun e => (e.1, e.2, some (false, arg.drop 2)))

/-- argparse `_parse_optional`, used at jieba/__main__.py:27. -/
def kind (arg : Str) : Kind :=
  if arg = lit ['-', '-'] then .dashes
  else if arg.head? ≠ some 0x2D then .value
  else match findOption arg with
    | some opt => .option arg opt none
    | none =>
      if arg.length = 1 then .value
      else
        let pre := arg.takeWhile (· != 0x3D)
        match if 0x3D ∈ arg then findOption pre else none with
        | some opt => .option pre opt (some (true, arg.drop (pre.length + 1)))
        | none => match optionTuples arg with
          | [(name, opt, attached)] => .option name opt attached
          | _ :: _ :: _ => .ambiguous
          | [] => if isNegative arg then .value
                  else if 0x20 ∈ arg then .value
                  else .unknown

/-- What becomes of a command line. jieba/__main__.py:27. -/
inductive Parsed where
  | run (o : Opts)
  /-- the version or the help is printed, exit status 0 -/
  | exit (opt : Opt)
  /-- a usage error, exit status 2 -/
  | error

/-- The options in one argument (`-anq`, `-andX`): the actions to be taken in order, an option that looks for its value in the next
argument, and whether a rest was not recognised.  argparse `consume_optional`, used at jieba/__main__.py:27. -/
structure Cluster where
  acts : List (Opt × Option Str)
  open_ : Option Opt
  extra : Bool

/-- The loop of argparse `consume_optional`, used at jieba/__main__.py:27, with something attached to the option `opt`, written `name`; `none`
is an error. -/
def cluster : Str → Str → Opt → Bool → Option Cluster
  | [], _, opt, _ => if opt.arity = .zero then none else some ⟨[(opt, some [])], none, false⟩
  | c :: rest, name, opt, sep =>
    if opt.arity ≠ .zero then some ⟨[(opt, some (c :: rest))], none, false⟩
    else if name[1]? = some 0x2D || sep || c == 0x2D then none
    else match findOption [0x2D, c] with
      | none => some ⟨[(opt, none)], none, true⟩
      | some opt' =>
        (match rest with
          | [] => some (Cluster.mk [] (some opt') false)
          | e :: rest' => if e = 0x3D then cluster rest' [0x2D, c] opt' true else cluster (e :: rest') [0x2D, c] opt' false).map
          (fun (r : Cluster) => ⟨(opt, none) :: r.acts, r.open_, r.extra⟩)

/-- Where the scan of the arguments is: `o` is stored so far; `seen`: the positional argument has been taken; `extra`: there are unrecognised
arguments (an error once all arguments have been looked at); `pending`: an option that looks for its value in the next argument, after the
actions before it.  The local variables of argparse `_parse_known_args`, used at jieba/__main__.py:27. -/
inductive Scan where
  | going (o : Opts) (seen extra : Bool) (pending : Option (List (Opt × Option Str) × Opt))
  | halted (r : Parsed)

/-- Taking the actions: `-V` and `-h` end the program.  argparse `take_action`, used at jieba/__main__.py:27. -/
def take (seen extra : Bool) : Opts → List (Opt × Option Str) → Scan
  | o, [] => .going o seen extra none
  | o, (opt, v) :: l => if opt = .version ∨ opt = .help then .halted (.exit opt) else take seen extra (o.store opt v) l

/-- One argument, no option waiting for its value.  argparse `_parse_known_args`, used at jieba/__main__.py:27.  `--` does not come here
(`parseArgs`). -/
def scanArg (o : Opts) (seen extra : Bool) (arg : Str) : Scan :=
  match kind arg with
  | .dashes => .halted .error
  | .ambiguous => .halted .error
  | .unknown => .going o seen true none
  | .value => if seen then .going o seen true none else .going { o with filename := some arg } true extra none
  | .option name opt attached =>
    let r : Option Cluster := match attached with
      | none => some ⟨[], some opt, false⟩
      | some (sep, att) => cluster att name opt sep
    match r with
    | none => .halted .error
    | some ⟨acts, none, ex⟩ => take seen (extra || ex) o acts
    | some ⟨acts, some l, ex⟩ =>
      if l.arity = .zero then take seen (extra || ex) o (acts ++ [(l, none)])
      else .going o seen (extra || ex) (some (acts, l))

/-- The next argument.  argparse `_parse_known_args`, used at jieba/__main__.py:27. -/
def scanStep : Scan → Str → Scan
  | .halted r, _ => .halted r
  | .going o seen extra none, arg => scanArg o seen extra arg
  | .going o seen extra (some (acts, l)), arg =>
    if kind arg = .value then take seen extra o (acts ++ [(l, some arg)])
    else if l.arity = .one then .halted .error
    else match take seen extra o (acts ++ [(l, none)]) with
      | .going o seen extra _ => scanArg o seen extra arg
      | .halted r => .halted r

/-- After the last argument.  argparse `_parse_known_args` and `parse_args`, used at jieba/__main__.py:27. -/
def scanEnd : Scan → Parsed
  | .halted r => r
  | .going o _ extra none => if extra then .error else .run o
  | .going o seen extra (some (acts, l)) =>
    if l.arity = .one then .error
    else match take seen extra o (acts ++ [(l, none)]) with
      | .going o _ extra _ => if extra then .error else .run o
      | .halted r => r

/-- The state before the first argument: the defaults.  argparse `parse_known_args`, used at jieba/__main__.py:27. -/
def scanStart : Scan := .going Opts.default false false none

/-- Has the file name been taken?  argparse: `positionals` is empty; used at jieba/__main__.py:27. -/
def Scan.seen : Scan → Bool
  | .going _ seen _ _ => seen
  | .halted _ => false

/-- The end of a command line with `--`; `post` are the arguments after it, which all are values, and `just`: the file name was the argument
directly before `--` (then `consume_positionals` takes `--` along with it; otherwise `--` is not recognised after the file name).
argparse, used at jieba/__main__.py:27. -/
def scanDashes (just : Bool) (post : List Str) : Scan → Parsed
  | .halted r => r
  | .going o seen extra none =>
    if extra then .error
    else if seen then (if just && post.isEmpty then .run o else .error)
    else match post with
      | [] => .run o
      | [f] => .run { o with filename := some f }
      | _ => .error
  | .going o seen extra (some (acts, l)) =>
    if l.arity = .one then .error
    else match take seen extra o (acts ++ [(l, none)]) with
      | .going o seen extra _ =>
        if extra || seen then .error
        else match post with
          | [] => .run o
          | [f] => .run { o with filename := some f }
          | _ => .error
      | .halted r => r

/-- `parser.parse_args()`, jieba/__main__.py:27.  All arguments before a `--` are classified before anything else is done, so an ambiguous one
is an error whatever stands before it. -/
def parseArgs (argv : List Str) : Parsed :=
  let pre := argv.takeWhile (· != lit ['-', '-'])
  let S := pre.foldl scanStep scanStart
  if pre.any (fun a => kind a = .ambiguous) then .error
  else match argv.drop pre.length with
    | [] => scanEnd S
    | _ :: post => scanDashes (S.seen && !(pre.dropLast.foldl scanStep scanStart).seen) post S

/-- jieba/__main__.py:43: the text that is read; an empty file name counts as none. `file` gives the contents of the files, decoded. -/
def input (o : Opts) (stdin : Str) (file : Path → Option Str) : Except PyErr Str :=
  if truthyStr o.filename then
    match file (o.filename.getD []) with
    | some t => .ok t
    | none => .error .fileNotFound
  else .ok stdin

variable {F : Type _} [LinearOrder F]

/-- jieba/__main__.py as a whole: `none` if nothing is segmented (help, version, usage error).  If the input file
cannot be opened nothing is printed; the world then is left as it was, without the import of posseg (line 32). -/
def program (P : PSys F) (p : PWorld) (argv : List Str) (stdin : Str) (file : Path → Option Str) (io : Bool) : Option (PWorld × Gen Str) :=
  match parseArgs argv with
  | .run o => match input o stdin file with
    | .ok text => some (run P p o.args text io)
    | .error e => some (p, Gen.raise e)
  | _ => none

end Jieba.Main
