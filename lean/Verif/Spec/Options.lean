import Verif.Model.Options
/-!
# How options are written on a command line

What a user may write, by the usage text of `python -m jieba` (jieba/__main__.py 7-25) and the conventions of command lines, without
reference to how arguments are parsed.
-/

namespace Jieba.Spec
open Jieba

/-- The options without a value. -/
inductive Switch where
  | cutAll | noHmm | quiet
  deriving DecidableEq

/-- The options with a value. -/
inductive Valued where
  | delimiter | pos | dict | userDict
  deriving DecidableEq

/-- What a command line says. -/
inductive Item where
  | switch (x : Switch)
  /-- `none`: the option is written without a value -/
  | valued (o : Valued) (v : Option Str)
  | file (v : Str)
  deriving DecidableEq

def Switch.letter : Switch → Nat
  | .cutAll => 'a'.toNat
  | .noHmm => 'n'.toNat
  | .quiet => 'q'.toNat

def Switch.long : Switch → Str
  | .cutAll => lit ['-', '-', 'c', 'u', 't', '-', 'a', 'l', 'l']
  | .noHmm => lit ['-', '-', 'n', 'o', '-', 'h', 'm', 'm']
  | .quiet => lit ['-', '-', 'q', 'u', 'i', 'e', 't']

def Valued.letter : Valued → Nat
  | .delimiter => 'd'.toNat
  | .pos => 'p'.toNat
  | .dict => 'D'.toNat
  | .userDict => 'u'.toNat

def Valued.long : Valued → Str
  | .delimiter => lit ['-', '-', 'd', 'e', 'l', 'i', 'm', 'i', 't', 'e', 'r']
  | .pos => lit ['-', '-', 'p', 'o', 's']
  | .dict => lit ['-', '-', 'd', 'i', 'c', 't']
  | .userDict => lit ['-', '-', 'u', 's', 'e', 'r', '-', 'd', 'i', 'c', 't']

/-- The value may be left out. -/
def Valued.Bare (o : Valued) : Prop := o = .delimiter ∨ o = .pos

def longNames : List Str :=
  [Switch.long .cutAll, Switch.long .noHmm, Switch.long .quiet, Valued.long .delimiter, Valued.long .pos, Valued.long .dict,
   Valued.long .userDict, lit ['-', '-', 'v', 'e', 'r', 's', 'i', 'o', 'n'], lit ['-', '-', 'h', 'e', 'l', 'p']]

/-- A long name, or the beginning of it that no other long name has. -/
def Abbrev (s long : Str) : Prop := 3 ≤ s.length ∧ s <+: long ∧ ∀ l ∈ longNames, s <+: l → l = long

/-- The letters of the options. -/
def letters : List Nat := "anqdpDuVh".toList.map Char.toNat

/-- Not empty, and only digits from 0 to 9. -/
def Digits (v : Str) : Prop := v ≠ [] ∧ ∀ c ∈ v, '0'.toNat ≤ c ∧ c ≤ '9'.toNat

/-- Cannot be taken for an option: does not start with a dash, is a single dash, a negative number (-5, -.5, -2.5), or is one dash followed by
no option letter with a space somewhere. -/
inductive Plain : Str → Prop
  | word (v : Str) (h : v.head? ≠ some '-'.toNat) : Plain v
  | dash : Plain ['-'.toNat]
  | int (v : Str) (h : Digits v) : Plain ('-'.toNat :: v)
  | decimal (v w : Str) (hv : v = [] ∨ Digits v) (hw : Digits w) : Plain ('-'.toNat :: (v ++ '.'.toNat :: w))
  | space (c : Nat) (v : Str) (hc : c ∉ letters) (hd : c ≠ '-'.toNat) (h : ' '.toNat ∈ c :: v) : Plain ('-'.toNat :: c :: v)

def dash : Nat := '-'.toNat

/-- The ways to write a few items that belong together: a file name; a long name, possibly abbreviated, with the value after `=` or in the next
argument; short names in one argument (`-anq`), the last of which may have a value, directly (`-dX`), after `=`, or in the
next argument. -/
inductive Chunk : List Item → List Str → Prop
  | file (v : Str) (hv : Plain v) : Chunk [.file v] [v]
  | longSwitch (x : Switch) (s : Str) (hs : Abbrev s x.long) : Chunk [.switch x] [s]
  | longBare (o : Valued) (s : Str) (ho : o.Bare) (hs : Abbrev s o.long) : Chunk [.valued o none] [s]
  | longNext (o : Valued) (s v : Str) (hs : Abbrev s o.long) (hv : Plain v) : Chunk [.valued o (some v)] [s, v]
  | longEq (o : Valued) (s v : Str) (hs : Abbrev s o.long) : Chunk [.valued o (some v)] [s ++ '='.toNat :: v]
  | switches (xs : List Switch) (x : Switch) : Chunk (xs.map .switch ++ [.switch x]) [dash :: (xs.map Switch.letter ++ [x.letter])]
  | shortBare (xs : List Switch) (o : Valued) (ho : o.Bare) :
      Chunk (xs.map .switch ++ [.valued o none]) [dash :: (xs.map Switch.letter ++ [o.letter])]
  | shortNext (xs : List Switch) (o : Valued) (v : Str) (hv : Plain v) :
      Chunk (xs.map .switch ++ [.valued o (some v)]) [dash :: (xs.map Switch.letter ++ [o.letter]), v]
  | shortEq (xs : List Switch) (o : Valued) (v : Str) :
      Chunk (xs.map .switch ++ [.valued o (some v)]) [dash :: (xs.map Switch.letter ++ o.letter :: '='.toNat :: v)]
  | shortGlued (xs : List Switch) (o : Valued) (v : Str) (hv : v ≠ []) (he : v.head? ≠ some '='.toNat) :
      Chunk (xs.map .switch ++ [.valued o (some v)]) [dash :: (xs.map Switch.letter ++ o.letter :: v)]

/-- A command line: such pieces one after the other; directly after an option whose value is left out there is no file name. -/
inductive Line : List Item → List Str → Prop
  | nil : Line [] []
  | cons {is js : List Item} {as bs : List Str} (h : Chunk is as) (t : Line js bs)
      (hb : ∀ o, is.getLast? = some (.valued o none) → ∀ v, js.head? ≠ some (.file v)) : Line (is ++ js) (as ++ bs)

/-- The value of the last occurrence of an option. -/
def lastValue (o : Valued) (items : List Item) : Option (Option Str) :=
  (items.filterMap (fun i => match i with
    | .valued o' v => if o' = o then some v else none
    | _ => none)).getLast?

/-- The file names. -/
def files (items : List Item) : List Str :=
  items.filterMap (fun i => match i with
    | .file v => some v
    | _ => none)

/-- What the items mean: the last occurrence of an option counts; the delimiter is `' / '` without `-d` and a space if `-d` has no value;
the tags are separated by `_` if `-p` has no value; switches may be repeated. -/
def settings (items : List Item) : Main.Opts where
  args := {
    delimiter := match lastValue .delimiter items with
      | none => lit [' ', '/', ' ']
      | some none => lit [' ']
      | some (some v) => v
    pos := match lastValue .pos items with
      | none => none
      | some none => some (lit ['_'])
      | some (some v) => some v
    dict := (lastValue .dict items).join
    userDict := (lastValue .userDict items).join
    cutAll := decide (Item.switch .cutAll ∈ items)
    hmm := !decide (Item.switch .noHmm ∈ items) }
  quiet := decide (Item.switch .quiet ∈ items)
  filename := (files items).head?

end Jieba.Spec
