import Verif.Model.Basic
/-!
# jieba/posseg/__init__.py — `POSTokenizer.__getattr__`

Attributes of objects, as far as `__getattr__` is concerned: every value is an object, named by a number.  An attribute is looked up
in the instance, then in its class, then by `__getattr__` if the class is `POSTokenizer`.  Simplified: properties and other data
descriptors of `object` (`__class__`, `__dict__`) are ordinary attributes of the class, and a method is one object whether it is
bound or not.
-/

namespace Jieba.Attr

/-- The objects of a process. Python itself, used at jieba/posseg/__init__.py:81, 87-91. -/
structure Heap where
  /-- the class is `POSTokenizer` -/
  isPos : Nat → Bool
  /-- the attributes of the instance -/
  own : Nat → PyDict String Nat
  /-- the attributes of the class -/
  cls : Nat → String → Option Nat

/-- What an attribute access can raise; jieba/posseg/__init__.py:88-91. -/
inductive Err where
  | notImplemented
  | attributeError
  | recursionError
  deriving DecidableEq

/-- Instance before class. Python itself, used at jieba/posseg/__init__.py:91. -/
def Heap.find (H : Heap) (o : Nat) (name : String) : Option Nat :=
  match (H.own o).get? name with
  | some v => some v
  | none => H.cls o name

/-- jieba/posseg/__init__.py:88 -/
def refused : List String := ["cut_for_search", "lcut_for_search", "tokenize"]

/-- `getattr(o, name)` with `__getattr__` of `POSTokenizer`, jieba/posseg/__init__.py:87-91; `self.tokenizer` in line 91 is itself an
attribute access.  `depth` is how many nested calls the interpreter allows. -/
def getattr (H : Heap) : Nat → Nat → String → Except Err Nat
  | 0, _, _ => .error .recursionError
  | depth + 1, o, name =>
    match H.find o name with
    | some v => .ok v
    | none =>
      if H.isPos o then
        if name ∈ refused then .error .notImplemented
        else match getattr H depth o "tokenizer" with
          | .error e => .error e
          | .ok t => getattr H depth t name
      else .error .attributeError

/-- The names that class `POSTokenizer` defines, jieba/posseg/__init__.py:80-252 (those with two underscores at the beginning are prefixed with the
name of the class). -/
def posClass : List String := ["__init__", "__repr__", "__getattr__", "initialize", "load_word_tag", "makesure_userdict_loaded", "_POSTokenizer__cut",
  "_POSTokenizer__cut_detail", "_POSTokenizer__cut_DAG_NO_HMM", "_POSTokenizer__cut_DAG", "_POSTokenizer__cut_internal", "_lcut_internal",
  "_lcut_internal_no_hmm", "cut", "lcut"]

/-- The attributes of a `POSTokenizer`, jieba/posseg/__init__.py:81, 98. -/
def posOwn : List String := ["tokenizer", "word_tag_tab"]

/-- The names that class `Tokenizer` defines, jieba/__init__.py:55-515. -/
def tokClass : List String := ["__init__", "__repr__", "gen_pfdict", "initialize", "check_initialized", "calc", "get_DAG", "_Tokenizer__cut_all",
  "_Tokenizer__cut_DAG_NO_HMM", "_Tokenizer__cut_DAG", "cut", "cut_for_search", "lcut", "lcut_for_search", "_lcut", "_lcut_for_search", "_lcut_no_hmm",
  "_lcut_all", "_lcut_for_search_no_hmm", "get_dict_file", "load_userdict", "add_word", "del_word", "suggest_freq", "tokenize", "set_dictionary"]

/-- The attributes of a `Tokenizer`, jieba/__init__.py:56-66. -/
def tokOwn : List String := ["lock", "dictionary", "FREQ", "total", "user_word_tag_tab", "initialized", "tmp_dir", "cache_file"]

/-- `setattr(o, name, v)`: no class here defines `__setattr__`. Python itself, used at jieba/posseg/__init__.py:81, 98, 115. -/
def setattr (H : Heap) (o : Nat) (name : String) (v : Nat) : Heap :=
  { H with own := fun p => if p = o then (H.own o).set name v else H.own p }

/-- jieba/posseg/__init__.py:112-115 `makesure_userdict_loaded` as far as attributes are concerned, when the table is not empty:
`self.tokenizer.user_word_tag_tab = {}`, where `new` is the new dict. -/
def clearUserTags (H : Heap) (depth : Nat) (o new : Nat) : Except Err Heap :=
  match getattr H depth o "tokenizer" with
  | .error e => .error e
  | .ok t => .ok (setattr H t "user_word_tag_tab" new)

end Jieba.Attr
