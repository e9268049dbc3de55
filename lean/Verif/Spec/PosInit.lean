import Verif.Model.PosInit
import Verif.Spec.PosCalls
import Verif.Spec.Fields
/-!
# `POSTokenizer.initialize()` while others work: the dictionary file, arguments, and where tags come from
-/

namespace Jieba.Spec
open Jieba.Lazy Jieba.Pos Jieba.Pos.Steps

/-- `ls` are the lines of the dictionary file of tokenizer `t`. -/
def DictLines (t : Nat) (w : World) (ls : List Bytes) : Prop := ∃ data, dictFile w (w.tok t).dictionary = .ok data ∧ FileLines data ls

/-- The last of the lines on which word `u` occurs gives it tag `g`; for `none`: the word is on none of the lines. -/
def LastTag (ls : List Bytes) (u : Str) : Option Str → Prop
  | none => ∀ l ∈ ls, ∀ g, ¬ TagEntry l u g
  | some g => ∃ a l b, ls = a ++ l :: b ∧ TagEntry l u g ∧ ∀ m ∈ b, ∀ h, ¬ TagEntry m u h

/-- The arguments of a call are as they should be; a POS tokenizer belongs to tokenizer `t`; when a POS tokenizer is to be initialised, the
dictionary file is there and each of its lines is blank or has a word, a frequency and a tag. -/
def ICallOk (t : Nat) (p : PWorld) : ICall → Prop
  | .call c => PCallOk t p c
  | .init k => (p.pos k).tok = t ∧ ∃ ls, DictLines t p.w ls ∧ ∀ l ∈ ls, Blank l ∨ ∃ u g, TagEntry l u g

/-- One of the calls uses POS tokenizer `k`. -/
def Uses (calls : List ICall) (k : Nat) : Prop := .init k ∈ calls ∨ ∃ hm s, .call (.tag k hm s) ∈ calls

/-- Tag `g` of word `u` was among the tags of user words when the calls began, or one of the calls gives it. -/
def UserTag (gbk : Bytes → Str) (t : Nat) (p : PWorld) (calls : List ICall) (u g : Str) : Prop :=
  (u, g) ∈ (p.w.tok t).tags ∨ ∃ c, .call (.tok c) ∈ calls ∧ Gives gbk p.w c u g

/-- Tag `g` of word `u` was in the table of some POS tokenizer in use when the calls began; or it is the tag of a user word; or some POS
tokenizer is being initialised and the tag is in the dictionary file. -/
def ITagKnown (gbk : Bytes → Str) (t : Nat) (p : PWorld) (calls : List ICall) (u g : Str) : Prop :=
  (∃ k, Uses calls k ∧ (u, g) ∈ (p.pos k).tab) ∨ UserTag gbk t p calls u g ∨
    ((∃ k, .init k ∈ calls) ∧ ∃ ls, DictLines t p.w ls ∧ ∃ l ∈ ls, TagEntry l u g)

end Jieba.Spec
