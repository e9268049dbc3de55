import Verif.Model.PosCalls
import Verif.Spec.Calls
import Verif.Spec.TagSource
/-!
# Segmenting, tagging and changing the dictionary at the same time: arguments, and where tags come from
-/

namespace Jieba.Spec
open Jieba.Lazy Jieba.Pos Jieba.Pos.Steps

/-- The arguments of a call are as they should be; a POS tokenizer belongs to tokenizer `t`. -/
def PCallOk (t : Nat) (p : PWorld) : PCall → Prop
  | .tok c => CallOk p.w c
  | .tag k _ _ => (p.pos k).tok = t

/-- The call, begun in state `w0`, gives tag `g` to word `u`. -/
def Gives (gbk : Bytes → Str) (w0 : World) : Call → Str → Str → Prop
  | .addWord word _ tag, u, g => strdecode gbk word = u ∧ tag = some g ∧ g ≠ []
  | .loadUserdict f, u, g => ∃ l, dictLines w0 f = some l ∧ ∃ ln ∈ l, ∃ line freq, UserLine ln line ∧ line ≠ [] ∧
      UserEntry line u freq (some g) ∧ g ≠ []
  | _, _, _ => False

/-- Tag `g` of word `u` was in the table of some POS tokenizer in use, or among the tags of user words, when the calls began; or one of
the calls gives it. -/
def TagKnown (gbk : Bytes → Str) (t : Nat) (p : PWorld) (calls : List PCall) (u g : Str) : Prop :=
  (∃ k hm s, .tag k hm s ∈ calls ∧ (u, g) ∈ (p.pos k).tab) ∨ (u, g) ∈ (p.w.tok t).tags ∨ ∃ c, .tok c ∈ calls ∧ Gives gbk p.w c u g

/-- The tag is one that is known for the word, or 'x', 'm' or 'eng'; or, only with HMM, the word consists of Han characters and the tag
is that of a state of the HMM. -/
def TagAmong {F : Type} (T : Tables F) (K : Str → Str → Prop) (hm : Bool) (w g : Str) : Prop :=
  K w g ∨ g ∈ [lit ['x'], lit ['m'], lit ['e', 'n', 'g']] ∨ (hm = true ∧ (∀ c ∈ w, isHan c = true) ∧ ∃ y, IsState T y ∧ g = y.2)

end Jieba.Spec
