import Verif.Model.Calls
import Verif.Spec.Fields
/-!
# Calls under way at the same time: what is expected of the arguments and of the results
-/

namespace Jieba.Spec
open Jieba.Lazy

/-- Arithmetic respects signs (true of exact numbers and of floats). -/
structure SignOk {F : Type} [LinearOrder F] (A : Arith F) : Prop where
  ofInt : ∀ n : Int, 0 ≤ n → A.zero ≤ A.ofInt n
  mul : ∀ x y, A.zero ≤ x → A.zero ≤ y → A.zero ≤ A.mul x y
  div : ∀ x y, A.zero ≤ x → A.zero ≤ y → A.zero ≤ A.div x y
  trunc : ∀ x, A.zero ≤ x → 0 ≤ A.trunc x

/-- The frequency is left out, or it is a number that is not negative. -/
def FreqOk : FreqArg → Prop
  | .none => True
  | .int n => 0 ≤ n
  | .str s => ∃ n, pyInt s = some n ∧ 0 ≤ n

/-- The segment of `suggest_freq` is a `str` or a tuple. -/
def SegOk : Segment → Prop
  | .text (.bytes _) => False
  | _ => True

/-- The line of a user dictionary can be decoded and has no line break within. -/
def LineOk (ln : PyText) : Prop := ∃ line, UserLine ln line ∧ 0x0A ∉ line

/-- The lines of a user dictionary. -/
def dictLines (w : World) : UserDict → Option (List PyText)
  | .path p => (w.files p).map (fun f => (fileLines f.data).map PyText.bytes)
  | .file data => some ((fileLines data).map PyText.bytes)
  | .lines l => some l

/-- The arguments of the call are as they should be: frequencies are not negative, a user dictionary given by its name exists,
and its lines can be read. -/
def CallOk (w : World) : Call → Prop
  | .addWord _ freq _ => FreqOk freq
  | .delWord _ => True
  | .suggestFreq seg _ => SegOk seg
  | .loadUserdict f => ∃ l, dictLines w f = some l ∧ ∀ ln ∈ l, LineOk ln
  | .cut _ _ _ => True
  | .cutForSearch _ _ => True

/-- What is returned: `suggest_freq` returns a frequency that is not negative, and is at least 1 for a word. -/
def ResultOk : Call → Option Int → Prop
  | .suggestFreq seg _, r => ∃ n, r = some n ∧ 0 ≤ n ∧ ∀ x, seg = .text x → 1 ≤ n
  | _, r => r = none

/-- The word that `suggest_freq` is about. -/
def segWord (gbk : Bytes → Str) : Segment → Str
  | .text x => strdecode gbk x
  | .tuple l => (l.map (strdecode gbk)).flatten

/-- The words that the call registers are in the table (`w0`: when the call began). -/
def Registered (gbk : Bytes → Str) (w0 : World) (freq : Freq) : Call → Prop
  | .addWord word _ _ => freq.has (strdecode gbk word) = true
  | .delWord word => freq.has (strdecode gbk word) = true
  | .suggestFreq seg tune => tune = true → freq.has (segWord gbk seg) = true
  | .loadUserdict f => ∀ l, dictLines w0 f = some l → ∀ ln ∈ l, ∀ line word a b, UserLine ln line → line ≠ [] →
      UserEntry line word a b → freq.has word = true
  | .cut _ _ _ => True
  | .cutForSearch _ _ => True

end Jieba.Spec
