import Verif.Model.Tokenizer
import Verif.Spec.Tags
/-!
# Specification vocabulary: dictionaries, admissible segmentations and their scores
-/

namespace Jieba.Spec
open Jieba

/-- `w` is a dictionary word: registered with a non-zero frequency. -/
def DictWord (freq : Freq) (w : Str) : Prop := ∃ v, freq.get? w = some v ∧ v ≠ 0

instance (freq : Freq) (w : Str) : Decidable (DictWord freq w) :=
  decidable_of_iff (freq.truthy w = true) (by
    unfold Freq.truthy DictWord; cases PyDict.get? freq w <;> simp)

/-- Every non-empty prefix of a registered string is registered. -/
def PrefixClosed (freq : Freq) : Prop :=
  ∀ w, freq.has w = true → ∀ p, p ≠ [] → p <+: w → freq.has p = true

/-- No negative frequency. -/
def NonNeg (freq : Freq) : Prop := ∀ w v, freq.get? w = some v → 0 ≤ v

/-- `w` may be the next word of a segmentation of `rest`: it is a non-empty beginning of `rest` which is a dictionary
word, or it is a single character at a place where no dictionary word starts. -/
def NextWord (freq : Freq) (rest w : Str) : Prop :=
  w ≠ [] ∧ w <+: rest ∧
    (DictWord freq w ∨ (w.length = 1 ∧ ∀ v, v ≠ [] → v <+: rest → ¬ DictWord freq v))

/-- The segmentations the tokenizer may choose from. -/
def Admissible (freq : Freq) : Str → List Str → Prop
  | s, [] => s = []
  | s, w :: ws => NextWord freq s w ∧ Admissible freq (s.drop w.length) ws

/-- The frequency used for scoring: that of the dictionary, or 1 for unknown (or zero-frequency) words. -/
def scoreFreq (freq : Freq) (w : Str) : Int :=
  match freq.get? w with
  | some v => if v = 0 then 1 else v
  | none => 1

/-- Score of a segmentation: sum over its words of `log(freq) - log(total)`, added up from the right. -/
def segScore {F : Type _} (A : Arith F) (freq : Freq) (total : Int) : List Str → F
  | [] => A.zero
  | w :: ws => A.add (A.sub (A.log (scoreFreq freq w).toNat) (A.log total.toNat)) (segScore A freq total ws)

/-- `path` is the best segmentation of `s`: at every point its next word starts a best segmentation of the remaining
text, and is the longest word that does. -/
def IsBest {F : Type _} [LinearOrder F] (A : Arith F) (freq : Freq) (total : Int) : Str → List Str → Prop
  | s, [] => s = []
  | s, w :: ws => NextWord freq s w ∧ IsBest A freq total (s.drop w.length) ws ∧
      ∀ w' ws', Admissible freq s (w' :: ws') →
        segScore A freq total (w' :: ws') < segScore A freq total (w :: ws) ∨
        (segScore A freq total (w' :: ws') = segScore A freq total (w :: ws) ∧ w'.length ≤ w.length)

/-- `toks` arises from `path` by rewriting each maximal run of consecutive `single` words with `f` and keeping all
other words. -/
inductive Regrouped (single : Str → Prop) (f : List Str → List Str) : List Str → List Str → Prop
  | nil : Regrouped single f [] []
  | word (w ps ts) : ¬ single w → Regrouped single f ps ts → Regrouped single f (w :: ps) (w :: ts)
  | run (r ps ts) : r ≠ [] → (∀ w ∈ r, single w) → (∀ w, ps.head? = some w → ¬ single w) →
      Regrouped single f ps ts → Regrouped single f (r ++ ps) (f r ++ ts)

/-- A single ASCII letter or digit. -/
def IsLetter (w : Str) : Prop := ∃ c, w = [c] ∧ isAlnum c = true

/-- Tokens with their start offsets. -/
def spans : Nat → List Str → List (Nat × Str)
  | _, [] => []
  | o, w :: ws => (o, w) :: spans (o + w.length) ws

end Jieba.Spec
