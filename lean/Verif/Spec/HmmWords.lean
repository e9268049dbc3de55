import Verif.Spec.Tags
/-!
# Specification vocabulary: what `finalseg.cut` makes of a text
-/

namespace Jieba.Spec
open Jieba Jieba.FinalSeg

/-- The words that a tagging stands for: a word ends after each 'E' and each 'S'; `acc` is the unfinished word. -/
def wordsByTags : List (Ch × St) → Str → List Str
  | [], acc => if acc = [] then [] else [acc]
  | (c, t) :: r, acc => if t = .E ∨ t = .S then (acc ++ [c]) :: wordsByTags r [] else wordsByTags r (acc ++ [c])

variable {F : Type _} [LinearOrder F]

/-- A complete tagging of `s` with the largest score. -/
structure BestTags (A : Arith F) (T : Tables F) (s : Str) (tags : List St) : Prop where
  length : tags.length = s.length
  valid : ValidTags tags
  best : ∀ other : List St, other.length = s.length → ValidTags other →
    tagScore A T (s.zip other) ≤ tagScore A T (s.zip tags)

/-- `f` is the decimal point with the digits behind it, if that is how the text goes on, otherwise empty; `after` comes behind `f`. -/
def Fraction (f after : Str) : Prop :=
  (∃ ds, ds ≠ [] ∧ f = 0x2E :: ds ∧ (∀ c ∈ ds, isDecimal c = true) ∧ ∀ c, after.head? = some c → isDecimal c = false) ∨
  (f = [] ∧ ∀ d r, after = 0x2E :: d :: r → isDecimal d = false)

/-- `p` is the percent sign if there is one, otherwise empty; `after` comes behind `p`. -/
def Percent (p after : Str) : Prop := p = [0x25] ∨ (p = [] ∧ after.head? ≠ some 0x25)

/-- How text without Han characters is cut: runs of letters and digits, with decimals and a percent sign if they follow, and
what is between them. -/
inductive NumberTokens : Str → List Str → Prop
  | nil : NumberTokens [] []
  | other (u rest ts) : u ≠ [] → (∀ c ∈ u, isAlnum c = false) → (∀ c, rest.head? = some c → isAlnum c = true) →
      NumberTokens rest ts → NumberTokens (u ++ rest) (u :: ts)
  | number (w f p rest ts) : w ≠ [] → (∀ c ∈ w, isAlnum c = true) →
      (∀ c, (f ++ p ++ rest).head? = some c → isAlnum c = false) → Fraction f (p ++ rest) → Percent p rest →
      NumberTokens rest ts → NumberTokens (w ++ f ++ p ++ rest) ((w ++ f ++ p) :: ts)

/-- How any text is cut: each maximal run of Han characters by a best tagging, where words of `force` are taken apart; and the text
between them as numbers and other text. -/
inductive FinalTokens (A : Arith F) (T : Tables F) (force : List Str) : Str → List Str → Prop
  | nil : FinalTokens A T force [] []
  | han (u rest tags ts) : u ≠ [] → (∀ c ∈ u, isHan c = true) → (∀ c, rest.head? = some c → isHan c = false) →
      BestTags A T u tags → FinalTokens A T force rest ts →
      FinalTokens A T force (u ++ rest)
        ((wordsByTags (u.zip tags) []).flatMap (fun w => if w ∈ force then w.map (fun c => [c]) else [w]) ++ ts)
  | other (u rest ws ts) : u ≠ [] → (∀ c ∈ u, isHan c = false) → (∀ c, rest.head? = some c → isHan c = true) →
      NumberTokens u ws → FinalTokens A T force rest ts → FinalTokens A T force (u ++ rest) (ws ++ ts)

end Jieba.Spec
