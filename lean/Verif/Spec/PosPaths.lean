import Verif.Spec.PosTables
/-!
# Specification vocabulary: which state sequences the POS tagger compares, their scores, and the words they describe
-/

namespace Jieba.Spec
open Jieba Jieba.Pos

variable {F : Type _}

/-- The states listed for the character; all states for a character that is not listed. -/
def StateOf (T : Tables F) (c : Ch) (y : PState) : Prop :=
  (∃ l, T.charStates.get? c = some l ∧ y ∈ l) ∨ (T.charStates.get? c = none ∧ T.trans.has y = true)

/-- States at the end of a text (given reversed): at the first character the states of that character; later the states of
the character that some state of the position before leads to, or, if there is none, all states that some state of the
position before leads to. -/
def AllowedRev (T : Tables F) : Str → PState → Prop
  | [], _ => False
  | [c], y => StateOf T c y
  | c :: d :: s, y =>
    (∃ x, AllowedRev T (d :: s) x ∧ Edge T x y) ∧
      (StateOf T c y ∨ ¬ ∃ z, StateOf T c z ∧ ∃ x, AllowedRev T (d :: s) x ∧ Edge T x z)

/-- States allowed at the last character of the text. -/
def Allowed (T : Tables F) (s : Str) (y : PState) : Prop := AllowedRev T s.reverse y

/-- Emission log-probability; `e` is the smallest float if the character is not listed for the state. -/
def Emits (T : Tables F) (y : PState) (c : Ch) (e : F) : Prop :=
  ∃ em, T.emit.get? y = some em ∧ e = (em.get? c).getD T.minFloat

/-- `Scored A T s ys v`: the states `ys`, one for each character of `s`, are allowed, follow transitions, and have the score
`v`, added from left to right. -/
inductive Scored (A : Arith F) (T : Tables F) : Str → List PState → F → Prop
  | one (c : Ch) (y : PState) (p e : F) : Allowed T [c] y → T.start.get? y = some p → Emits T y c e → Scored A T [c] [y] (A.add p e)
  | snoc (s : Str) (ys : List PState) (x : PState) (v : F) (c : Ch) (y : PState) (tx : PyDict PState F) (p e : F) :
      Scored A T s (ys ++ [x]) v → Allowed T (s ++ [c]) y → T.trans.get? x = some tx → tx.get? y = some p → Emits T y c e →
      Scored A T (s ++ [c]) (ys ++ [x] ++ [y]) (A.add (A.add v p) e)

/-- The order of Python tuples of strings, the first of length one. -/
def Smaller (x y : PState) : Prop := x.1 < y.1 ∨ (x.1 = y.1 ∧ x.2 < y.2)

/-- At the last position where they differ, the first sequence has the larger state. -/
def LastLarger (a b : List PState) : Prop :=
  ∃ (p q r : List PState) (x y : PState), a = p ++ x :: r ∧ b = q ++ y :: r ∧ Smaller y x

variable [LinearOrder F]

/-- An allowed state sequence for `s` with the largest score. -/
def BestStates (A : Arith F) (T : Tables F) (s : Str) (ys : List PState) : Prop :=
  ∃ v, Scored A T s ys v ∧ ∀ ys' w, Scored A T s ys' w → w ≤ v

/-- The tagged words that a state sequence stands for: a word ends after each 'E' and each 'S', and its tag is that of its last
state; what is left at the end is a word with the tag of its first state.  `acc` is the unfinished word. -/
def wordsByStates : List (Ch × PState) → List (Ch × PState) → List Pair
  | [], [] => []
  | [], (c, p) :: acc => [(((c, p) :: acc).map Prod.fst, p.2)]
  | (c, p) :: r, acc =>
    if p.1 = 'E'.toNat ∨ p.1 = 'S'.toNat then (acc.map Prod.fst ++ [c], p.2) :: wordsByStates r []
    else wordsByStates r (acc ++ [(c, p)])

/-- A dot or an ASCII digit. -/
def IsNumCh (c : Ch) : Prop := c = '.'.toNat ∨ ('0'.toNat ≤ c ∧ c ≤ '9'.toNat)

/-- An ASCII letter or digit. -/
def IsAlnumCh (c : Ch) : Prop :=
  ('0'.toNat ≤ c ∧ c ≤ '9'.toNat) ∨ ('a'.toNat ≤ c ∧ c ≤ 'z'.toNat) ∨ ('A'.toNat ≤ c ∧ c ≤ 'Z'.toNat)

/-- How text without Han characters is cut and tagged: a maximal run of dots and digits is a number, a maximal run of letters
and digits that begins with a letter is foreign, the rest is 'x'. -/
inductive LatinPairs : Str → List Pair → Prop
  | nil : LatinPairs [] []
  | num (u rest qs) : u ≠ [] → (∀ c ∈ u, IsNumCh c) → (∀ c, rest.head? = some c → ¬ IsNumCh c) →
      LatinPairs rest qs → LatinPairs (u ++ rest) ((u, lit ['m']) :: qs)
  | eng (c u rest qs) : ¬ IsNumCh c → (∀ d ∈ c :: u, IsAlnumCh d) → (∀ d, rest.head? = some d → ¬ IsAlnumCh d) →
      LatinPairs rest qs → LatinPairs (c :: u ++ rest) ((c :: u, lit ['e', 'n', 'g']) :: qs)
  | other (u rest qs) : u ≠ [] → (∀ c ∈ u, ¬ IsNumCh c ∧ ¬ IsAlnumCh c) → (∀ c, rest.head? = some c → IsNumCh c ∨ IsAlnumCh c) →
      LatinPairs rest qs → LatinPairs (u ++ rest) ((u, lit ['x']) :: qs)

/-- How the HMM of the POS tagger cuts and tags a text: each maximal run of Han characters by a best state sequence, the text
between them as above. -/
inductive DetailPairs (A : Arith F) (T : Tables F) : Str → List Pair → Prop
  | nil : DetailPairs A T [] []
  | han (u rest ys qs) : u ≠ [] → (∀ c ∈ u, isHan c = true) → (∀ c, rest.head? = some c → isHan c = false) →
      BestStates A T u ys → DetailPairs A T rest qs → DetailPairs A T (u ++ rest) (wordsByStates (u.zip ys) [] ++ qs)
  | other (u rest ws qs) : u ≠ [] → (∀ c ∈ u, isHan c = false) → (∀ c, rest.head? = some c → isHan c = true) →
      LatinPairs u ws → DetailPairs A T rest qs → DetailPairs A T (u ++ rest) (ws ++ qs)

end Jieba.Spec
