import Verif.Model.FinalSeg
import Mathlib.Data.List.Chain
/-!
# Specification vocabulary: BMES tag sequences and their scores
-/

namespace Jieba.Spec
open Jieba Jieba.FinalSeg

/-- Which tag may directly follow which: after B or M the word goes on (M or E); after E or S a new word starts. -/
def mayFollow : St → St → Bool
  | .B, .M | .B, .E | .M, .M | .M, .E | .E, .B | .E, .S | .S, .B | .S, .S => true
  | _, _ => false

/-- A complete tagging of a block: every step allowed, last tag closes a word. -/
structure ValidTags (tags : List St) : Prop where
  chain : tags.IsChain (fun a b => mayFollow a b = true)
  closed : ∀ t, tags.getLast? = some t → t = .E ∨ t = .S

/-- The letter of a tag. -/
def tagLetter : St → Char
  | .B => 'B' | .M => 'M' | .E => 'E' | .S => 'S'

/-- At the last position where they differ, the first tagging has the tag that comes later in the alphabet. -/
def LastLetterLarger (a b : List St) : Prop :=
  ∃ (p q r : List St) (x y : St), a = p ++ x :: r ∧ b = q ++ y :: r ∧ tagLetter y < tagLetter x

variable {F : Type _}

/-- Score of tagged characters, accumulated from left to right:
`start(t0)+emit(t0,c0)`, then `(.. + trans(t,t')) + emit(t',c')` for each further character. -/
def tagScore (A : Arith F) (T : Tables F) : List (Ch × St) → F
  | [] => A.zero
  | (c, y) :: r =>
    (r.foldl (fun (p : F × St) (q : Ch × St) =>
        (A.add (A.add p.1 ((T.trans p.2 q.2).getD T.minFloat)) ((T.emit q.2 q.1).getD T.minFloat), q.2))
      (A.add (T.start y) ((T.emit y c).getD T.minFloat), y)).1

/-- Addition is monotone in both arguments (true of IEEE addition, and of exact addition). -/
structure MonoAdd [LinearOrder F] (A : Arith F) : Prop where
  left : ∀ a b c : F, a ≤ b → A.add a c ≤ A.add b c
  right : ∀ a b c : F, a ≤ b → A.add c a ≤ A.add c b

end Jieba.Spec
