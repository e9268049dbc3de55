import Verif.Spec.Dictionary
/-!
# Walks through a graph of word ends
-/

namespace Jieba.Spec
open Jieba

/-- Every position before `n` has at least one end, and its ends are not before it and before `n`. -/
def SoundGraph (n : Nat) (dag : List (List Nat)) : Prop :=
  ∀ x < n, ∃ L, dag[x]? = some L ∧ L ≠ [] ∧ ∀ e ∈ L, x ≤ e ∧ e < n

/-- `es` are the ends of the words of a walk from position `x` to position `n`: every end is listed at the position where its word starts. -/
def Walk (dag : List (List Nat)) (n : Nat) : Nat → List Nat → Prop
  | x, [] => x = n
  | x, e :: es => x < n ∧ (∃ L, dag[x]? = some L ∧ e ∈ L) ∧ Walk dag n (e + 1) es

/-- The words of a walk. -/
def walkWords (s : Str) : Nat → List Nat → List Str
  | _, [] => []
  | x, e :: es => (s.drop x).take (e + 1 - x) :: walkWords s (e + 1) es

/-- The ends that `route` chooses from position `x` on, up to the end of the text. -/
def Chosen {F : Type _} (n : Nat) (route : List (F × Nat)) : Nat → List Nat → Prop
  | x, [] => x = n
  | x, e :: es => x < n ∧ (∃ v, route[x]? = some (v, e)) ∧ Chosen n route (e + 1) es

end Jieba.Spec
