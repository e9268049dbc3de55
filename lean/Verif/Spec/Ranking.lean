import Mathlib.Algebra.BigOperators.Group.Finset.Basic
import Mathlib.Algebra.Order.Field.Basic
import Verif.Model.Basic
/-!
# Weights of nodes that are linked to each other (TextRank)
-/

namespace Jieba.Spec
open Jieba

open Classical in
/-- The number of positions `i`, `j` of `ts`, `i` before `j` and fewer than `span` apart, where `at_ i u` and `at_ j v`. -/
noncomputable def together {κ : Type _} (n span : Nat) (at_ : Nat → κ → Prop) (u v : κ) : Nat :=
  ∑ i ∈ Finset.range n, ∑ j ∈ Finset.range n, if i < j ∧ j < i + span ∧ at_ i u ∧ at_ j v then 1 else 0

/-- `S t n` is the value of node `n` after `t` rounds.  It starts with 1 / (number of nodes).  In a round the nodes are visited
in the order `nodes`; node `n` gets `(1 - d) + d * Σ_v (w n v / Σ_u w v u) * S v`, where the nodes visited before `n` already
have their new value and the others (and `n`) their old one. -/
structure Ranking {κ F : Type _} [DecidableEq κ] [Field F] (nodes : List κ) (w : κ → κ → Nat) (d : F) (S : Nat → κ → F) : Prop where
  start : ∀ n ∈ nodes, S 0 n = 1 / nodes.length
  round : ∀ t before n after, nodes = before ++ n :: after →
    S (t + 1) n = (1 - d) + d * (nodes.map (fun v =>
      (w n v : F) / ((nodes.map (fun u => w v u)).sum : Nat) * (if v ∈ before then S (t + 1) v else S t v))).sum

/-- The values are determined. -/
theorem Ranking.unique {κ F : Type _} [DecidableEq κ] [Field F] {nodes : List κ} {w : κ → κ → Nat} {d : F} {S T : Nat → κ → F}
    (hS : Ranking nodes w d S) (hT : Ranking nodes w d T) (t : Nat) : ∀ n ∈ nodes, S t n = T t n := by
  induction t with
  | zero => intro n hn; rw [hS.start n hn, hT.start n hn]
  | succ t ih =>
    have key : ∀ before after, nodes = before ++ after → ∀ n ∈ before, S (t + 1) n = T (t + 1) n := by
      intro before
      induction before using List.reverseRecOn with
      | nil => intro _ _ n hn; cases hn
      | append_singleton before m ihb =>
        intro after hn n hm
        have hbm : nodes = before ++ m :: after := by rw [hn, List.append_assoc]; rfl
        have hb := ihb (m :: after) hbm
        rcases List.mem_append.mp hm with hm | hm
        · exact hb n hm
        · rw [List.mem_singleton] at hm
          subst hm
          rw [hS.round t before n after hbm, hT.round t before n after hbm]
          congr 3
          refine List.map_congr_left ?_
          intro v hv
          split
          · next h => rw [hb v h]
          · rw [ih v hv]
    exact key nodes [] (List.append_nil _).symm

end Jieba.Spec
