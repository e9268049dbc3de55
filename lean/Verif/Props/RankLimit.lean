import Verif.Spec.Stationary
import Verif.Props.RankValues
/-!
# C93: how far ten rounds of TextRank get
-/

set_option linter.unusedSectionVars false

namespace Jieba.Props
open Jieba Jieba.Spec Jieba.Pos Jieba.Analyse

theorem together_ge_one {κ : Type _} (n span : Nat) (at_ : Nat → κ → Prop) (u v : κ) (i j : Nat) (hj : j < n) (hij : i < j) (hs : j < i + span)
    (hu : at_ i u) (hv : at_ j v) : 1 ≤ together n span at_ u v := by
  classical
  unfold together
  have hi : i < n := by omega
  refine le_trans ?_ (Finset.single_le_sum (f := fun i => ∑ j ∈ Finset.range n, if i < j ∧ j < i + span ∧ at_ i u ∧ at_ j v then 1 else 0)
    (fun _ _ => Nat.zero_le _) (Finset.mem_range.mpr hi))
  refine le_trans ?_ (Finset.single_le_sum (f := fun j => if i < j ∧ j < i + span ∧ at_ i u ∧ at_ j v then 1 else 0)
    (fun _ _ => Nat.zero_le _) (Finset.mem_range.mpr hj))
  simp only [if_pos (⟨hij, hs, hu, hv⟩ : i < j ∧ j < i + span ∧ at_ i u ∧ at_ j v), le_refl]

section
variable {F : Type} [Field F] [LinearOrder F] [IsStrictOrderedRing F]

/-- C93: the equation `X n = (1 - d) + d * Σ_v (links of n and v / links of v) * X v` has one solution `X` on the keywords of a
text.  The values behind the weights of TextRank (`(value - min/10) / (max - min/10)`, see C76) differ from it by at most `d^10`
times the number of links of the keyword. -/
theorem C93_near_limit (R : RSys F) (hA : Exact R.k.pos.sys.A) (hd0 : 0 ≤ R.d) (hd1 : R.d < 1) (hmin : R.fmin < 1 - R.d)
    (p : PWorld) (x : TextRank) (s : PyText) (topK : Option Int) (allow : List Str) (withFlag io : Bool)
    (hmax : (2 * ((x.span - 1) * (toks R p x s io).out.length) : Nat) < R.fmax) (l : List (Key × Option F))
    (h : (textrank R p x s topK true allow withFlag io).2 = .ok l) :
    ∃ (nodes : List Key) (V X : Key → F),
      nodes.Nodup ∧
      (∀ k, k ∈ nodes ↔ ∃ i j a b, Near R.k.lower x.stop allow x.span (toks R p x s io).out i j a b ∧
        (k = asKey withFlag a ∨ k = asKey withFlag b)) ∧
      Stationary nodes (linked R.k.lower x.stop allow withFlag x.span (toks R p x s io).out) R.d X ∧
      (∀ Y, Stationary nodes (linked R.k.lower x.stop allow withFlag x.span (toks R p x s io).out) R.d Y → ∀ n ∈ nodes, Y n = X n) ∧
      (∀ n ∈ nodes, |V n - X n| ≤ R.d ^ 10 *
        degree nodes (linked R.k.lower x.stop allow withFlag x.span (toks R p x s io).out) n) ∧
      ∀ mn mx, IsLeast {y | ∃ n ∈ nodes, y = V n} mn → IsGreatest {y | ∃ n ∈ nodes, y = V n} mx →
        ∀ e ∈ l, e.2 = some ((V e.1 - mn / 10) / (mx - mn / 10)) := by
  obtain ⟨nodes, S, h1, h2, -, h4, h5⟩ := C76_weights R hA hd0 hd1 hmin p x s topK allow withFlag io hmax l h
  have hdeg : ∀ n ∈ nodes, 1 ≤ degree nodes (linked R.k.lower x.stop allow withFlag x.span (toks R p x s io).out) n := by
    intro n hn
    obtain ⟨i, j, a, b, hab, hk⟩ := (h2 n).mp hn
    obtain ⟨hij, hjs, ha, hb, hpa, hpb⟩ := id hab
    have ha' : asKey withFlag a ∈ nodes := (h2 _).mpr ⟨i, j, a, b, hab, Or.inl rfl⟩
    have hb' : asKey withFlag b ∈ nodes := (h2 _).mpr ⟨i, j, a, b, hab, Or.inr rfl⟩
    have hj : j < (toks R p x s io).out.length := (List.getElem?_eq_some_iff.mp hb).1
    have ht := together_ge_one (toks R p x s io).out.length x.span (KeywordAt R.k.lower x.stop allow withFlag (toks R p x s io).out)
      (asKey withFlag a) (asKey withFlag b) i j hj hij hjs ⟨a, ha, hpa, rfl⟩ ⟨b, hb, hpb, rfl⟩
    unfold degree
    rcases hk with rfl | rfl
    · refine le_trans ?_ (List.single_le_sum (fun _ _ => Nat.zero_le _) _ (List.mem_map_of_mem hb'))
      unfold linked; omega
    · refine le_trans ?_ (List.single_le_sum (fun _ _ => Nat.zero_le _) _ (List.mem_map_of_mem ha'))
      unfold linked; omega
  obtain ⟨X, hX⟩ := Stationary.exists nodes h1 (linked R.k.lower x.stop allow withFlag x.span (toks R p x s io).out) R.d hd0 hd1 hdeg
  refine ⟨nodes, S 10, X, h1, h2, hX, fun Y hY => Stationary.unique hd0 hd1 hY hX hdeg, ?_, h5⟩
  intro n hn
  rw [mul_comm]
  exact h4.near hd0 hd1 hdeg hX 10 n hn

end

/-- The hypotheses of `C93_near_limit` for a text with two keywords. -/
example : (0 ≤ ratRSys.d ∧ ratRSys.d < 1 ∧ ratRSys.fmin < 1 - ratRSys.d) ∧
    ((2 * ((ratTextRank.span - 1) * (toks ratRSys ratPWorld ratTextRank rankedText true).out.length) : Nat) : ℚ) < ratRSys.fmax ∧
    (textrank ratRSys ratPWorld ratTextRank rankedText none true [lit ['n'], lit ['n', 's']] false true).2.isOk = true := by
  decide +kernel

end Jieba.Props
