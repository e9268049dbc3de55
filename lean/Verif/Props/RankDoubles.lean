import Verif.Proofs.RankDoubles
import Verif.Props.TextRank
/-!
# C92 — TextRank with the floats that Python has
-/

namespace Jieba.Props
open Jieba Jieba.Spec Jieba.Pos Jieba.Analyse

/-- C92: computed with doubles, every operation rounded, the weights of TextRank are in (0, 1] and the best keyword has the
weight 1 exactly; nothing divides by zero and no key is missing. -/
theorem C92_weights_normalised (R : RSys ℚ) (log : Nat → ℚ) (hA : R.k.pos.sys.A = dblArith log) (hd0 : 0 ≤ R.d) (hd1 : R.d ≤ 7 / 8)
    (hmin : R.fmin < 1 / 8) (hmax : 2 ^ 45 < R.fmax) (p : PWorld) (x : TextRank) (s : PyText) (allow : List Str) (withFlag io : Bool)
    (hlen : (x.span - 1) * (toks R p x s io).out.length ≤ 2 ^ 43) (hc : (toks R p x s io).err = none) :
    ∃ l, (textrank R p x s none true allow withFlag io).2 = .ok l ∧
      (∀ e ∈ l, ∃ v, e.2 = some v ∧ 0 < v ∧ v ≤ 1) ∧
      (∀ e, l.head? = some e → e.2 = some 1) := by
  have hg := buildGraph_ok _ (counts_pos (pairsOf R p x s allow withFlag io))
  have hb : ∀ n, outWeight (buildGraph (counts (pairsOf R p x s allow withFlag io))) n ≤ 2 ^ 44 := by
    intro n
    have h1 := buildGraph_weight (counts (pairsOf R p x s allow withFlag io)) n
    rw [counts_sum] at h1
    have h2 := windowPairs_length (pairfilter R.k allow x.stop) (nodeOf allow withFlag) x.span (toks R p x s io).out
    have : outWeight (buildGraph (counts (pairsOf R p x s allow withFlag io))) n ≤
        2 * ((x.span - 1) * (toks R p x s io).out.length) := le_trans h1 (Nat.mul_le_mul_left 2 h2)
    omega
  obtain ⟨ws, h1, h2, h3, h4⟩ := rank_dbl R log hA hd0 hd1 hmin hmax _ hg hb
  rw [textrank_eq, hc, h1]
  simp only [rankTags_weights, Except.map, topOf]
  refine ⟨_, rfl, ?_, ?_⟩
  · intro e he
    obtain ⟨e', he', rfl⟩ := List.mem_map.mp he
    exact ⟨e'.2, rfl, h3 e' ((sortBy_perm _ _).mem_iff.mp he')⟩
  · intro e he
    rw [List.head?_map] at he
    cases hl : sortBy (fun a b : Key × ℚ => decide (b.2 ≤ a.2)) ws with
    | nil => rw [hl] at he; simp at he
    | cons a l =>
      rw [hl] at he
      simp only [List.head?_cons, Option.map_some, Option.some.injEq] at he
      subst he
      have hperm := sortBy_perm (fun a b : Key × ℚ => decide (b.2 ≤ a.2)) ws
      rw [hl] at hperm
      have hne : buildGraph (counts (pairsOf R p x s allow withFlag io)) ≠ [] := by
        intro h0
        rw [h0] at h2
        have : ws = [] := by simpa [PyDict.keys] using h2
        subst this
        exact absurd hperm.length_eq (by simp)
      obtain ⟨m, hm, hm1⟩ := h4 hne
      have hp := sortBy_pairwise (fun e : Key × ℚ => e.2) (fun _ _ => True) ws (List.pairwise_of_forall (fun _ _ => trivial))
      rw [hl, List.pairwise_cons] at hp
      have ha := (h3 a (hperm.mem_iff.mp List.mem_cons_self)).2
      rcases List.mem_cons.mp (hperm.mem_iff.mpr hm) with rfl | hml
      · simp only [hm1]
      · have := hp.1 m hml
        unfold Before at this
        simp only [hm1] at this
        have hone : a.2 = 1 := by
          rcases this with h | h
          · exact absurd h (not_lt.mpr ha)
          · exact h.1
        simp only [hone]

/-- C92: with doubles too, TextRank raises only what the segmentation raises. -/
theorem C92_never_divides_by_zero (R : RSys ℚ) (log : Nat → ℚ) (hA : R.k.pos.sys.A = dblArith log) (hd0 : 0 ≤ R.d) (hd1 : R.d ≤ 7 / 8)
    (hmin : R.fmin < 1 / 8) (hmax : 2 ^ 45 < R.fmax) (p : PWorld) (x : TextRank) (s : PyText) (topK : Option Int) (withWeight : Bool)
    (allow : List Str) (withFlag io : Bool) (hlen : (x.span - 1) * (toks R p x s io).out.length ≤ 2 ^ 43) (e : PyErr) :
    (textrank R p x s topK withWeight allow withFlag io).2 = .error e ↔ (toks R p x s io).err = some e := by
  cases hc : (toks R p x s io).err with
  | some e' => rw [textrank_eq, hc]; simp
  | none =>
    simp only [reduceCtorEq, iff_false]
    obtain ⟨l, hl, -⟩ := C92_weights_normalised R log hA hd0 hd1 hmin hmax p x s allow withFlag io hlen hc
    have htop : ∀ w, (textrank R p x s topK w allow withFlag io).2 = (textrank R p x s none w allow withFlag io).2.map (topOf topK) := by
      intro w
      simp only [textrank_eq]
      repeat' split
      all_goals try rfl
      rename_i freq hs
      cases rankTags freq w <;> rfl
    rw [htop]
    cases withWeight
    · rw [C49_textrank_with_weight_only_adds_weights]
      simp only [hl, Except.map]
      simp
    · rw [hl]
      simp [Except.map]

/-- The sample system computing with doubles: `d` is the double 0.85. -/
def dblRSys : RSys ℚ :=
  { ratRSys with
    k := { ratKSys with pos := { ratKSys.pos with sys := { ratSys with A := dblArith (fun n => n) } } }
    d := rnd (17 / 20) }

example : dblRSys.k.pos.sys.A = dblArith (fun n => n) ∧ 0 ≤ dblRSys.d ∧ dblRSys.d ≤ 7 / 8 ∧ dblRSys.d ≠ 17 / 20 ∧
    dblRSys.fmin < 1 / 8 ∧ 2 ^ 45 < dblRSys.fmax := ⟨rfl, by decide +kernel⟩

/-- 大学 北京 with doubles: the weights are 1 and something smaller that is not the exact one. -/
example : (toks dblRSys ratPWorld ratTextRank rankedText true).err = none ∧
    (match (textrank dblRSys ratPWorld ratTextRank rankedText none true [lit ['n'], lit ['n', 's']] false true).2,
      (textrank ratRSys ratPWorld ratTextRank rankedText none true [lit ['n'], lit ['n', 's']] false true).2 with
    | .ok [(.word a, some x), (.word b, some y)], .ok [_, (_, some z)] =>
      decide (a = lit ['大', '学'] ∧ b = lit ['北', '京'] ∧ x = 1 ∧ 0 < y ∧ y < 1 ∧ y ≠ z)
    | _, _ => false) = true := by decide +kernel

end Jieba.Props
