import Verif.Proofs.IeeeRank
import Verif.Props.RankDoubles
/-!
# C102 — TextRank stays far from the limits of doubles
-/

namespace Jieba.Props
open Jieba Jieba.Spec Jieba.Pos Jieba.Analyse

/-- The system that computes with doubles of unbounded exponent instead. -/
def withoutLimits (log : Nat → ℚ) (R : RSys ℚ) : RSys ℚ :=
  { R with k := { R.k with pos := { R.k.pos with sys := { R.k.pos.sys with A := dblArith log } } } }

theorem firsts_length {α : Type} [DecidableEq α] (l : List α) : (firsts l).length ≤ l.length := by
  induction l using List.reverseRecOn with
  | nil => simp [firsts]
  | append_singleton l x ih =>
    rw [firsts_snoc]
    unfold addNew
    split <;> simp <;> omega

theorem ends_length (l : List (Key × Key)) : (ends l).length = 2 * l.length := by
  induction l using List.reverseRecOn with
  | nil => simp [ends]
  | append_singleton l x ih => rw [ends_snoc]; simp [ih]; omega

theorem graph_bounds (ps : List (Key × Key)) (h : ps.length ≤ 2 ^ 43) :
    GraphOK (buildGraph (counts ps)) ∧ (∀ n, outWeight (buildGraph (counts ps)) n ≤ 2 ^ 44) ∧ (buildGraph (counts ps)).length ≤ 2 ^ 53 := by
  refine ⟨buildGraph_ok _ (counts_pos ps), ?_, ?_⟩
  · intro n
    have h1 := buildGraph_weight (counts ps) n
    rw [counts_sum] at h1
    omega
  · have h1 : (buildGraph (counts ps)).keys.length = (buildGraph (counts ps)).length := by simp [PyDict.keys]
    rw [buildGraph_keys] at h1
    have h2 := firsts_length (ends ps)
    rw [ends_length] at h2
    omega

/-- C102: the keywords and weights of TextRank, computed from the same tokens, are the same with IEEE doubles as with doubles of unbounded
exponent, whatever an overflowing operation would return. -/
theorem C102_textrank_same (R : RSys ℚ) (log : Nat → ℚ) (over : ℚ → ℚ) (hA : R.k.pos.sys.A = ieeeArith log over) (hd0 : 1 / 8 ≤ R.d) (hd1 : R.d ≤ 7 / 8)
    (hmin : R.fmin < 1 / 8) (hmax : 2 ^ 45 < R.fmax) (p : PWorld) (x : TextRank) (s : PyText) (topK : Option Int) (withWeight : Bool)
    (allow : List Str) (withFlag io : Bool)
    (hlen : (x.span - 1) * (toks R p x s io).out.length ≤ 2 ^ 43) (hsame : toks (withoutLimits log R) p x s io = toks R p x s io) :
    (textrank R p x s topK withWeight allow withFlag io).2 = (textrank (withoutLimits log R) p x s topK withWeight allow withFlag io).2 := by
  have hp : pairsOf (withoutLimits log R) p x s allow withFlag io = pairsOf R p x s allow withFlag io := by
    unfold pairsOf
    rw [hsame]
    rfl
  have hl := windowPairs_length (pairfilter R.k allow x.stop) (nodeOf allow withFlag) x.span (toks R p x s io).out
  obtain ⟨h1, h2, h3⟩ := graph_bounds (pairsOf R p x s allow withFlag io) (hl.trans hlen)
  have hr := rank_ieee (R := R) (R' := withoutLimits log R) ⟨hA, rfl, rfl, rfl, rfl⟩ hd0 hd1 hmin hmax _ h1 h2 h3
  rw [textrank_eq, textrank_eq, hsame, hp, hr]

/-- C102: C92 with IEEE doubles: the weights of TextRank are in (0, 1] and the best keyword has the weight 1 exactly. -/
theorem C102_textrank (R : RSys ℚ) (log : Nat → ℚ) (over : ℚ → ℚ) (hA : R.k.pos.sys.A = ieeeArith log over) (hd0 : 1 / 8 ≤ R.d) (hd1 : R.d ≤ 7 / 8)
    (hmin : R.fmin < 1 / 8) (hmax : 2 ^ 45 < R.fmax) (p : PWorld) (x : TextRank) (s : PyText) (allow : List Str) (withFlag io : Bool)
    (hlen : (x.span - 1) * (toks R p x s io).out.length ≤ 2 ^ 43) (hc : (toks R p x s io).err = none) :
    ∃ l, (textrank R p x s none true allow withFlag io).2 = .ok l ∧
      (∀ e ∈ l, ∃ v, e.2 = some v ∧ 0 < v ∧ v ≤ 1) ∧
      (∀ e, l.head? = some e → e.2 = some 1) := by
  have hl := windowPairs_length (pairfilter R.k allow x.stop) (nodeOf allow withFlag) x.span (toks R p x s io).out
  obtain ⟨hg, hb, h3⟩ := graph_bounds (pairsOf R p x s allow withFlag io) (hl.trans hlen)
  have hr := rank_ieee (R := R) (R' := withoutLimits log R) ⟨hA, rfl, rfl, rfl, rfl⟩ hd0 hd1 hmin hmax _ hg hb h3
  obtain ⟨ws, h1, h2, h3, h4⟩ := rank_dbl (withoutLimits log R) log rfl (le_trans (by norm_num) hd0) hd1 hmin hmax _ hg hb
  rw [textrank_eq, hc, hr, h1]
  simp only [rankTags_weights, Except.map, topOf]
  refine ⟨_, rfl, ?_, ?_⟩
  · intro e he
    obtain ⟨e', he', rfl⟩ := List.mem_map.mp he
    exact ⟨e'.2, rfl, h3 e' ((sortBy_perm _ _).mem_iff.mp he')⟩
  · intro e he
    rw [List.head?_map] at he
    cases hl : sortBy (fun a b : Key × ℚ => decide (b.2 ≤ a.2)) ws with
    | nil => rw [hl] at he; simp at he
    | cons a l =>
      rw [hl] at he
      simp only [List.head?_cons, Option.map_some, Option.some.injEq] at he
      subst he
      have hperm := sortBy_perm (fun a b : Key × ℚ => decide (b.2 ≤ a.2)) ws
      rw [hl] at hperm
      have hne : buildGraph (counts (pairsOf R p x s allow withFlag io)) ≠ [] := by
        intro h0
        rw [h0] at h2
        have : ws = [] := by simpa [PyDict.keys] using h2
        subst this
        exact absurd hperm.length_eq (by simp)
      obtain ⟨m, hm, hm1⟩ := h4 hne
      have hp := sortBy_pairwise (fun e : Key × ℚ => e.2) (fun _ _ => True) ws (List.pairwise_of_forall (fun _ _ => trivial))
      rw [hl, List.pairwise_cons] at hp
      have ha := (h3 a (hperm.mem_iff.mp List.mem_cons_self)).2
      rcases List.mem_cons.mp (hperm.mem_iff.mpr hm) with rfl | hml
      · simp only [hm1]
      · have := hp.1 m hml
        unfold Before at this
        simp only [hm1] at this
        have hone : a.2 = 1 := by
          rcases this with h | h
          · exact absurd h (not_lt.mpr ha)
          · exact h.1
        simp only [hone]

/-- C102: with IEEE doubles too, TextRank raises only what the segmentation raises. -/
theorem C102_textrank_errors (R : RSys ℚ) (log : Nat → ℚ) (over : ℚ → ℚ) (hA : R.k.pos.sys.A = ieeeArith log over) (hd0 : 1 / 8 ≤ R.d) (hd1 : R.d ≤ 7 / 8)
    (hmin : R.fmin < 1 / 8) (hmax : 2 ^ 45 < R.fmax) (p : PWorld) (x : TextRank) (s : PyText) (topK : Option Int) (withWeight : Bool)
    (allow : List Str) (withFlag io : Bool) (hlen : (x.span - 1) * (toks R p x s io).out.length ≤ 2 ^ 43) (e : PyErr) :
    (textrank R p x s topK withWeight allow withFlag io).2 = .error e ↔ (toks R p x s io).err = some e := by
  cases hc : (toks R p x s io).err with
  | some e' => rw [textrank_eq, hc]; simp
  | none =>
    simp only [reduceCtorEq, iff_false]
    obtain ⟨l, hl, -⟩ := C102_textrank R log over hA hd0 hd1 hmin hmax p x s allow withFlag io hlen hc
    have htop : ∀ w, (textrank R p x s topK w allow withFlag io).2 = (textrank R p x s none w allow withFlag io).2.map (topOf topK) := by
      intro w
      simp only [textrank_eq]
      repeat' split
      all_goals try rfl
      rename_i freq hs
      cases rankTags freq w <;> rfl
    rw [htop]
    cases withWeight
    · rw [C49_textrank_with_weight_only_adds_weights]
      simp only [hl, Except.map]
      simp
    · rw [hl]
      simp [Except.map]

/-- The sample system computing with IEEE doubles: `d` is the double 0.85, overflow returns a number beyond all doubles. -/
def ieeeRSys : RSys ℚ :=
  { ratRSys with
    k := { ratKSys with pos := { ratKSys.pos with sys := { ratSys with A := ieeeArith (fun n => n) (fun x => 4 * x) } } }
    d := rnd (17 / 20) }

example : ieeeRSys.k.pos.sys.A = ieeeArith (fun n => n) (fun x => 4 * x) ∧ 1 / 8 ≤ ieeeRSys.d ∧ ieeeRSys.d ≤ 7 / 8 ∧
    ieeeRSys.fmin < 1 / 8 ∧ 2 ^ 45 < ieeeRSys.fmax := ⟨rfl, by decide +kernel⟩

/-- 大学 北京 with IEEE doubles: the hypotheses about the tokens. -/
theorem ieee_ranked_tokens : (toks ieeeRSys ratPWorld ratTextRank rankedText true).err = none ∧
    toks (withoutLimits (fun n => n) ieeeRSys) ratPWorld ratTextRank rankedText true = toks ieeeRSys ratPWorld ratTextRank rankedText true ∧
    (ratTextRank.span - 1) * (toks ieeeRSys ratPWorld ratTextRank rankedText true).out.length ≤ 2 ^ 43 :=
  ⟨by decide +kernel, by decide +kernel, by decide +kernel⟩

/-- And what follows: the weights are those of the example of C92. -/
example : (textrank ieeeRSys ratPWorld ratTextRank rankedText none true [lit ['n'], lit ['n', 's']] false true).2 =
    (textrank dblRSys ratPWorld ratTextRank rankedText none true [lit ['n'], lit ['n', 's']] false true).2 :=
  C102_textrank_same ieeeRSys (fun n => n) (fun x => 4 * x) rfl (by decide +kernel) (by decide +kernel) (by decide +kernel) (by decide +kernel)
    ratPWorld ratTextRank rankedText none true _ false true ieee_ranked_tokens.2.2 ieee_ranked_tokens.2.1

end Jieba.Props
