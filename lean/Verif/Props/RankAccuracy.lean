import Verif.Proofs.RankRound
import Verif.Props.IeeeRank
import Verif.Props.RankValues
/-!
# C104 — how exact the weights of TextRank are
-/

namespace Jieba.Props
open Jieba Jieba.Spec Jieba.Pos Jieba.Analyse

/-! ## The size of the graph -/

/-- The number of entries in the lists of edges. -/
def entriesOf (g : Graph) : ℕ := (g.map (fun e => e.2.length)).sum

theorem entriesOf_set (g : Graph) (a : Key) (v : List (Key × Nat)) :
    entriesOf (g.set a v) + ((g.get? a).getD []).length = entriesOf g + v.length := by
  induction g with
  | nil => simp [PyDict.set, entriesOf, PyDict.get?]
  | cons e g ih =>
    obtain ⟨k, w⟩ := e
    by_cases h : k = a
    · simp [PyDict.set, entriesOf, PyDict.get?, h]; omega
    · simp only [PyDict.set, if_neg h, PyDict.get?]
      unfold entriesOf at *
      simp only [List.map_cons, List.sum_cons]
      omega

theorem entriesOf_addTo (g : Graph) (a b : Key) (w : Nat) : entriesOf (addTo g a b w) = entriesOf g + 1 := by
  have := entriesOf_set g a ((g.get? a).getD [] ++ [(b, w)])
  unfold addTo
  rw [List.length_append, List.length_singleton] at this
  omega

theorem entriesOf_buildGraph (cm : PyDict (Key × Key) Nat) : entriesOf (buildGraph cm) = 2 * cm.length := by
  induction cm using List.reverseRecOn with
  | nil => rfl
  | append_singleton cm e ih =>
    rw [buildGraph_snoc, addEdge, entriesOf_addTo, entriesOf_addTo, ih, List.length_append]
    simp; omega

theorem degrees_sum (g : Graph) (hn : g.keys.Nodup) : (g.keys.map (fun n => degree g n + 4)).sum = entriesOf g + 4 * g.length := by
  induction g with
  | nil => rfl
  | cons e g ih =>
    obtain ⟨k, v⟩ := e
    simp only [PyDict.keys, List.map_cons, List.nodup_cons] at hn
    have h := ih hn.2
    simp only [PyDict.keys, List.map_cons, List.sum_cons, List.length_cons]
    have e1 : degree ((k, v) :: g) k = v.length := by simp [degree, PyDict.get?]
    have e2 : (g.map Prod.fst).map (fun n => degree ((k, v) :: g) n + 4) = (g.map Prod.fst).map (fun n => degree g n + 4) := by
      refine List.map_congr_left ?_
      intro n hm
      have : k ≠ n := by rintro rfl; exact hn.1 hm
      simp [degree, PyDict.get?, this]
    rw [e1, e2]
    unfold PyDict.keys at h
    rw [h]
    simp [entriesOf]; omega

theorem roundings_le (ps : List (Key × Key)) : roundings (buildGraph (counts ps)) ≤ 400 * ps.length + 15 := by
  have hn := (buildGraph_ok _ (counts_pos ps)).nodup
  unfold roundings
  rw [degrees_sum _ hn, entriesOf_buildGraph]
  have h1 : (counts ps).keys.length = (counts ps).length := by simp [PyDict.keys]
  rw [counts_keys] at h1
  have h2 := firsts_length ps
  have h3 : (buildGraph (counts ps)).keys.length = (buildGraph (counts ps)).length := by simp [PyDict.keys]
  rw [buildGraph_keys] at h3
  have h4 := firsts_length (ends ps)
  rw [ends_length] at h4
  omega

/-! ## The weights -/

/-- The same system computing with rational numbers. -/
def withFractions (R : RSys ℚ) : RSys ℚ :=
  { R with k := { R.k with pos := { R.k.pos with sys := { R.k.pos.sys with A := ratArith } } } }

theorem almost_sorted (P : ℕ) (hP : P ≤ 2 ^ 36) (a b x y : ℚ) (ha : 0 ≤ a) (h1 : |x - a| ≤ a * ((800 * P + 30) / 2 ^ 53)) (h2 : |y - b| ≤ b * ((800 * P + 30) / 2 ^ 53))
    (hxy : y ≤ x) : b ≤ a * (1 + (2400 * P + 90) / 2 ^ 53) := by
  have hPq : (P : ℚ) ≤ 2 ^ 36 := by exact_mod_cast hP
  have hP0 : (0 : ℚ) ≤ P := Nat.cast_nonneg _
  have ht0 : (0 : ℚ) ≤ (800 * P + 30) / 2 ^ 53 := by positivity
  have ht1 : (800 * (P : ℚ) + 30) / 2 ^ 53 ≤ 1 / 3 := by
    rw [div_le_iff₀ (by norm_num)]
    clear * - hPq
    generalize (P : ℚ) = c at *
    linarith
  have e : (2400 * (P : ℚ) + 90) / 2 ^ 53 = 3 * ((800 * P + 30) / 2 ^ 53) := by ring
  rw [e]
  generalize (800 * (P : ℚ) + 30) / 2 ^ 53 = t at *
  have u1 := (abs_le.mp h1).2
  have u2 := (abs_le.mp h2).1
  -- b (1 - t) ≤ y ≤ x ≤ a (1 + t)
  have h3 : b * (1 - t) ≤ a * (1 + t) := by linarith
  have h4 : a * (1 + t) ≤ a * (1 + 3 * t) * (1 - t) := by
    have : a * (1 + 3 * t) * (1 - t) - a * (1 + t) = a * (t * (1 - 3 * t)) := by ring
    have : 0 ≤ a * (t * (1 - 3 * t)) := mul_nonneg ha (mul_nonneg ht0 (by linarith))
    linarith
  exact le_of_mul_le_mul_right (h3.trans h4) (by linarith)

/-- C104: the weights of TextRank computed with IEEE doubles.  For a text of `n` tokens, with `P = (span - 1) * n` at most 2^36, every weight differs from the exact
one (C76, with the same number `d`) by at most the fraction `(800 P + 30) / 2^53`; and a keyword is listed before another one only if its exact weight is
greater, or smaller by at most the fraction `(2400 P + 90) / 2^53`. -/
theorem C104_weights (R : RSys ℚ) (log : Nat → ℚ) (over : ℚ → ℚ) (hA : R.k.pos.sys.A = ieeeArith log over) (hd0 : 1 / 8 ≤ R.d) (hd1 : R.d ≤ 7 / 8)
    (hmin : R.fmin < 1 / 8) (hmax : 2 ^ 45 < R.fmax) (p : PWorld) (x : TextRank) (s : PyText) (topK : Option Int) (withWeight : Bool)
    (allow : List Str) (withFlag io : Bool) (P : ℕ) (hP : P = (x.span - 1) * (toks R p x s io).out.length) (hlen : P ≤ 2 ^ 36)
    (l : List (Key × Option ℚ)) (h : (textrank R p x s topK withWeight allow withFlag io).2 = .ok l) :
    ∃ (nodes : List Key) (S : Nat → Key → ℚ),
      nodes.Nodup ∧
      (∀ k, k ∈ nodes ↔ ∃ i j a b, Near R.k.lower x.stop allow x.span (toks R p x s io).out i j a b ∧
        (k = asKey withFlag a ∨ k = asKey withFlag b)) ∧
      nodes.Pairwise (fun a b => a.text < b.text ∨ (a.text = b.text ∧
        (ends (pairsOf R p x s allow withFlag io)).idxOf a < (ends (pairsOf R p x s allow withFlag io)).idxOf b)) ∧
      Ranking nodes (linked R.k.lower x.stop allow withFlag x.span (toks R p x s io).out) R.d S ∧
      ∀ mn mx, IsLeast {y | ∃ n ∈ nodes, y = S 10 n} mn → IsGreatest {y | ∃ n ∈ nodes, y = S 10 n} mx →
        (withWeight = true → ∀ e ∈ l, ∃ v, e.2 = some v ∧
          |v - (S 10 e.1 - mn / 10) / (mx - mn / 10)| ≤ (S 10 e.1 - mn / 10) / (mx - mn / 10) * ((800 * P + 30) / 2 ^ 53)) ∧
        l.Pairwise (fun e e' => (S 10 e'.1 - mn / 10) / (mx - mn / 10) ≤
          (S 10 e.1 - mn / 10) / (mx - mn / 10) * (1 + (2400 * P + 90) / 2 ^ 53)) := by
  have hl := windowPairs_length (pairfilter R.k allow x.stop) (nodeOf allow withFlag) x.span (toks R p x s io).out
  rw [← hP] at hl
  have hl' : (pairsOf R p x s allow withFlag io).length ≤ P := hl
  obtain ⟨hg, hb, h3⟩ := graph_bounds (pairsOf R p x s allow withFlag io) (by omega)
  have hro := roundings_le (pairsOf R p x s allow withFlag io)
  have hie := rank_ieee (R := R) (R' := withoutLimits log R) ⟨hA, rfl, rfl, rfl, rfl⟩ hd0 hd1 hmin hmax _ hg hb h3
  obtain ⟨ws, wd, r1, r2, r3⟩ := rank_within log (withoutLimits log R) (withFractions R) rfl ratArith_exact rfl (le_trans (by norm_num) hd0) hd1 hmin hmax
    hmin hmax _ hg hb (by omega)
  obtain ⟨d, hd, -, rfl⟩ := keys_of_textrank R p x s topK withWeight allow withFlag io l h
  obtain rfl : d = wd := by rw [hie, r2] at hd; exact (Except.ok.inj hd).symm
  have hbE : ∀ n, (outWeight (buildGraph (counts (pairsOf R p x s allow withFlag io))) n : ℚ) < (withFractions R).fmax := by
    intro n
    have : (outWeight (buildGraph (counts (pairsOf R p x s allow withFlag io))) n : ℚ) ≤ 2 ^ 44 := by exact_mod_cast hb n
    refine lt_of_le_of_lt this (lt_trans (by norm_num) hmax)
  obtain ⟨S, s1, s2⟩ := rank_values (withFractions R) ratArith_exact (le_trans (by norm_num) hd0) (lt_of_le_of_lt hd1 (by norm_num))
    (lt_of_lt_of_le hmin (by show _ ≤ 1 - R.d; linarith)) _ hg hbE
  refine ⟨sortedKeys (buildGraph (counts (pairsOf R p x s allow withFlag io))), S, ?_, ?_, ?_, ?_, ?_⟩
  · exact (sortBy_perm _ _).nodup_iff.mpr hg.nodup
  · intro k
    rw [← mem_ends_pairsOf, ← mem_firsts (ends _), ← buildGraph_keys]
    exact (sortBy_perm _ _).mem_iff
  · refine sortedKeys_pairwise _ _ ?_
    rw [buildGraph_keys]
    exact firsts_order _
  · rw [link_eq] at s1
    exact s1
  · intro mn mx hmn hmx
    have hnD : PyDict.keys d |>.Nodup := by rw [r3.keysD]; exact hg.nodup
    have hnE : ws.keys.Nodup := by rw [r3.keysE]; exact hg.nodup
    have key : ∀ e ∈ d, 0 ≤ (S 10 e.1 - mn / 10) / (mx - mn / 10) ∧ |e.2 - (S 10 e.1 - mn / 10) / (mx - mn / 10)| ≤
        (S 10 e.1 - mn / 10) / (mx - mn / 10) * ((800 * P + 30) / 2 ^ 53) := by
      intro e he
      obtain ⟨y, hy, hw⟩ := r3.partner' ((PyDict.get?_eq_some_iff_mem d hnD e.1 e.2).mpr he)
      have hm := (PyDict.get?_eq_some_iff_mem ws hnE e.1 y).mp hy
      have hv := s2 mn mx hmn hmx ws r1 (e.1, y) hm
      simp only [] at hv
      rw [← hv]
      refine ⟨hw.1, ?_⟩
      refine ((hw.mono (hro.trans (by omega : _ ≤ 400 * P + 15))).err (by omega)).trans (le_of_eq ?_)
      push_cast
      ring
    have hsub : ∀ (q : List (Key × Option ℚ)), (topOf topK q).Sublist q := by
      intro q
      unfold topOf sliceTo
      repeat' split
      all_goals first | exact List.Sublist.refl _ | exact List.take_sublist _ _
    constructor
    · rintro rfl e he
      obtain ⟨e', he', rfl⟩ := List.mem_map.mp (mem_topOf topK _ _ he)
      exact ⟨e'.2, rfl, (key e' ((sortBy_perm _ _).mem_iff.mp he')).2⟩
    · refine List.Pairwise.sublist (hsub _) ?_
      rw [List.pairwise_map]
      have hp := sortBy_pairwise (fun e : Key × ℚ => e.2) (fun _ _ => True) d (List.pairwise_of_forall (fun _ _ => trivial))
      refine List.Pairwise.imp_of_mem ?_ hp
      intro a b ha hb hab
      obtain ⟨a1, a2⟩ := key a ((sortBy_perm _ _).mem_iff.mp ha)
      obtain ⟨b1, b2⟩ := key b ((sortBy_perm _ _).mem_iff.mp hb)
      refine almost_sorted P hlen _ _ a.2 b.2 a1 a2 b2 ?_
      rcases hab with h | h
      · exact h.le
      · exact h.1.ge

/-- 大学 北京 with IEEE doubles: the call returns two keywords, and the text is short enough. -/
example : (∃ l, (textrank ieeeRSys ratPWorld ratTextRank rankedText none true [lit ['n'], lit ['n', 's']] false true).2 = .ok l ∧
      l.map Prod.fst = [.word (lit ['大', '学']), .word (lit ['北', '京'])]) ∧
    (ratTextRank.span - 1) * (toks ieeeRSys ratPWorld ratTextRank rankedText true).out.length ≤ 2 ^ 36 := by
  refine ⟨?_, by decide +kernel⟩
  rw [C102_textrank_same ieeeRSys (fun n => n) (fun x => 4 * x) rfl (by decide +kernel) (by decide +kernel) (by decide +kernel) (by decide +kernel)
    ratPWorld ratTextRank rankedText none true _ false true ieee_ranked_tokens.2.2 ieee_ranked_tokens.2.1]
  have h : (match (textrank (withoutLimits (fun n => n) ieeeRSys) ratPWorld ratTextRank rankedText none true [lit ['n'], lit ['n', 's']] false true).2 with
    | .ok l => decide (l.map Prod.fst = [.word (lit ['大', '学']), .word (lit ['北', '京'])])
    | _ => false) = true := by decide +kernel
  cases hr : (textrank (withoutLimits (fun n => n) ieeeRSys) ratPWorld ratTextRank rankedText none true [lit ['n'], lit ['n', 's']] false true).2 with
  | error e => rw [hr] at h; cases h
  | ok l => rw [hr] at h; exact ⟨l, rfl, of_decide_eq_true h⟩

end Jieba.Props
