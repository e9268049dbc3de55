import Verif.Proofs.RankValues
import Verif.Props.TextRank
/-!
# C76: the weights of TextRank
-/

set_option linter.unusedSectionVars false

namespace Jieba.Props
open Jieba Jieba.Spec Jieba.Pos Jieba.Analyse

/-- Token `i` of `ts` is accepted and is the keyword `k`. -/
def KeywordAt (lower : Str → Str) (stop allow : List Str) (withFlag : Bool) (ts : List (Str × Str)) (i : Nat) (k : Key) : Prop :=
  ∃ t, ts[i]? = some t ∧ AcceptsPair lower stop allow t ∧ asKey withFlag t = k

/-- How strongly two keywords are linked: the number of their occurrences fewer than `span` positions apart, in either order
(for a keyword and itself, every pair of occurrences counts twice). -/
noncomputable def linked (lower : Str → Str) (stop allow : List Str) (withFlag : Bool) (span : Nat) (ts : List (Str × Str)) (u v : Key) : Nat :=
  together ts.length span (KeywordAt lower stop allow withFlag ts) u v + together ts.length span (KeywordAt lower stop allow withFlag ts) v u

section
variable {F : Type} [Field F] [LinearOrder F] [IsStrictOrderedRing F]

theorem link_eq (R : RSys F) (p : PWorld) (x : TextRank) (s : PyText) (allow : List Str) (withFlag io : Bool) :
    linkWeight (buildGraph (counts (pairsOf R p x s allow withFlag io))) =
      linked R.k.lower x.stop allow withFlag x.span (toks R p x s io).out := by
  have hat : ∀ (i : Nat) (k : Key), (∃ t, (toks R p x s io).out[i]? = some t ∧ pairfilter R.k allow x.stop t = true ∧ nodeOf allow withFlag t = k) ↔
      KeywordAt R.k.lower x.stop allow withFlag (toks R p x s io).out i k := by
    intro i k
    unfold KeywordAt
    refine exists_congr fun t => and_congr_right fun _ => ?_
    rw [pairfilter_iff]
    refine and_congr_right fun ht => ?_
    have : allow ≠ [] := by rintro rfl; cases ht.1
    unfold nodeOf asKey
    cases withFlag <;> simp [this]
  have hfun : (fun (i : Nat) (k : Key) => ∃ t, (toks R p x s io).out[i]? = some t ∧ pairfilter R.k allow x.stop t = true ∧ nodeOf allow withFlag t = k) =
      KeywordAt R.k.lower x.stop allow withFlag (toks R p x s io).out := by
    funext i k; exact propext (hat i k)
  funext u v
  rw [buildGraph_link, counts_entry, counts_entry]
  unfold pairsOf linked
  rw [windowPairs_count, windowPairs_count, hfun]

/-- C76: the weight of every keyword, in exact arithmetic.  The nodes are the keywords (tokens with an accepted neighbour), in the
order of their words (equal words with different tags: in order of appearance).  Their values after ten rounds of `Ranking` are
mapped to weights by `(value - min/10) / (max - min/10)`.  `Ranking.unique`: there is only one such `S`. -/
theorem C76_weights (R : RSys F) (hA : Exact R.k.pos.sys.A) (hd0 : 0 ≤ R.d) (hd1 : R.d < 1) (hmin : R.fmin < 1 - R.d)
    (p : PWorld) (x : TextRank) (s : PyText) (topK : Option Int) (allow : List Str) (withFlag io : Bool)
    (hmax : (2 * ((x.span - 1) * (toks R p x s io).out.length) : Nat) < R.fmax) (l : List (Key × Option F))
    (h : (textrank R p x s topK true allow withFlag io).2 = .ok l) :
    ∃ (nodes : List Key) (S : Nat → Key → F),
      nodes.Nodup ∧
      (∀ k, k ∈ nodes ↔ ∃ i j a b, Near R.k.lower x.stop allow x.span (toks R p x s io).out i j a b ∧
        (k = asKey withFlag a ∨ k = asKey withFlag b)) ∧
      nodes.Pairwise (fun a b => a.text < b.text ∨ (a.text = b.text ∧
        (ends (pairsOf R p x s allow withFlag io)).idxOf a < (ends (pairsOf R p x s allow withFlag io)).idxOf b)) ∧
      Ranking nodes (linked R.k.lower x.stop allow withFlag x.span (toks R p x s io).out) R.d S ∧
      ∀ mn mx, IsLeast {y | ∃ n ∈ nodes, y = S 10 n} mn → IsGreatest {y | ∃ n ∈ nodes, y = S 10 n} mx →
        ∀ e ∈ l, e.2 = some ((S 10 e.1 - mn / 10) / (mx - mn / 10)) := by
  have hg := buildGraph_ok _ (counts_pos (pairsOf R p x s allow withFlag io))
  have hb : ∀ n, (outWeight (buildGraph (counts (pairsOf R p x s allow withFlag io))) n : F) < R.fmax := by
    intro n
    refine lt_of_le_of_lt ?_ hmax
    have h1 := buildGraph_weight (counts (pairsOf R p x s allow withFlag io)) n
    rw [counts_sum] at h1
    have h2 := windowPairs_length (pairfilter R.k allow x.stop) (nodeOf allow withFlag) x.span (toks R p x s io).out
    have : outWeight (buildGraph (counts (pairsOf R p x s allow withFlag io))) n ≤
        2 * ((x.span - 1) * (toks R p x s io).out.length) := le_trans h1 (Nat.mul_le_mul_left 2 h2)
    exact_mod_cast this
  obtain ⟨S, h1, h2⟩ := rank_values R hA hd0 hd1 hmin _ hg hb
  obtain ⟨d, hd, -, rfl⟩ := keys_of_textrank R p x s topK true allow withFlag io l h
  refine ⟨sortedKeys (buildGraph (counts (pairsOf R p x s allow withFlag io))), S, ?_, ?_, ?_, ?_, ?_⟩
  · exact (sortBy_perm _ _).nodup_iff.mpr hg.nodup
  · intro k
    rw [← mem_ends_pairsOf, ← mem_firsts (ends _), ← buildGraph_keys]
    exact (sortBy_perm _ _).mem_iff
  · refine sortedKeys_pairwise _ _ ?_
    rw [buildGraph_keys]
    exact firsts_order _
  · rw [link_eq] at h1
    exact h1
  · intro mn mx hmn hmx e he
    obtain ⟨e', he', rfl⟩ := List.mem_map.mp (mem_topOf topK _ _ he)
    simp only [if_true]
    rw [h2 mn mx hmn hmx d hd e' ((sortBy_perm _ _).mem_iff.mp he')]

end

/-- 大学 。 北京 大学 。 THE: 北京 and 大学 are linked with strength 2, 大学 with itself with strength 2.  In every round
`大学 = 0.15 + 0.85 * (北京 + 大学' / 2)` where `北京 = 0.15 + 0.85 * 大学' / 2` (`大学'` is the value before the round), so the value of
大学 is 1.85 times that of 北京, and the weights are 1 and `0.9 / (1.85 - 0.1) = 18/35`. -/
example : (textrank ratRSys ratPWorld ratTextRank rankedText none true [lit ['n'], lit ['n', 's']] false true).2 =
    .ok [(.word (lit ['大', '学']), some 1), (.word (lit ['北', '京']), some (18 / 35))] := by decide +kernel

end Jieba.Props
