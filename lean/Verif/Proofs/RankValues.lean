import Mathlib.Order.Lex
import Mathlib.Data.List.Lex
import Mathlib.Algebra.BigOperators.Intervals
import Mathlib.Algebra.BigOperators.Ring.Finset
import Verif.Proofs.TextRank
import Verif.Proofs.PosBest
import Verif.Spec.Ranking
/-!
# The values that `rank` computes
-/

set_option linter.unusedSectionVars false

namespace Jieba.Analyse
open Jieba Jieba.Pos Jieba.Spec

/-! ## Weights of edges -/

/-- Total weight of the edges from `n` to `v`. -/
def linkWeight (g : Graph) (n v : Key) : Nat := ((((g.get? n).getD []).filter (fun e => decide (e.1 = v))).map Prod.snd).sum

theorem addTo_link (g : Graph) (a b : Key) (w : Nat) (n v : Key) :
    linkWeight (addTo g a b w) n v = linkWeight g n v + if (a, b) = (n, v) then w else 0 := by
  unfold linkWeight addTo
  rw [PyDict.get?_set]
  by_cases h : a = n
  · subst h
    by_cases hb : b = v
    · subst hb; simp [List.filter_append]
    · simp [List.filter_append, hb]
  · simp [h]

/-- The counts of a pair. -/
def entrySum (cm : PyDict (Key × Key) Nat) (k : Key × Key) : Nat := (cm.map (fun e => if e.1 = k then e.2 else 0)).sum

theorem buildGraph_link (cm : PyDict (Key × Key) Nat) (n v : Key) :
    linkWeight (buildGraph cm) n v = entrySum cm (n, v) + entrySum cm (v, n) := by
  induction cm using List.reverseRecOn with
  | nil => simp [buildGraph, linkWeight, entrySum]
  | append_singleton cm e ih =>
    obtain ⟨⟨a, b⟩, w⟩ := e
    rw [buildGraph_snoc, addEdge, addTo_link, addTo_link, ih]
    have h : ∀ k, entrySum (cm ++ [((a, b), w)]) k = entrySum cm k + if (a, b) = k then w else 0 := by
      intro k; simp [entrySum]
    rw [h, h]
    have : ((b, a) = (n, v)) = ((a, b) = (v, n)) := by simp only [Prod.mk.injEq, eq_iff_iff]; exact and_comm
    simp only [this]
    omega

theorem entrySum_set (cm : PyDict (Key × Key) Nat) (x k : Key × Key) (hn : cm.keys.Nodup) :
    entrySum (bump cm x) k = entrySum cm k + if x = k then 1 else 0 := by
  unfold bump
  induction cm with
  | nil => simp [PyDict.set, entrySum]
  | cons e cm ih =>
    obtain ⟨k', v⟩ := e
    simp only [PyDict.keys, List.map_cons, List.nodup_cons] at hn
    by_cases h : k' = x
    · subst h
      by_cases hk : k' = k
      · subst hk; simp [PyDict.set, PyDict.get?, entrySum]; omega
      · simp [PyDict.set, PyDict.get?, entrySum, hk]
    · have := ih hn.2
      simp only [PyDict.set, PyDict.get?, if_neg h]
      unfold entrySum at this ⊢
      rw [List.map_cons, List.sum_cons, this, List.map_cons, List.sum_cons]
      omega

theorem counts_entry (ps : List (Key × Key)) (k : Key × Key) : entrySum (counts ps) k = ps.count k := by
  induction ps using List.reverseRecOn with
  | nil => simp [counts, entrySum]
  | append_singleton ps x ih =>
    rw [counts_snoc, entrySum_set _ _ _ (by rw [counts_keys]; exact firsts_nodup _), ih, List.count_append]
    congr 1
    rw [List.count_singleton]
    by_cases h : x = k <;> simp [h]

/-! ## Counting pairs of positions -/

theorem sum_range_take {α : Type _} (P : α → Prop) [DecidablePred P] (ts : List α) (m : Nat) (Q : Nat → Prop) [DecidablePred Q]
    (hQ : ∀ j, Q j ↔ j < m ∧ ∃ t, ts[j]? = some t ∧ P t) :
    (∑ j ∈ Finset.range ts.length, if Q j then 1 else 0) = ((ts.take m).filter (fun t => decide (P t))).length := by
  induction ts generalizing m Q with
  | nil => simp
  | cons t ts ih =>
    rw [List.length_cons, Finset.sum_range_succ']
    cases m with
    | zero =>
      have : ∀ j, ¬ Q j := fun j h => absurd ((hQ j).mp h).1 (by omega)
      simp [this]
    | succ m =>
      rw [ih m (fun j => Q (j + 1)) (fun j => by rw [hQ]; simp)]
      have h0 : Q 0 ↔ P t := by rw [hQ]; simp
      rw [List.take_succ_cons, List.filter_cons]
      by_cases h : P t
      · simp [h, h0.mpr h]
      · simp [h, mt h0.mp h]

theorem windowPairs_count (f : Pair → Bool) (mk : Pair → Key) (span : Nat) (ts : List Pair) (u v : Key) :
    (windowPairs f mk span ts).count (u, v) =
      together ts.length span (fun i k => ∃ t, ts[i]? = some t ∧ f t = true ∧ mk t = k) u v := by
  classical
  induction ts with
  | nil => simp [windowPairs, together]
  | cons a ts ih =>
    rw [windowPairs, List.count_append, ih]
    unfold together
    rw [List.length_cons, Finset.sum_range_succ', Nat.add_comm]
    congr 1
    · refine Finset.sum_congr rfl ?_
      intro i _
      rw [Finset.sum_range_succ']
      simp only [List.getElem?_cons_succ, Nat.not_lt_zero, false_and, if_false, Nat.add_zero]
      refine Finset.sum_congr rfl ?_
      intro j _
      split_ifs with h1 h2 h2
      · rfl
      · exact absurd ⟨by omega, by omega, h1.2.2⟩ h2
      · exact absurd ⟨by omega, by omega, h2.2.2⟩ h1
      · rfl
    · rw [Finset.sum_range_succ']
      simp only [List.getElem?_cons_succ, Nat.lt_irrefl, false_and, if_false, Nat.add_zero, List.getElem?_cons_zero,
        Option.some.injEq, exists_eq_left']
      by_cases ha : f a = true ∧ mk a = u
      · rw [if_pos ha.1]
        rw [sum_range_take (fun t => f t = true ∧ mk t = v) ts (span - 1)]
        · generalize ts.take (span - 1) = l
          obtain ⟨ha, hu⟩ := ha
          subst hu
          induction l with
          | nil => rfl
          | cons b l ihl =>
            by_cases hb : f b = true
            · by_cases hv : mk b = v
              · simpa [hb, hv] using ihl
              · simpa [hb, hv] using ihl
            · simp only [Bool.not_eq_true] at hb
              simpa [hb] using ihl
        · intro j
          constructor
          · rintro ⟨h1, h2, h3, h4⟩; exact ⟨by omega, h4⟩
          · rintro ⟨h1, h2⟩; exact ⟨by omega, by omega, ha, h2⟩
      · rw [Finset.sum_eq_zero]
        · split
          · next hf =>
            rw [List.count_eq_zero]
            intro hm
            obtain ⟨b, -, hb⟩ := List.mem_map.mp hm
            cases hb
            exact ha ⟨hf, rfl⟩
          · simp
        · intro j _
          rw [if_neg]
          rintro ⟨-, -, h, -⟩
          exact ha h

/-! ## The order of the nodes -/

theorem sortedKeys_pairwise (g : Graph) (R : Key → Key → Prop) (h : g.keys.Pairwise R) :
    (sortedKeys g).Pairwise (fun a b => a.text < b.text ∨ (a.text = b.text ∧ R a b)) := by
  have he : sortedKeys g = sortBy (fun a b : Key => decide (OrderDual.toDual b.text ≤ OrderDual.toDual a.text)) g.keys := by
    refine sortBy_congr _ _ _ ?_
    intro a _ b _
    have := strLt_iff b.text a.text
    cases hs : strLt b.text a.text with
    | true =>
      rw [hs] at this
      have := this.mp rfl
      simp only [Bool.not_true]
      symm
      rw [decide_eq_false_iff_not, OrderDual.toDual_le_toDual]
      exact not_le.mpr this
    | false =>
      rw [hs] at this
      simp only [Bool.not_false]
      symm
      rw [decide_eq_true_eq, OrderDual.toDual_le_toDual]
      exact not_lt.mp (fun h => by simpa using this.mpr h)
  rw [he]
  refine (sortBy_pairwise (fun k : Key => OrderDual.toDual k.text) R _ h).imp ?_
  intro a b hab
  rcases hab with h | ⟨h, hr⟩
  · exact Or.inl (OrderDual.toDual_lt_toDual.mp h)
  · exact Or.inr ⟨OrderDual.toDual.injective h, hr⟩

/-! ## The iteration -/

section
variable {F : Type} [Field F] [LinearOrder F] [IsStrictOrderedRing F]

theorem sum_map_single {κ : Type _} [DecidableEq κ] (nodes : List κ) (hn : nodes.Nodup) (b : κ) (hb : b ∈ nodes) (f : κ → F) :
    (nodes.map (fun v => if b = v then f v else 0)).sum = f b := by
  induction nodes with
  | nil => cases hb
  | cons a nodes ih =>
    rw [List.nodup_cons] at hn
    rw [List.map_cons, List.sum_cons]
    by_cases h : b = a
    · subst h
      rw [if_pos rfl]
      have : (nodes.map (fun v => if b = v then f v else 0)) = nodes.map (fun _ => (0 : F)) := by
        refine List.map_congr_left ?_
        intro v hv
        rw [if_neg]
        rintro rfl
        exact hn.1 hv
      rw [this]
      simp
    · rw [if_neg h, ih hn.2 ((List.mem_cons.mp hb).resolve_left h), zero_add]

/-- A sum over the edges of a node, by their ends. -/
theorem sum_edges (nodes : List Key) (hn : nodes.Nodup) (es : List (Key × Nat)) (he : ∀ e ∈ es, e.1 ∈ nodes) (f : Key → F) :
    (es.map (fun e => (e.2 : F) * f e.1)).sum =
      (nodes.map (fun v => ((((es.filter (fun e => decide (e.1 = v))).map Prod.snd).sum : Nat) : F) * f v)).sum := by
  induction es with
  | nil => simp
  | cons e es ih =>
    obtain ⟨b, w⟩ := e
    rw [List.map_cons, List.sum_cons, ih (fun e h => he e (List.mem_cons_of_mem _ h)),
      ← sum_map_single nodes hn b (he _ List.mem_cons_self) (fun v => (w : F) * f v), ← List.sum_map_add]
    congr 1
    refine List.map_congr_left ?_
    intro v _
    by_cases h : b = v
    · subst h
      simp [add_mul]
    · simp [h]

theorem outWeight_link (g : Graph) (hg : GraphOK g) (nodes : List Key) (hn : nodes.Nodup) (hk : ∀ k, k ∈ nodes ↔ k ∈ g.keys)
    (n : Key) (hm : n ∈ nodes) : outWeight g n = (nodes.map (fun v => linkWeight g n v)).sum := by
  obtain ⟨es, he⟩ := (mem_keys_get g n).mp ((hk n).mp hm)
  have h := sum_edges (F := ℚ) nodes hn es (fun e hm => (hk _).mpr ((hg.edges n es he).2 e hm).1) (fun _ => 1)
  simp only [mul_one] at h
  unfold outWeight linkWeight
  rw [he]
  simp only [Option.getD_some]
  have h' : (((es.map Prod.snd).sum : Nat) : ℚ) = ((nodes.map (fun v => ((es.filter (fun e => decide (e.1 = v))).map Prod.snd).sum)).sum : Nat) := by
    rw [Nat.cast_list_sum, Nat.cast_list_sum, List.map_map, List.map_map]
    exact h
  exact_mod_cast h'

/-- The value of a node in a dict. -/
def val (ws : PyDict Key F) (n : Key) : F := (ws.get? n).getD 0

theorem val_set (ws : PyDict Key F) (n : Key) (x : F) (m : Key) : val (ws.set n x) m = if n = m then x else val ws m := by
  unfold val
  rw [PyDict.get?_set]
  split <;> rfl

/-- What textrank.py:37-39 adds up. -/
def inflow (g : Graph) (x : Key → F) (n : Key) : F :=
  (((g.get? n).getD []).map (fun e => (e.2 : F) / (outWeight g e.1 : F) * x e.1)).sum

theorem edgeSum_eq (A : Arith F) (hA : Exact A) (g : Graph) (hg : GraphOK g) (ws : PyDict Key F) (hw : ws.keys = g.keys)
    (es : List (Key × Nat)) (he : ∀ e ∈ es, e.1 ∈ g.keys) (s : F) :
    edgeSum A (g.map (fun e => (e.1, sumOut A e.2))) ws es s =
      .ok (s + (es.map (fun e => (e.2 : F) / (outWeight g e.1 : F) * val ws e.1)).sum) := by
  induction es generalizing s with
  | nil => simp [edgeSum]
  | cons e es ih =>
    obtain ⟨b, w⟩ := e
    have hb := he _ List.mem_cons_self
    simp only [] at hb
    obtain ⟨eb, heb⟩ := (mem_keys_get g b).mp hb
    obtain ⟨x, hx⟩ := (mem_keys_get ws b).mp (by rw [hw]; exact hb)
    have hpos := outWeight_pos g hg b hb
    have hout : sumOut A eb = (outWeight g b : F) := by
      rw [sumOut_exact A hA]; unfold outWeight; rw [heb]; rfl
    have ho : (0 : F) < (outWeight g b : F) := by exact_mod_cast hpos
    have hout0 : sumOut A eb ≠ A.zero := by rw [hout, hA.zero]; exact ne_of_gt ho
    have hv : val ws b = x := by unfold val; rw [hx]; rfl
    simp only [edgeSum, getItem, get?_map, heb, Option.map_some, pyDiv, if_neg hout0, hx]
    rw [hout, hA.add, hA.mul, hA.div, hA.ofInt, ih (fun e h => he e (List.mem_cons_of_mem _ h)), List.map_cons, List.sum_cons, hv,
      add_assoc, Int.cast_natCast]

theorem sweep_val (R : RSys F) (hA : Exact R.k.pos.sys.A) (g : Graph) (hg : GraphOK g) (ns : List Key) (hns : ∀ n ∈ ns, n ∈ g.keys)
    (hnd : ns.Nodup) (ws : PyDict Key F) (hw : ws.keys = g.keys) :
    ∃ ws', sweep R g (g.map (fun e => (e.1, sumOut R.k.pos.sys.A e.2))) ns ws = .ok ws' ∧ ws'.keys = g.keys ∧
      (∀ m, m ∉ ns → val ws' m = val ws m) ∧
      (∀ before n after, ns = before ++ n :: after →
        val ws' n = (1 - R.d) + R.d * inflow g (fun v => if v ∈ before then val ws' v else val ws v) n) := by
  induction ns generalizing ws with
  | nil => exact ⟨ws, rfl, hw, fun _ _ => rfl, fun b n a h => by cases b <;> cases h⟩
  | cons n ns ih =>
    rw [List.nodup_cons] at hnd
    have hn := hns n List.mem_cons_self
    obtain ⟨es, he⟩ := (mem_keys_get g n).mp hn
    have hes := edgeSum_eq R.k.pos.sys.A hA g hg ws hw es (fun e h => ((hg.edges n es he).2 e h).1) R.k.pos.sys.A.zero
    have hinf : inflow g (val ws) n = (es.map (fun e => (e.2 : F) / (outWeight g e.1 : F) * val ws e.1)).sum := by
      unfold inflow; rw [he]; rfl
    rw [hA.zero, zero_add, ← hinf] at hes
    have hval : R.k.pos.sys.A.add (R.k.pos.sys.A.sub (R.k.pos.sys.A.ofInt 1) R.d) (R.k.pos.sys.A.mul R.d (inflow g (val ws) n)) =
        (1 - R.d) + R.d * inflow g (val ws) n := by
      rw [hA.add, hA.sub, hA.mul, hA.ofInt]; simp
    obtain ⟨ws', k1, k2, k3, k4⟩ := ih (fun m hm => hns m (List.mem_cons_of_mem _ hm)) hnd.2
      (ws.set n ((1 - R.d) + R.d * inflow g (val ws) n)) (by rw [keys_set_addNew, hw, addNew_of_mem _ _ hn])
    have hnew : val ws' n = (1 - R.d) + R.d * inflow g (val ws) n := by rw [k3 n hnd.1, val_set, if_pos rfl]
    refine ⟨ws', ?_, k2, ?_, ?_⟩
    · have hz : R.k.pos.sys.A.zero = (0 : F) := hA.zero
      simp only [sweep, getItem, he, hz, hes, hval]
      exact k1
    · intro m hm
      rw [List.mem_cons, not_or] at hm
      rw [k3 m hm.2, val_set, if_neg (fun h => hm.1 h.symm)]
    · intro before m after hb
      cases before with
      | nil =>
        simp only [List.nil_append, List.cons.injEq] at hb
        obtain ⟨rfl, rfl⟩ := hb
        simpa using hnew
      | cons b before =>
        simp only [List.cons_append, List.cons.injEq] at hb
        obtain ⟨rfl, hb⟩ := hb
        rw [k4 before m after hb]
        congr 3
        funext v
        by_cases hv : v = n
        · subst hv
          have : v ∉ before := fun h => hnd.1 (by rw [hb]; exact List.mem_append_left _ h)
          rw [if_neg this, if_pos List.mem_cons_self, val_set, if_pos rfl, hnew]
        · have hnv : ¬ n = v := fun h => hv h.symm
          simp [val_set, hv, hnv]

theorem sweeps_succ (R : RSys F) (g : Graph) (o : PyDict Key F) (ns : List Key) (k : Nat) (ws : PyDict Key F) :
    sweeps R g o ns (k + 1) ws = match sweeps R g o ns k ws with
      | .error e => .error e
      | .ok ws => sweep R g o ns ws := by
  induction k generalizing ws with
  | zero => simp only [sweeps]; cases sweep R g o ns ws <;> rfl
  | succ k ih =>
    rw [sweeps]
    conv_rhs => rw [sweeps]
    cases sweep R g o ns ws with
    | error e => rfl
    | ok ws1 => simp only []; rw [ih]

theorem inflow_eq (g : Graph) (hg : GraphOK g) (nodes : List Key) (hn : nodes.Nodup) (hk : ∀ k, k ∈ nodes ↔ k ∈ g.keys)
    (x : Key → F) (n : Key) (hm : n ∈ nodes) :
    inflow g x n = (nodes.map (fun v => (linkWeight g n v : F) / ((nodes.map (fun u => linkWeight g v u)).sum : Nat) * x v)).sum := by
  obtain ⟨es, he⟩ := (mem_keys_get g n).mp ((hk n).mp hm)
  have h := sum_edges (F := F) nodes hn es (fun e hm => (hk _).mpr ((hg.edges n es he).2 e hm).1) (fun v => x v / (outWeight g v : F))
  unfold inflow
  rw [he, Option.getD_some]
  have h1 : ∀ (w : Nat) (v : Key), (w : F) / (outWeight g v : F) * x v = (w : F) * (x v / (outWeight g v : F)) := by
    intro w v; ring
  simp only [h1]
  rw [h]
  congr 1
  refine List.map_congr_left ?_
  intro v hv
  rw [← outWeight_link g hg nodes hn hk v hv, h1]
  unfold linkWeight
  rw [he]
  rfl

/-- The values of the nodes after 10 iterations and the weights made of them. -/
theorem rank_values (R : RSys F) (hA : Exact R.k.pos.sys.A) (hd0 : 0 ≤ R.d) (hd1 : R.d < 1) (hmin : R.fmin < 1 - R.d)
    (g : Graph) (hg : GraphOK g) (hmax : ∀ n, (outWeight g n : F) < R.fmax) :
    ∃ S : Nat → Key → F, Ranking (sortedKeys g) (linkWeight g) R.d S ∧
      ∀ mn mx, IsLeast {y | ∃ n ∈ sortedKeys g, y = S 10 n} mn → IsGreatest {y | ∃ n ∈ sortedKeys g, y = S 10 n} mx →
        ∀ ws, rank R g = .ok ws → ∀ e ∈ ws, e.2 = (S 10 e.1 - mn / 10) / (mx - mn / 10) := by
  have hkeys : ∀ k, k ∈ sortedKeys g ↔ k ∈ g.keys := fun k => (sortBy_perm _ _).mem_iff
  have hnd : (sortedKeys g).Nodup := (sortBy_perm _ _).nodup_iff.mpr hg.nodup
  by_cases hg0 : g = []
  · subst hg0
    refine ⟨fun _ _ => 0, ⟨fun n hn => absurd hn (by simp [sortedKeys, sortBy, PyDict.keys]), fun t b n a h => ?_⟩, ?_⟩
    · cases b <;> cases h
    · intro mn mx h
      obtain ⟨n, hn, -⟩ := h.1
      exact absurd hn (by simp [sortedKeys, sortBy, PyDict.keys])
  have hlen : g.length ≠ 0 := by simpa using hg0
  have hn1 : R.k.pos.sys.A.ofInt 1 = (1 : F) := by rw [hA.ofInt]; norm_num
  have hnl : R.k.pos.sys.A.ofInt g.length = (g.length : F) := by rw [hA.ofInt]; norm_num
  have hlen0 : (g.length : F) ≠ 0 := by exact_mod_cast hlen
  obtain ⟨o, ho⟩ : ∃ o, o = g.map (fun e => (e.1, sumOut R.k.pos.sys.A e.2)) := ⟨_, rfl⟩
  obtain ⟨ws0, hws0⟩ : ∃ ws0 : PyDict Key F, ws0 = g.map (fun e => (e.1, 1 / (g.length : F))) := ⟨_, rfl⟩
  have hk0 : ws0.keys = g.keys := by rw [hws0]; simp [PyDict.keys, Function.comp_def]
  have hstate : ∀ t, ∃ ws, sweeps R g o (sortedKeys g) t ws0 = .ok ws ∧ ws.keys = g.keys := by
    intro t
    induction t with
    | zero => exact ⟨ws0, rfl, hk0⟩
    | succ t ih =>
      obtain ⟨ws, h1, h2⟩ := ih
      obtain ⟨ws', k1, k2, -⟩ := sweep_val R hA g hg (sortedKeys g) (fun n hn => (hkeys n).mp hn) hnd ws h2
      refine ⟨ws', ?_, k2⟩
      rw [sweeps_succ, h1, ho]
      exact k1
  choose st hst hstk using hstate
  have hst0 : st 0 = ws0 := by have := hst 0; simp only [sweeps, Except.ok.injEq] at this; exact this.symm
  refine ⟨fun t n => val (st t) n, ⟨?_, ?_⟩, ?_⟩
  · intro n hn
    obtain ⟨es, he⟩ := (mem_keys_get g n).mp ((hkeys n).mp hn)
    show val (st 0) n = _
    rw [hst0, hws0]
    unfold val
    rw [get?_map g (fun _ => 1 / (g.length : F)) n, he]
    have : (sortedKeys g).length = g.length := by unfold sortedKeys; rw [(sortBy_perm _ _).length_eq]; simp [PyDict.keys]
    rw [this]
    rfl
  · intro t before n after hb
    obtain ⟨ws', k1, k2, k3, k4⟩ := sweep_val R hA g hg (sortedKeys g) (fun n hn => (hkeys n).mp hn) hnd (st t) (hstk t)
    have hws' : ws' = st (t + 1) := by
      have h := hst (t + 1)
      rw [sweeps_succ, hst t, ho] at h
      simp only [] at h
      rw [k1] at h
      exact Except.ok.inj h
    subst hws'
    have := k4 before n after hb
    rw [inflow_eq g hg (sortedKeys g) hnd hkeys _ n (by rw [hb]; simp)] at this
    exact this
  · intro mn mx hmn hmx ws hws e he
    unfold rank at hws
    simp only [pyDiv, hn1, if_neg hlen, hnl] at hws
    rw [if_neg (by rw [hA.zero]; exact hlen0)] at hws
    simp only [hA.div] at hws
    rw [← ho, ← hws0, hst 10] at hws
    simp only [] at hws
    have hsn : (st 10).keys.Nodup := by rw [hstk]; exact hg.nodup
    have hvals : ∀ y, y ∈ (st 10).values ↔ ∃ n ∈ sortedKeys g, y = val (st 10) n := by
      intro y
      constructor
      · intro hy
        obtain ⟨e, he, rfl⟩ := List.mem_map.mp hy
        refine ⟨e.1, (hkeys _).mpr (by rw [← hstk 10]; exact List.mem_map_of_mem he), ?_⟩
        unfold val
        rw [(PyDict.get?_eq_some_iff_mem _ hsn e.1 e.2).mpr he]
        rfl
      · rintro ⟨n, hn, rfl⟩
        obtain ⟨x, hx⟩ := (mem_keys_get (st 10) n).mp (by rw [hstk]; exact (hkeys n).mp hn)
        have : val (st 10) n = x := by unfold val; rw [hx]; rfl
        rw [this]
        exact List.mem_map.mpr ⟨(n, x), (PyDict.get?_eq_some_iff_mem _ hsn n x).mp hx, rfl⟩
    -- the bounds of `sweeps_ok`
    have hlen1 : (1 : F) ≤ (g.length : F) := by exact_mod_cast Nat.one_le_iff_ne_zero.mpr hlen
    have hgood : Good g ws0 := by
      refine ⟨hk0, ?_⟩
      intro n x hx
      rw [hws0, get?_map g (fun _ => 1 / (g.length : F)) n] at hx
      cases hgn : g.get? n with
      | none => rw [hgn] at hx; cases hx
      | some es =>
        rw [hgn] at hx
        simp only [Option.map_some, Option.some.injEq] at hx
        subst hx
        have h2 : (1 : F) ≤ outWeight g n := by exact_mod_cast outWeight_pos g hg n ((mem_keys_get _ _).mpr ⟨es, hgn⟩)
        have h0 : (0 : F) < g.length := lt_of_lt_of_le one_pos hlen1
        exact ⟨le_of_lt (div_pos one_pos h0), le_trans (by rw [div_le_one h0]; exact hlen1) h2⟩
    obtain ⟨ws1, g1, g2, g3⟩ := sweeps_ok R hA hd0 hd1 g hg (sortedKeys g) hkeys 10 ws0 hgood
    rw [← ho, hst 10] at g1
    cases g1
    have hv : ∀ y ∈ (st 10).values, 1 - R.d ≤ y ∧ y < R.fmax := by
      intro y hy
      obtain ⟨e, he, rfl⟩ := List.mem_map.mp hy
      have hget := (PyDict.get?_eq_some_iff_mem _ hsn e.1 e.2).mpr he
      exact ⟨g3 (by omega) e.1 e.2 hget, lt_of_le_of_lt (g2.bound e.1 e.2 hget).2 (hmax e.1)⟩
    obtain ⟨⟨m1, m2⟩, m3, ⟨m4, m5⟩, m6⟩ := minMax_spec (st 10).values R.fmax R.fmin
    change (minMax R (st 10).values).1 ≤ _ at m1
    change ∀ v ∈ (st 10).values, (minMax R (st 10).values).1 ≤ v at m2
    change (minMax R (st 10).values).1 = _ ∨ (minMax R (st 10).values).1 ∈ _ at m3
    change _ ≤ (minMax R (st 10).values).2 at m4
    change ∀ v ∈ (st 10).values, v ≤ (minMax R (st 10).values).2 at m5
    change (minMax R (st 10).values).2 = _ ∨ (minMax R (st 10).values).2 ∈ _ at m6
    have hmnv := (hvals mn).mpr hmn.1
    have hmxv := (hvals mx).mpr hmx.1
    have e1 : (minMax R (st 10).values).1 = mn := by
      apply le_antisymm (m2 mn hmnv)
      refine hmn.2 ((hvals _).mp ?_)
      rcases m3 with h | h
      · exfalso
        have := m2 mn hmnv
        have := (hv mn hmnv).2
        linarith
      · exact h
    have e2 : (minMax R (st 10).values).2 = mx := by
      refine le_antisymm (hmx.2 ((hvals _).mp ?_)) (m5 mx hmxv)
      rcases m6 with h | h
      · exfalso
        have := m5 mx hmxv
        have := (hv mx hmxv).1
        linarith
      · exact h
    rw [e1, e2] at hws
    have hpos : 0 < mn := by have := (hv mn hmnv).1; linarith
    have hle : mn ≤ mx := by
      have := m2 mx hmxv
      rwa [e1] at this
    have hden : 0 < mx - mn / 10 := by linarith
    rw [normalise_ok _ hA _ _ (ne_of_gt hden)] at hws
    simp only [Except.ok.injEq] at hws
    subst hws
    obtain ⟨e', he', rfl⟩ := List.mem_map.mp he
    show _ = (val (st 10) e'.1 - mn / 10) / (mx - mn / 10)
    unfold val
    rw [(PyDict.get?_eq_some_iff_mem _ hsn e'.1 e'.2).mpr he']
    rfl

end

end Jieba.Analyse
