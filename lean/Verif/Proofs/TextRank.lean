import Mathlib.Algebra.Order.BigOperators.Group.List
import Mathlib.Tactic.Linarith
import Mathlib.Tactic.FieldSimp
import Mathlib.Tactic.Ring
import Verif.Model.TextRank
import Verif.Proofs.Keywords
import Verif.Spec.Exact
/-!
# Lemmas about TextRank: the graph and the iteration
-/

set_option linter.unusedSectionVars false

namespace Jieba.Analyse
open Jieba Jieba.Pos Jieba.Spec

/-! ## Distinct elements in order of first occurrence -/

section
variable {α : Type _} [DecidableEq α]

def addNew (l : List α) (x : α) : List α := if x ∈ l then l else l ++ [x]

def firsts (l : List α) : List α := l.foldl addNew []

theorem firsts_snoc (l : List α) (x : α) : firsts (l ++ [x]) = addNew (firsts l) x := by simp [firsts, List.foldl_append]

theorem mem_addNew (l : List α) (x y : α) : y ∈ addNew l x ↔ y ∈ l ∨ y = x := by
  unfold addNew
  split
  · constructor
    · exact Or.inl
    · rintro (h | rfl) <;> assumption
  · simp

theorem mem_firsts (l : List α) (y : α) : y ∈ firsts l ↔ y ∈ l := by
  induction l using List.reverseRecOn with
  | nil => simp [firsts]
  | append_singleton l x ih => rw [firsts_snoc, mem_addNew, ih]; simp

theorem addNew_of_mem (l : List α) (x : α) (h : x ∈ l) : addNew l x = l := if_pos h

theorem addNew_nodup (l : List α) (x : α) (h : l.Nodup) : (addNew l x).Nodup := by
  unfold addNew
  split
  · exact h
  · next hx =>
    rw [List.nodup_append]
    refine ⟨h, by simp, ?_⟩
    intro a ha b hb
    rw [List.mem_singleton] at hb
    subst hb
    rintro rfl; exact hx ha

theorem firsts_nodup (l : List α) : (firsts l).Nodup := by
  induction l using List.reverseRecOn with
  | nil => exact List.nodup_nil
  | append_singleton l x ih => rw [firsts_snoc]; exact addNew_nodup _ _ ih

theorem firsts_order (l : List α) : (firsts l).Pairwise (fun a b => l.idxOf a < l.idxOf b) := by
  induction l using List.reverseRecOn with
  | nil => exact List.Pairwise.nil
  | append_singleton l x ih =>
    rw [firsts_snoc]
    have hmono : (firsts l).Pairwise (fun a b => (l ++ [x]).idxOf a < (l ++ [x]).idxOf b) := by
      refine List.Pairwise.imp_of_mem ?_ ih
      intro a b ha hb h
      rw [List.idxOf_append_of_mem ((mem_firsts l a).mp ha), List.idxOf_append_of_mem ((mem_firsts l b).mp hb)]
      exact h
    unfold addNew
    split
    · exact hmono
    · next hx =>
      refine List.pairwise_append.mpr ⟨hmono, List.pairwise_singleton _ _, ?_⟩
      intro a ha b hb
      rw [List.mem_singleton] at hb
      subst hb
      have ha' := (mem_firsts l a).mp ha
      have hb' : b ∉ l := fun h => hx ((mem_firsts l b).mpr h)
      rw [List.idxOf_append_of_mem ha', List.idxOf_append_of_notMem hb']
      have := List.idxOf_lt_length_of_mem ha'
      omega

theorem keys_set_addNew {V : Type _} (d : PyDict α V) (k : α) (v : V) : (d.set k v).keys = addNew d.keys k := by
  rw [PyDict.keys_set]
  unfold addNew
  by_cases h : k ∈ d.keys
  · rw [if_pos h, if_pos ((PyDict.mem_keys_iff d k).mp h)]
  · rw [if_neg h, if_neg (fun h' => h ((PyDict.mem_keys_iff d k).mpr h'))]

end

/-! ## Pairs of words -/

/-- The pairs that textrank.py:85-95 counts, in that order. -/
def windowPairs (f : Pair → Bool) (mk : Pair → Key) (span : Nat) : List Pair → List (Key × Key)
  | [] => []
  | wp :: rest =>
    (if f wp then ((rest.take (span - 1)).filter f).map (fun wj => (mk wp, mk wj)) else []) ++ windowPairs f mk span rest

theorem cooccur_eq (f : Pair → Bool) (mk : Pair → Key) (span : Nat) (ws : List Pair) (cm : PyDict (Key × Key) Nat) :
    cooccur f mk span ws cm = (windowPairs f mk span ws).foldl bump cm := by
  induction ws generalizing cm with
  | nil => rfl
  | cons wp rest ih =>
    simp only [cooccur, windowPairs, List.foldl_append]
    rw [ih]
    congr 1
    split
    · rw [List.foldl_map, List.foldl_filter]
    · rfl

theorem mem_windowPairs (f : Pair → Bool) (mk : Pair → Key) (span : Nat) (ws : List Pair) (a b : Key) :
    (a, b) ∈ windowPairs f mk span ws ↔ ∃ i j wi wj, i < j ∧ j < i + span ∧ ws[i]? = some wi ∧ ws[j]? = some wj ∧
      f wi = true ∧ f wj = true ∧ a = mk wi ∧ b = mk wj := by
  induction ws with
  | nil => simp [windowPairs]
  | cons wp rest ih =>
    rw [windowPairs, List.mem_append, ih]
    constructor
    · rintro (h | ⟨i, j, wi, wj, h1, h2, h3, h4, h5⟩)
      · split at h
        · next hf =>
          obtain ⟨wj, hj, he⟩ := List.mem_map.mp h
          obtain ⟨hj, hfj⟩ := List.mem_filter.mp hj
          obtain ⟨k, hk, rfl⟩ := List.getElem_of_mem hj
          rw [List.length_take] at hk
          rw [List.getElem_take] at he hfj
          cases he
          exact ⟨0, k + 1, wp, rest[k]'(by omega), by omega, by omega, rfl, by
            rw [List.getElem?_cons_succ, List.getElem?_eq_getElem], hf, hfj, rfl, rfl⟩
        · cases h
      · exact ⟨i + 1, j + 1, wi, wj, by omega, by omega, by simpa using h3, by simpa using h4, h5⟩
    · rintro ⟨i, j, wi, wj, h1, h2, h3, h4, h5, h6, rfl, rfl⟩
      obtain ⟨j, rfl⟩ : ∃ j', j = j' + 1 := ⟨j - 1, by omega⟩
      rw [List.getElem?_cons_succ] at h4
      cases i with
      | zero =>
        left
        simp only [List.getElem?_cons_zero, Option.some.injEq] at h3
        subst h3
        rw [if_pos h5]
        refine List.mem_map.mpr ⟨wj, List.mem_filter.mpr ⟨?_, h6⟩, rfl⟩
        rw [List.mem_iff_getElem?]
        exact ⟨j, by rw [List.getElem?_take_of_lt (by omega)]; exact h4⟩
      | succ i =>
        right
        rw [List.getElem?_cons_succ] at h3
        exact ⟨i, j, wi, wj, by omega, by omega, h3, h4, h5, h6, rfl, rfl⟩

theorem windowPairs_length (f : Pair → Bool) (mk : Pair → Key) (span : Nat) (ws : List Pair) :
    (windowPairs f mk span ws).length ≤ (span - 1) * ws.length := by
  induction ws with
  | nil => simp [windowPairs]
  | cons wp rest ih =>
    rw [windowPairs, List.length_append, List.length_cons, Nat.mul_add, Nat.mul_one]
    have : (if f wp then ((rest.take (span - 1)).filter f).map (fun wj => (mk wp, mk wj)) else []).length ≤ span - 1 := by
      split
      · rw [List.length_map]
        refine le_trans (List.length_filter_le _ _) ?_
        rw [List.length_take]; exact min_le_left _ _
      · simp
    omega

/-! ## Counts -/

def counts (ps : List (Key × Key)) : PyDict (Key × Key) Nat := ps.foldl bump []

theorem counts_snoc (ps : List (Key × Key)) (x : Key × Key) : counts (ps ++ [x]) = bump (counts ps) x := by
  simp [counts, List.foldl_append]

theorem counts_keys (ps : List (Key × Key)) : (counts ps).keys = firsts ps := by
  induction ps using List.reverseRecOn with
  | nil => rfl
  | append_singleton ps x ih => rw [counts_snoc, firsts_snoc, bump, keys_set_addNew, ih]

theorem set_sum {K : Type _} [DecidableEq K] (d : PyDict K Nat) (k : K) :
    (d.set k ((d.get? k).getD 0 + 1)).values.sum = d.values.sum + 1 := by
  induction d with
  | nil => rfl
  | cons e d ih =>
    obtain ⟨k', v⟩ := e
    simp only [PyDict.values] at ih ⊢
    by_cases h : k' = k
    · subst h; simp [PyDict.set, PyDict.get?]; omega
    · simp [PyDict.set, PyDict.get?, h, ih]; omega

theorem counts_sum (ps : List (Key × Key)) : (counts ps).values.sum = ps.length := by
  induction ps using List.reverseRecOn with
  | nil => rfl
  | append_singleton ps x ih => rw [counts_snoc, bump, set_sum, ih, List.length_append]; rfl

theorem set_pos {K : Type _} [DecidableEq K] (d : PyDict K Nat) (k : K) (v : Nat) (hv : 1 ≤ v) (h : ∀ e ∈ d, 1 ≤ e.2) :
    ∀ e ∈ d.set k v, 1 ≤ e.2 := by
  induction d with
  | nil => intro e he; simp [PyDict.set] at he; subst he; exact hv
  | cons a d ih =>
    obtain ⟨k', v'⟩ := a
    intro e he
    simp only [PyDict.set] at he
    split at he
    · rcases List.mem_cons.mp he with rfl | he
      · exact hv
      · exact h e (List.mem_cons_of_mem _ he)
    · rcases List.mem_cons.mp he with rfl | he
      · exact h _ List.mem_cons_self
      · exact ih (fun e he => h e (List.mem_cons_of_mem _ he)) e he

theorem counts_pos (ps : List (Key × Key)) : ∀ e ∈ counts ps, 1 ≤ e.2 := by
  induction ps using List.reverseRecOn with
  | nil => simp [counts]
  | append_singleton ps x ih => rw [counts_snoc]; exact set_pos _ _ _ (by omega) ih

/-! ## The graph -/

/-- Every node has an edge, and every edge leads to a node and has a positive weight. -/
structure GraphOK (g : Graph) : Prop where
  nodup : g.keys.Nodup
  edges : ∀ n es, g.get? n = some es → es ≠ [] ∧ ∀ e ∈ es, e.1 ∈ g.keys ∧ 1 ≤ e.2

/-- Total weight of the edges of a node. -/
def outWeight (g : Graph) (n : Key) : Nat := (((g.get? n).getD []).map Prod.snd).sum

/-- `GraphOK` except for targets, for a graph where the second half of an edge is still missing. -/
structure GraphOK' (extra : Key) (g : Graph) : Prop where
  nodup : g.keys.Nodup
  edges : ∀ n es, g.get? n = some es → es ≠ [] ∧ ∀ e ∈ es, (e.1 ∈ g.keys ∨ e.1 = extra) ∧ 1 ≤ e.2

theorem addTo_keys (g : Graph) (a b : Key) (w : Nat) : (addTo g a b w).keys = addNew g.keys a := keys_set_addNew _ _ _

theorem addEdge_keys (g : Graph) (a b : Key) (w : Nat) : (addEdge g a b w).keys = addNew (addNew g.keys a) b := by
  rw [addEdge, addTo_keys, addTo_keys]

theorem addEdge_ok (g : Graph) (h : GraphOK g) (a b : Key) (w : Nat) (hw : 1 ≤ w) : GraphOK (addEdge g a b w) := by
  have h1 : GraphOK' b (addTo g a b w) := by
    refine ⟨by rw [addTo_keys]; exact addNew_nodup _ _ h.nodup, ?_⟩
    intro n es he
    rw [addTo_keys]
    unfold addTo at he
    rw [PyDict.get?_set] at he
    split at he
    · next hn =>
      subst hn
      simp only [Option.some.injEq] at he
      subst he
      refine ⟨by simp, ?_⟩
      intro e hm
      rcases List.mem_append.mp hm with hm | hm
      · cases hg : g.get? a with
        | none => rw [hg] at hm; simp at hm
        | some es =>
          rw [hg] at hm
          obtain ⟨h1, h2⟩ := (h.edges a es hg).2 e hm
          exact ⟨Or.inl ((mem_addNew _ _ _).mpr (Or.inl h1)), h2⟩
      · rw [List.mem_singleton] at hm
        subst hm
        exact ⟨Or.inr rfl, hw⟩
    · obtain ⟨h1, h2⟩ := h.edges n es he
      refine ⟨h1, fun e hm => ?_⟩
      obtain ⟨h3, h4⟩ := h2 e hm
      exact ⟨Or.inl ((mem_addNew _ _ _).mpr (Or.inl h3)), h4⟩
  have ha : a ∈ (addTo g a b w).keys := by rw [addTo_keys, mem_addNew]; exact Or.inr rfl
  unfold addEdge
  refine ⟨by rw [addTo_keys]; exact addNew_nodup _ _ h1.nodup, ?_⟩
  intro n es he
  rw [addTo_keys]
  generalize addTo g a b w = g1 at he h1 ha ⊢
  unfold addTo at he
  rw [PyDict.get?_set] at he
  split at he
  · next hn =>
    subst hn
    simp only [Option.some.injEq] at he
    subst he
    refine ⟨by simp, ?_⟩
    intro e hm
    rcases List.mem_append.mp hm with hm | hm
    · cases hg : g1.get? b with
      | none => rw [hg] at hm; simp at hm
      | some es =>
        rw [hg] at hm
        obtain ⟨h3, h4⟩ := (h1.edges b es hg).2 e hm
        exact ⟨(mem_addNew _ _ _).mpr h3, h4⟩
    · rw [List.mem_singleton] at hm
      subst hm
      exact ⟨(mem_addNew _ _ _).mpr (Or.inl ha), hw⟩
  · obtain ⟨h3, h4⟩ := h1.edges n es he
    exact ⟨h3, fun e hm => ⟨(mem_addNew _ _ _).mpr (h4 e hm).1, (h4 e hm).2⟩⟩

theorem addTo_weight (g : Graph) (a b n : Key) (w : Nat) : outWeight (addTo g a b w) n ≤ outWeight g n + w := by
  unfold outWeight addTo
  rw [PyDict.get?_set]
  split
  · next h => subst h; simp
  · omega

theorem buildGraph_snoc (cm : PyDict (Key × Key) Nat) (e : (Key × Key) × Nat) :
    buildGraph (cm ++ [e]) = addEdge (buildGraph cm) e.1.1 e.1.2 e.2 := by
  simp [buildGraph, List.foldl_append]

theorem buildGraph_ok (cm : PyDict (Key × Key) Nat) (h : ∀ e ∈ cm, 1 ≤ e.2) : GraphOK (buildGraph cm) := by
  induction cm using List.reverseRecOn with
  | nil => exact ⟨List.nodup_nil, fun n es h => by simp [buildGraph] at h⟩
  | append_singleton cm e ih =>
    rw [buildGraph_snoc]
    exact addEdge_ok _ (ih (fun e he => h e (List.mem_append_left _ he))) _ _ _ (h e (by simp))

theorem buildGraph_weight (cm : PyDict (Key × Key) Nat) (n : Key) : outWeight (buildGraph cm) n ≤ 2 * cm.values.sum := by
  induction cm using List.reverseRecOn with
  | nil => simp [buildGraph, outWeight]
  | append_singleton cm e ih =>
    rw [buildGraph_snoc, addEdge]
    have h1 := addTo_weight (addTo (buildGraph cm) e.1.1 e.1.2 e.2) e.1.2 e.1.1 n e.2
    have h2 := addTo_weight (buildGraph cm) e.1.1 e.1.2 n e.2
    have h3 : PyDict.values (cm ++ [e]) = PyDict.values cm ++ [e.2] := by simp [PyDict.values]
    rw [h3, List.sum_append]
    simp only [List.sum_cons, List.sum_nil]
    omega

/-- The two ends of pairs. -/
def ends (ps : List (Key × Key)) : List Key := ps.flatMap (fun p => [p.1, p.2])

theorem ends_snoc (ps : List (Key × Key)) (p : Key × Key) : ends (ps ++ [p]) = ends ps ++ [p.1] ++ [p.2] := by simp [ends]

theorem mem_ends (ps : List (Key × Key)) (k : Key) : k ∈ ends ps ↔ ∃ p ∈ ps, k = p.1 ∨ k = p.2 := by simp [ends]

theorem buildGraph_keys' (cm : PyDict (Key × Key) Nat) : (buildGraph cm).keys = firsts (ends cm.keys) := by
  induction cm using List.reverseRecOn with
  | nil => rfl
  | append_singleton cm e ih =>
    have h3 : PyDict.keys (cm ++ [e]) = PyDict.keys cm ++ [e.1] := by simp [PyDict.keys]
    rw [buildGraph_snoc, addEdge_keys, ih, h3, ends_snoc, firsts_snoc, firsts_snoc]

theorem firsts_ends_firsts (ps : List (Key × Key)) : firsts (ends (firsts ps)) = firsts (ends ps) := by
  induction ps using List.reverseRecOn with
  | nil => rfl
  | append_singleton ps p ih =>
    rw [firsts_snoc, ends_snoc, firsts_snoc, firsts_snoc, ← ih]
    unfold addNew
    by_cases h : p ∈ firsts ps
    · rw [if_pos h]
      have h1 : p.1 ∈ firsts (ends (firsts ps)) := (mem_firsts _ _).mpr ((mem_ends _ _).mpr ⟨p, h, Or.inl rfl⟩)
      have h2 : p.2 ∈ firsts (ends (firsts ps)) := (mem_firsts _ _).mpr ((mem_ends _ _).mpr ⟨p, h, Or.inr rfl⟩)
      rw [if_pos h1, if_pos h2]
    · rw [if_neg h, ends_snoc, firsts_snoc, firsts_snoc]
      rfl

/-- The nodes are the ends of the counted pairs, in order of first occurrence. -/
theorem buildGraph_keys (ps : List (Key × Key)) : (buildGraph (counts ps)).keys = firsts (ends ps) := by
  rw [buildGraph_keys', counts_keys, firsts_ends_firsts]

/-! ## The iteration -/

section
variable {F : Type _} [LinearOrder F]

theorem mem_keys_get {V : Type _} (g : PyDict Key V) (n : Key) : n ∈ g.keys ↔ ∃ v, g.get? n = some v := by
  rw [PyDict.mem_keys_iff, PyDict.has_iff]

theorem sweep_keys (R : RSys F) (g : Graph) (o : PyDict Key F) (ns : List Key) (ws ws' : PyDict Key F) (hk : ws.keys = g.keys)
    (h : sweep R g o ns ws = .ok ws') : ws'.keys = g.keys := by
  induction ns generalizing ws with
  | nil => simp only [sweep, Except.ok.injEq] at h; subst h; exact hk
  | cons n ns ih =>
    simp only [sweep] at h
    split at h
    · cases h
    · next es hes =>
      split at h
      · cases h
      · refine ih _ ?_ h
        have hn : n ∈ g.keys := by
          unfold getItem at hes
          split at hes
          · cases hes
          · next v hv => exact (mem_keys_get _ _).mpr ⟨v, hv⟩
        rw [keys_set_addNew, hk, addNew_of_mem _ _ hn]

theorem sweeps_keys (R : RSys F) (g : Graph) (o : PyDict Key F) (ns : List Key) (k : Nat) (ws ws' : PyDict Key F) (hk : ws.keys = g.keys)
    (h : sweeps R g o ns k ws = .ok ws') : ws'.keys = g.keys := by
  induction k generalizing ws with
  | zero => simp only [sweeps, Except.ok.injEq] at h; subst h; exact hk
  | succ k ih =>
    simp only [sweeps] at h
    split at h
    · cases h
    · next ws1 h1 => exact ih ws1 (sweep_keys R g o ns ws ws1 hk h1) h

theorem normalise_keys (A : Arith F) (mn mx : F) (ws ws' : PyDict Key F) (h : normalise A mn mx ws = .ok ws') : ws'.keys = ws.keys := by
  induction ws generalizing ws' with
  | nil => simp only [normalise, Except.ok.injEq] at h; subst h; rfl
  | cons e ws ih =>
    obtain ⟨n, w⟩ := e
    simp only [normalise] at h
    repeat' split at h
    all_goals simp only [reduceCtorEq, Except.ok.injEq] at h
    subst h
    next h1 => simp only [PyDict.keys, List.map_cons] at ih ⊢; rw [ih _ h1]

/-- In any arithmetic: if `rank` returns, it gives a weight to every node, in the order of the nodes. -/
theorem rank_keys (R : RSys F) (g : Graph) (ws : PyDict Key F) (h : rank R g = .ok ws) : ws.keys = g.keys := by
  unfold rank at h
  simp only [] at h
  split at h
  · cases h
  · next wsdef _ =>
    split at h
    · cases h
    · next ws1 h1 =>
      rw [normalise_keys _ _ _ _ _ h]
      exact sweeps_keys R g _ _ _ _ _ (by simp [PyDict.keys, Function.comp_def]) h1

end

section
variable {F : Type} [Field F] [LinearOrder F] [IsStrictOrderedRing F]

theorem sumOut_exact (A : Arith F) (hA : Exact A) (es : List (Key × Nat)) : sumOut A es = ((es.map Prod.snd).sum : Nat) := by
  have : ∀ (es : List (Key × Nat)) (s : F), es.foldl (fun s e => A.add s (A.ofInt e.2)) s = s + ((es.map Prod.snd).sum : Nat) := by
    intro es
    induction es with
    | nil => intro s; simp
    | cons e es ih =>
      intro s
      rw [List.foldl_cons, ih, hA.add, hA.ofInt]
      simp [add_assoc]
  unfold sumOut
  rw [this, hA.zero, zero_add]

/-- Values of a dict for the nodes. -/
structure Good (g : Graph) (ws : PyDict Key F) : Prop where
  keys : ws.keys = g.keys
  bound : ∀ n x, ws.get? n = some x → 0 ≤ x ∧ x ≤ outWeight g n

theorem get?_map {V W : Type _} (g : PyDict Key V) (f : V → W) (n : Key) :
    PyDict.get? (g.map (fun e => (e.1, f e.2))) n = (g.get? n).map f := by
  induction g with
  | nil => rfl
  | cons e g ih =>
    obtain ⟨k, v⟩ := e
    simp only [List.map_cons, PyDict.get?]
    split
    · rfl
    · exact ih

theorem outWeight_pos (g : Graph) (h : GraphOK g) (n : Key) (hn : n ∈ g.keys) : 1 ≤ outWeight g n := by
  obtain ⟨es, he⟩ := (mem_keys_get g n).mp hn
  obtain ⟨h1, h2⟩ := h.edges n es he
  unfold outWeight
  rw [he]
  cases es with
  | nil => exact absurd rfl h1
  | cons e es =>
    have := (h2 e List.mem_cons_self).2
    simp only [Option.getD_some, List.map_cons, List.sum_cons]
    omega

theorem edgeSum_ok (A : Arith F) (hA : Exact A) (g : Graph) (hg : GraphOK g) (ws : PyDict Key F) (hw : Good g ws)
    (es : List (Key × Nat)) (he : ∀ e ∈ es, e.1 ∈ g.keys) (s : F) :
    ∃ r, edgeSum A (g.map (fun e => (e.1, sumOut A e.2))) ws es s = .ok r ∧ s ≤ r ∧ r ≤ s + ((es.map Prod.snd).sum : Nat) := by
  induction es generalizing s with
  | nil => exact ⟨s, rfl, le_refl _, by simp⟩
  | cons e es ih =>
    obtain ⟨b, w⟩ := e
    have hb := he _ List.mem_cons_self
    simp only [] at hb
    obtain ⟨eb, heb⟩ := (mem_keys_get g b).mp hb
    obtain ⟨x, hx⟩ := (mem_keys_get ws b).mp (by rw [hw.keys]; exact hb)
    obtain ⟨hx0, hx1⟩ := hw.bound b x hx
    have hpos := outWeight_pos g hg b hb
    have hout : sumOut A eb = (outWeight g b : F) := by
      rw [sumOut_exact A hA]; unfold outWeight; rw [heb]; rfl
    have ho : (0 : F) < (outWeight g b : F) := by exact_mod_cast hpos
    have hout0 : sumOut A eb ≠ A.zero := by rw [hout, hA.zero]; exact ne_of_gt ho
    simp only [edgeSum, getItem, get?_map, heb, Option.map_some, pyDiv, if_neg hout0, hx]
    rw [hout, hA.add, hA.mul, hA.div, hA.ofInt]
    obtain ⟨r, h1, h2, h3⟩ := ih (fun e h => he e (List.mem_cons_of_mem _ h)) (s + ((w : Int) : F) / (outWeight g b : F) * x)
    refine ⟨r, h1, ?_⟩
    have hw0 : (0 : F) ≤ ((w : Int) : F) := by exact_mod_cast Nat.zero_le w
    have t1 : 0 ≤ ((w : Int) : F) / (outWeight g b : F) * x := mul_nonneg (div_nonneg hw0 (le_of_lt ho)) hx0
    have t2 : ((w : Int) : F) / (outWeight g b : F) * x ≤ ((w : Int) : F) := by
      rw [div_mul_eq_mul_div, div_le_iff₀ ho]
      exact mul_le_mul_of_nonneg_left hx1 hw0
    have hwc : ((w : Int) : F) = (w : F) := by push_cast; rfl
    rw [hwc] at t1 t2 h2 h3
    simp only [List.map_cons, List.sum_cons, Nat.cast_add]
    constructor
    · linarith
    · linarith

/-- One iteration keeps the bounds, and raises every value it touches to at least `1 - d`. -/
theorem sweep_ok (R : RSys F) (hA : Exact R.k.pos.sys.A) (hd0 : 0 ≤ R.d) (hd1 : R.d < 1) (g : Graph) (hg : GraphOK g)
    (ns : List Key) (hns : ∀ n ∈ ns, n ∈ g.keys) (ws : PyDict Key F) (hw : Good g ws) :
    ∃ ws', sweep R g (g.map (fun e => (e.1, sumOut R.k.pos.sys.A e.2))) ns ws = .ok ws' ∧ Good g ws' ∧
      (∀ n x, n ∈ ns → ws'.get? n = some x → 1 - R.d ≤ x) ∧
      (∀ n x y, ws.get? n = some x → 1 - R.d ≤ x → ws'.get? n = some y → 1 - R.d ≤ y) := by
  induction ns generalizing ws with
  | nil =>
    refine ⟨ws, rfl, hw, by simp, ?_⟩
    intro n x y h1 h2 h3
    rw [h1] at h3; cases h3; exact h2
  | cons n ns ih =>
    have hn := hns n List.mem_cons_self
    obtain ⟨es, he⟩ := (mem_keys_get g n).mp hn
    obtain ⟨r, h1, h2, h3⟩ := edgeSum_ok R.k.pos.sys.A hA g hg ws hw es (fun e h => ((hg.edges n es he).2 e h).1) R.k.pos.sys.A.zero
    simp only [sweep, getItem, he, h1]
    rw [hA.zero] at h2 h3
    rw [zero_add] at h3
    have hsum : (((es.map Prod.snd).sum : Nat) : F) = outWeight g n := by unfold outWeight; rw [he]; rfl
    rw [hsum] at h3
    have hpos : (1 : F) ≤ outWeight g n := by exact_mod_cast outWeight_pos g hg n hn
    have hval : R.k.pos.sys.A.add (R.k.pos.sys.A.sub (R.k.pos.sys.A.ofInt 1) R.d) (R.k.pos.sys.A.mul R.d r) = 1 - R.d + R.d * r := by
      rw [hA.add, hA.sub, hA.mul, hA.ofInt]; simp
    rw [hval]
    have hlow : 1 - R.d ≤ 1 - R.d + R.d * r := by
      have := mul_nonneg hd0 h2
      linarith
    have hup : 1 - R.d + R.d * r ≤ outWeight g n := by
      have t1 : R.d * r ≤ R.d * outWeight g n := mul_le_mul_of_nonneg_left h3 hd0
      have t2 : (1 - R.d) * 1 ≤ (1 - R.d) * outWeight g n := mul_le_mul_of_nonneg_left hpos (by linarith)
      nlinarith
    have hw' : Good g (ws.set n (1 - R.d + R.d * r)) := by
      refine ⟨by rw [keys_set_addNew, hw.keys, addNew_of_mem _ _ hn], ?_⟩
      intro m x hx
      rw [PyDict.get?_set] at hx
      split at hx
      · next hmn =>
        subst hmn
        cases hx
        exact ⟨by linarith, hup⟩
      · exact hw.bound m x hx
    obtain ⟨ws', k1, k2, k3, k4⟩ := ih (fun m hm => hns m (List.mem_cons_of_mem _ hm)) _ hw'
    refine ⟨ws', k1, k2, ?_, ?_⟩
    · intro m x hm hx
      rcases List.mem_cons.mp hm with rfl | hm
      · exact k4 m _ x (by rw [PyDict.get?_set, if_pos rfl]) hlow hx
      · exact k3 m x hm hx
    · intro m x y hx hlx hy
      by_cases hmn : n = m
      · subst hmn
        exact k4 n _ y (by rw [PyDict.get?_set, if_pos rfl]) hlow hy
      · exact k4 m x y (by rw [PyDict.get?_set, if_neg hmn]; exact hx) hlx hy

theorem sweeps_ok (R : RSys F) (hA : Exact R.k.pos.sys.A) (hd0 : 0 ≤ R.d) (hd1 : R.d < 1) (g : Graph) (hg : GraphOK g)
    (ns : List Key) (hns : ∀ n, n ∈ ns ↔ n ∈ g.keys) (k : Nat) (ws : PyDict Key F) (hw : Good g ws) :
    ∃ ws', sweeps R g (g.map (fun e => (e.1, sumOut R.k.pos.sys.A e.2))) ns k ws = .ok ws' ∧ Good g ws' ∧
      (k ≠ 0 → ∀ n x, ws'.get? n = some x → 1 - R.d ≤ x) := by
  induction k generalizing ws with
  | zero => exact ⟨ws, rfl, hw, fun h => absurd rfl h⟩
  | succ k ih =>
    obtain ⟨ws1, h1, h2, h3, -⟩ := sweep_ok R hA hd0 hd1 g hg ns (fun n hn => (hns n).mp hn) ws hw
    simp only [sweeps, h1]
    obtain ⟨ws2, k1, k2, k3⟩ := ih ws1 h2
    refine ⟨ws2, k1, k2, fun _ => ?_⟩
    by_cases hk : k = 0
    · subst hk
      simp only [sweeps, Except.ok.injEq] at k1
      subst k1
      intro n x hx
      refine h3 n x ((hns n).mpr ?_) hx
      rw [← k2.keys]
      exact (mem_keys_get _ _).mpr ⟨x, hx⟩
    · exact k3 hk

theorem minMax_spec (vs : List F) (a b : F) :
    let m := vs.foldl (fun m w => (if w < m.1 then w else m.1, if m.2 < w then w else m.2)) (a, b)
    (m.1 ≤ a ∧ ∀ v ∈ vs, m.1 ≤ v) ∧ (m.1 = a ∨ m.1 ∈ vs) ∧ (b ≤ m.2 ∧ ∀ v ∈ vs, v ≤ m.2) ∧ (m.2 = b ∨ m.2 ∈ vs) := by
  induction vs generalizing a b with
  | nil => simp
  | cons v vs ih =>
    simp only [List.foldl_cons]
    obtain ⟨⟨h1, h2⟩, h3, ⟨h4, h5⟩, h6⟩ := ih (if v < a then v else a) (if b < v then v else b)
    generalize List.foldl (fun m w => (if w < m.1 then w else m.1, if m.2 < w then w else m.2))
      (if v < a then v else a, if b < v then v else b) vs = m at h1 h2 h3 h4 h5 h6
    have ha : (if v < a then v else a) ≤ a ∧ (if v < a then v else a) ≤ v ∧ ((if v < a then v else a) = a ∨ (if v < a then v else a) = v) := by
      split
      · next h => exact ⟨le_of_lt h, le_refl _, Or.inr rfl⟩
      · next h => exact ⟨le_refl _, not_lt.mp h, Or.inl rfl⟩
    have hb : b ≤ (if b < v then v else b) ∧ v ≤ (if b < v then v else b) ∧ ((if b < v then v else b) = b ∨ (if b < v then v else b) = v) := by
      split
      · next h => exact ⟨le_of_lt h, le_refl _, Or.inr rfl⟩
      · next h => exact ⟨le_refl _, not_lt.mp h, Or.inl rfl⟩
    generalize (if v < a then v else a) = a' at h1 h3 ha
    generalize (if b < v then v else b) = b' at h4 h6 hb
    refine ⟨⟨le_trans h1 ha.1, ?_⟩, ?_, ⟨le_trans hb.1 h4, ?_⟩, ?_⟩
    · intro x hx
      rcases List.mem_cons.mp hx with rfl | hx
      · exact le_trans h1 ha.2.1
      · exact h2 x hx
    · rcases h3 with h | h
      · rcases ha.2.2 with h' | h'
        · exact Or.inl (h.trans h')
        · exact Or.inr (by rw [h, h']; exact List.mem_cons_self)
      · exact Or.inr (List.mem_cons_of_mem _ h)
    · intro x hx
      rcases List.mem_cons.mp hx with rfl | hx
      · exact le_trans hb.2.1 h4
      · exact h5 x hx
    · rcases h6 with h | h
      · rcases hb.2.2 with h' | h'
        · exact Or.inl (h.trans h')
        · exact Or.inr (by rw [h, h']; exact List.mem_cons_self)
      · exact Or.inr (List.mem_cons_of_mem _ h)

theorem normalise_ok (A : Arith F) (hA : Exact A) (mn mx : F) (h : mx - mn / 10 ≠ 0) (ws : PyDict Key F) :
    normalise A mn mx ws = .ok (ws.map (fun e => (e.1, (e.2 - mn / 10) / (mx - mn / 10)))) := by
  induction ws with
  | nil => rfl
  | cons e ws ih =>
    obtain ⟨n, w⟩ := e
    have h10 : A.ofInt 10 = (10 : F) := by rw [hA.ofInt]; norm_num
    have h0 : (10 : F) ≠ A.zero := by rw [hA.zero]; norm_num
    have h1 : A.sub mx (A.div mn 10) ≠ A.zero := by rw [hA.sub, hA.div, hA.zero]; exact h
    simp only [normalise, pyDiv, h10, if_neg h0, if_neg h1, ih, List.map_cons]
    rw [hA.div, hA.div, hA.sub, hA.sub]

/-- `rank` in exact arithmetic: it returns, a weight in (0, 1] for every node, and the weight 1 for some node. -/
theorem rank_ok (R : RSys F) (hA : Exact R.k.pos.sys.A) (hd0 : 0 ≤ R.d) (hd1 : R.d < 1) (hmin : R.fmin < 1 - R.d)
    (g : Graph) (hg : GraphOK g) (hmax : ∀ n, (outWeight g n : F) < R.fmax) :
    ∃ ws, rank R g = .ok ws ∧ ws.keys = g.keys ∧ (∀ e ∈ ws, 0 < e.2 ∧ e.2 ≤ 1) ∧ (g ≠ [] → ∃ e ∈ ws, e.2 = 1) := by
  unfold rank
  have hn : R.k.pos.sys.A.ofInt 1 = (1 : F) := by rw [hA.ofInt]; norm_num
  simp only [pyDiv, hn]
  have hden : (0 : F) < (if g.length = 0 then 1 else R.k.pos.sys.A.ofInt g.length) ∧
      1 ≤ (if g.length = 0 then 1 else R.k.pos.sys.A.ofInt g.length) := by
    split
    · exact ⟨one_pos, le_refl _⟩
    · next h =>
      rw [hA.ofInt]
      have h1 : (1 : F) ≤ ((g.length : Int) : F) := by
        have : (1 : Int) ≤ (g.length : Int) := by omega
        exact_mod_cast this
      exact ⟨lt_of_lt_of_le one_pos h1, h1⟩
  generalize (if g.length = 0 then (1 : F) else R.k.pos.sys.A.ofInt g.length) = dn at hden
  rw [if_neg (by rw [hA.zero]; exact ne_of_gt hden.1)]
  simp only []
  rw [hA.div]
  have hgood : Good g (g.map (fun e => (e.1, (1 : F) / dn))) := by
    refine ⟨by simp [PyDict.keys, Function.comp_def], ?_⟩
    intro n x hx
    rw [get?_map g (fun _ => 1 / dn) n] at hx
    cases hgn : g.get? n with
    | none => rw [hgn] at hx; cases hx
    | some es =>
      rw [hgn] at hx
      simp only [Option.map_some, Option.some.injEq] at hx
      subst hx
      have h1 : 1 / dn ≤ 1 := by rw [div_le_one hden.1]; exact hden.2
      have h2 : (1 : F) ≤ outWeight g n := by exact_mod_cast outWeight_pos g hg n ((mem_keys_get _ _).mpr ⟨es, hgn⟩)
      exact ⟨le_of_lt (div_pos one_pos hden.1), le_trans h1 h2⟩
  obtain ⟨ws, h1, h2, h3⟩ := sweeps_ok R hA hd0 hd1 g hg (sortedKeys g) (fun n => (sortBy_perm _ _).mem_iff) 10 _ hgood
  rw [h1]
  simp only []
  have hnd : ws.keys.Nodup := by rw [h2.keys]; exact hg.nodup
  have hv : ∀ e ∈ ws, 1 - R.d ≤ e.2 ∧ e.2 < R.fmax := by
    intro e he
    have hget := (PyDict.get?_eq_some_iff_mem ws hnd e.1 e.2).mpr he
    exact ⟨h3 (by omega) e.1 e.2 hget, lt_of_le_of_lt (h2.bound e.1 e.2 hget).2 (hmax e.1)⟩
  by_cases hg0 : g = []
  · have : ws = [] := by
      have h := h2.keys
      rw [hg0] at h
      simpa [PyDict.keys] using h
    subst this
    refine ⟨[], rfl, h2.keys, by simp, fun h => absurd hg0 h⟩
  · have hne : ws ≠ [] := by
      rintro rfl
      have h := h2.keys
      apply hg0
      simpa [PyDict.keys] using h.symm
    obtain ⟨⟨m1, m2⟩, m3, ⟨m4, m5⟩, m6⟩ := minMax_spec ws.values R.fmax R.fmin
    change (minMax R ws.values).1 ≤ _ at m1
    change ∀ v ∈ ws.values, (minMax R ws.values).1 ≤ v at m2
    change (minMax R ws.values).1 = _ ∨ (minMax R ws.values).1 ∈ _ at m3
    change _ ≤ (minMax R ws.values).2 at m4
    change ∀ v ∈ ws.values, v ≤ (minMax R ws.values).2 at m5
    change (minMax R ws.values).2 = _ ∨ (minMax R ws.values).2 ∈ _ at m6
    generalize (minMax R ws.values).1 = mn at m1 m2 m3
    generalize (minMax R ws.values).2 = mx at m4 m5 m6
    obtain ⟨e0, he0⟩ := List.exists_mem_of_ne_nil ws hne
    have hmem : ∀ e ∈ ws, e.2 ∈ ws.values := fun e he => List.mem_map_of_mem he
    have hmn : mn ∈ ws.values := by
      rcases m3 with h | h
      · exfalso
        have := m2 _ (hmem _ he0)
        have := (hv e0 he0).2
        linarith
      · exact h
    have hmx : mx ∈ ws.values := by
      rcases m6 with h | h
      · exfalso
        have := m5 _ (hmem _ he0)
        have := (hv e0 he0).1
        linarith
      · exact h
    obtain ⟨e1, he1, hmn1⟩ := List.mem_map.mp hmn
    have hmnpos : 0 < mn := by have := (hv e1 he1).1; rw [← hmn1]; linarith
    have hden : 0 < mx - mn / 10 := by have := m2 _ hmx; linarith
    rw [normalise_ok _ hA _ _ (ne_of_gt hden)]
    refine ⟨_, rfl, ?_, ?_, ?_⟩
    · rw [← h2.keys]; simp [PyDict.keys, Function.comp_def]
    · intro e he
      obtain ⟨e', he', rfl⟩ := List.mem_map.mp he
      have a1 := m2 _ (hmem e' he')
      have a2 := m5 _ (hmem e' he')
      constructor
      · exact div_pos (by linarith) hden
      · rw [div_le_one hden]; linarith
    · intro _
      obtain ⟨e2, he2, hmx2⟩ := List.mem_map.mp hmx
      refine ⟨_, List.mem_map_of_mem he2, ?_⟩
      simp only []
      rw [hmx2]
      exact div_self (ne_of_gt hden)

end
end Jieba.Analyse
