import Mathlib.Data.List.Chain
import Verif.Proofs.PosViterbi
import Verif.Spec.PosTables
/-!
# Helper lemmas: the Viterbi algorithm of the POS tagger never fails on sane tables and follows transitions
-/

set_option linter.unusedSectionVars false

namespace Jieba.Pos
open Jieba.Spec

variable {F : Type _} [LinearOrder F]

theorem Live.has {T : Tables F} {x : PState} (h : Live T x) : T.trans.has x = true := by
  obtain ⟨tx, h1, -⟩ := h
  rw [PyDict.has_iff]; exact ⟨tx, h1⟩

/-- A column of the table `V`: known states, one of which can be left, with finite scores. -/
structure ColOK (T : Tables F) (V : Col F) : Prop where
  nodup : (PyDict.keys V).Nodup
  known : ∀ y ∈ PyDict.keys V, T.trans.has y = true
  live : ∃ y ∈ PyDict.keys V, Live T y
  finite : ∀ kv ∈ V, ∃ v : F, kv.2.1 = (v : WithBot F)

theorem initCol_ok (A : Arith F) (T : Tables F) (hT : TablesOK T) (c : Ch) : ∃ V, initCol A T c = .ok V ∧ ColOK T V := by
  have hall : (∀ y ∈ statesFor T c, T.trans.has y = true) ∧ ∃ y ∈ statesFor T c, Live T y := by
    unfold statesFor
    cases h : T.charStates.get? c with
    | some l => exact hT.chars c l h
    | none =>
      refine ⟨fun y hy => (PyDict.mem_keys_iff _ _).mp hy, ?_⟩
      obtain ⟨y, hy⟩ := hT.some
      exact ⟨y, (PyDict.mem_keys_iff _ _).mpr (Live.has hy), hy⟩
  have key : ∀ (l : List PState) (d : Col F), (∀ y ∈ l, T.trans.has y = true) → (PyDict.keys d).Nodup →
      (∀ kv ∈ d, ∃ v : F, kv.2.1 = (v : WithBot F)) →
      ∃ V, l.foldlM (initOne A T c) d = .ok V ∧ (PyDict.keys V).Nodup ∧ (∀ kv ∈ V, ∃ v : F, kv.2.1 = (v : WithBot F)) ∧
        ∀ y, y ∈ PyDict.keys V ↔ (y ∈ PyDict.keys d ∨ y ∈ l) := by
    intro l
    induction l with
    | nil => intro d _ h2 h3; exact ⟨d, rfl, h2, h3, by simp⟩
    | cons y l ih =>
      intro d h1 h2 h3
      obtain ⟨hs, he⟩ := hT.rows y (h1 y (by simp))
      rw [PyDict.has_iff] at hs he
      obtain ⟨s, hs⟩ := hs
      obtain ⟨em, he⟩ := he
      have e1 : initOne A T c d y = .ok (d.set y (padd A (some s) (some ((em.get? c).getD T.minFloat)), none)) := by
        unfold initOne
        rw [(look_ok _ _ _).mpr hs, (look_ok _ _ _).mpr he]
        rfl
      obtain ⟨V, g1, g2, g3, g4⟩ := ih (d.set y (padd A (some s) (some ((em.get? c).getD T.minFloat)), none))
        (fun z hz => h1 z (by simp [hz])) (PyDict.nodup_keys_set _ _ _ h2) (by
          intro kv hkv
          have hn := PyDict.nodup_keys_set d y (padd A (some s) (some ((em.get? c).getD T.minFloat)), (none : Option PState)) h2
          rw [← Prod.eta kv, ← PyDict.get?_eq_some_iff_mem _ hn, PyDict.get?_set] at hkv
          split at hkv
          · injection hkv with hkv
            exact ⟨A.add s ((em.get? c).getD T.minFloat), by rw [← hkv]; rfl⟩
          · rw [PyDict.get?_eq_some_iff_mem _ h2] at hkv
            exact h3 _ hkv)
      refine ⟨V, ?_, g2, g3, ?_⟩
      · rw [List.foldlM_cons, e1]; exact g1
      · intro z
        rw [g4, PyDict.mem_keys_iff, PyDict.has_set, PyDict.mem_keys_iff]
        simp only [Bool.or_eq_true, decide_eq_true_eq, List.mem_cons]
        constructor
        · rintro ((rfl | h) | h)
          · right; left; rfl
          · left; exact h
          · right; right; exact h
        · rintro (h | rfl | h)
          · left; right; exact h
          · left; left; rfl
          · right; exact h
  obtain ⟨V, h1, h2, h3, h4⟩ := key (statesFor T c) [] hall.1 (by simp [PyDict.keys]) (by simp)
  refine ⟨V, h1, h2, ?_, ?_, h3⟩
  · intro y hy
    rcases (h4 y).mp hy with h | h
    · simp [PyDict.keys] at h
    · exact hall.1 y h
  · obtain ⟨y, hy, hl⟩ := hall.2
    exact ⟨y, (h4 y).mpr (Or.inr hy), hl⟩

/-- Every entry of the new column points back to a state of the old one, by a transition of the table. -/
def Link (T : Tables F) (V V' : Col F) : Prop :=
  ∀ kv ∈ V', ∃ p, kv.2.2 = some p ∧ p ∈ PyDict.keys V ∧ Edge T p kv.1

theorem prevStates_ok (T : Tables F) (l : List PState) (h : ∀ y ∈ l, T.trans.has y = true) :
    ∃ prev, prevStates T l = .ok prev ∧ ∀ p, p ∈ prev ↔ (p.1 ∈ l ∧ T.trans.get? p.1 = some p.2 ∧ p.2 ≠ []) := by
  induction l with
  | nil => exact ⟨[], rfl, by simp⟩
  | cons x l ih =>
    obtain ⟨prev, h1, h2⟩ := ih (fun y hy => h y (by simp [hy]))
    have hx := h x (by simp)
    rw [PyDict.has_iff] at hx
    obtain ⟨tx, hx⟩ := hx
    refine ⟨if 0 < tx.length then (x, tx) :: prev else prev, ?_, ?_⟩
    · unfold prevStates
      rw [(look_ok _ _ _).mpr hx, h1]
      rfl
    · intro p
      split
      · next hlen =>
        rw [List.mem_cons, h2, List.mem_cons]
        constructor
        · rintro (rfl | ⟨a, b, c⟩)
          · exact ⟨Or.inl rfl, hx, by rintro e; simp only at e; rw [e] at hlen; simp at hlen⟩
          · exact ⟨Or.inr a, b, c⟩
        · rintro ⟨a | a, b, c⟩
          · left
            rw [a, hx] at b
            injection b with b
            exact Prod.ext a b.symm
          · right; exact ⟨a, b, c⟩
      · next hlen =>
        have htx : tx = [] := by cases tx <;> simp_all
        rw [h2, List.mem_cons]
        constructor
        · rintro ⟨a, b, c⟩; exact ⟨Or.inr a, b, c⟩
        · rintro ⟨a | a, b, c⟩
          · rw [a, hx] at b
            injection b with b
            exact absurd (b.symm.trans htx) c
          · exact ⟨a, b, c⟩

theorem stepCol_ok (A : Arith F) (T : Tables F) (hT : TablesOK T) (σ : List PState → List PState) (hσ : ∀ l, (σ l).Perm l)
    (V : Col F) (c : Ch) (hV : ColOK T V) : ∃ V', stepCol A T σ V c = .ok V' ∧ ColOK T V' ∧ Link T V V' := by
  obtain ⟨prev, hp, hmem⟩ := prevStates_ok T (PyDict.keys V) hV.known
  have hnext : ∀ y, y ∈ dedup (prev.flatMap (fun p => p.2.keys)) ↔ ∃ p ∈ prev, p.2.has y = true := by
    intro y
    rw [mem_dedup, List.mem_flatMap]
    constructor
    · rintro ⟨p, h1, h2⟩; exact ⟨p, h1, (PyDict.mem_keys_iff _ _).mp h2⟩
    · rintro ⟨p, h1, h2⟩; exact ⟨p, h1, (PyDict.mem_keys_iff _ _).mpr h2⟩
  have hne : dedup (prev.flatMap (fun p => p.2.keys)) ≠ [] := by
    obtain ⟨y, hy, tx, h1, h2⟩ := hV.live
    cases tx with
    | nil => exact absurd rfl h2
    | cons kv tx =>
      have : kv.1 ∈ dedup (prev.flatMap (fun p => p.2.keys)) := by
        rw [hnext]
        refine ⟨(y, kv :: tx), (hmem _).mpr ⟨hy, h1, h2⟩, ?_⟩
        rw [← PyDict.mem_keys_iff]; simp [PyDict.keys]
      intro h0; rw [h0] at this; simp at this
  have hobs : obsStates T σ c prev ≠ [] ∧ ∀ y ∈ obsStates T σ c prev, ∃ p ∈ prev, p.2.has y = true := by
    unfold obsStates
    simp only []
    split
    · next h =>
      refine ⟨fun h0 => h ?_, ?_⟩
      · have := hσ ((dedup (statesFor T c)).filter (fun y => decide (y ∈ dedup (prev.flatMap (fun p => p.2.keys)))))
        rw [h0] at this
        exact List.nil_perm.mp this
      · intro y hy
        have := (hσ _).mem_iff.mp hy
        rw [List.mem_filter] at this
        exact (hnext y).mp (by simpa using this.2)
    · refine ⟨fun h0 => hne ?_, fun y hy => (hnext y).mp ((hσ _).mem_iff.mp hy)⟩
      have := hσ (dedup (prev.flatMap (fun p => p.2.keys)))
      rw [h0] at this
      exact List.nil_perm.mp this
  have hlive : ∀ y ∈ obsStates T σ c prev, Live T y := by
    intro y hy
    obtain ⟨p, h1, h2⟩ := hobs.2 y hy
    exact hT.next p.1 y ⟨p.2, ((hmem p).mp h1).2.1, h2⟩
  have hval : ∀ y ∈ obsStates T σ c prev, ∃ (v : F) (p : PState), stepVal A T V c prev y = .ok ((v : WithBot F), some p) ∧
      p ∈ PyDict.keys V ∧ Edge T p y := by
    intro y hy
    have he := (hT.rows y (Live.has (hlive y hy))).2
    rw [PyDict.has_iff] at he
    obtain ⟨em, he⟩ := he
    have hcand : ∀ p ∈ prev, ∃ v, V.get? p.1 = some v ∧ (∃ f : F, v.1 = (f : WithBot F)) ∧ candidate A T V c y p =
        .ok (padd A (padd A v.1 ((p.2.get? y).elim ⊥ some)) (some ((em.get? c).getD T.minFloat)), p.1) := by
      intro p hp
      have := ((hmem p).mp hp).1
      rw [PyDict.mem_keys_iff, PyDict.has_iff] at this
      obtain ⟨v, hv⟩ := this
      refine ⟨v, hv, ?_, ?_⟩
      · exact hV.finite (p.1, v) ((PyDict.get?_eq_some_iff_mem _ hV.nodup _ _).mp hv)
      · unfold candidate
        rw [(look_ok _ _ _).mpr hv, (look_ok _ _ _).mpr he]
        rfl
    obtain ⟨cands, hc⟩ := mapM_except_total prev (candidate A T V c y) (by
      intro p hp
      obtain ⟨v, -, -, h⟩ := hcand p hp
      exact ⟨_, h⟩)
    obtain ⟨hl, hc1, hc2⟩ := mapM_except_ok _ _ _ hc
    obtain ⟨p0, hp0, hy0⟩ := hobs.2 y hy
    have hcne : cands ≠ [] := by
      rintro rfl
      obtain ⟨b, hb, -⟩ := hc1 p0 hp0
      simp at hb
    obtain ⟨best, hbest⟩ := maxState_exists cands hcne
    obtain ⟨hb1, hb2⟩ := maxState_spec cands best hbest
    -- the best score is finite
    have hbfin : best.1 ≠ ⊥ := by
      obtain ⟨b, hb, hcb⟩ := hc1 p0 hp0
      obtain ⟨v, -, ⟨f, hf⟩, hcv⟩ := hcand p0 hp0
      rw [PyDict.has_iff] at hy0
      obtain ⟨tr, htr⟩ := hy0
      rw [hcv] at hcb
      injection hcb with hcb
      have : b.1 = ((A.add (A.add f tr) ((em.get? c).getD T.minFloat) : F) : WithBot F) := by
        rw [← hcb, hf, htr]; rfl
      have hlt := hb2 b hb
      intro hbot
      unfold tupLt at hlt
      rw [hbot, this] at hlt
      simp at hlt
    obtain ⟨p, hp, hcp⟩ := hc2 best hb1
    obtain ⟨v, hv, ⟨f, hf⟩, hcv⟩ := hcand p hp
    rw [hcv] at hcp
    injection hcp with hcp
    have hedge : ∃ tr, p.2.get? y = some tr := by
      cases h : p.2.get? y with
      | some tr => exact ⟨tr, rfl⟩
      | none =>
        exfalso
        apply hbfin
        rw [← hcp, h]
        simp only [Option.elim]
        cases v.1 <;> rfl
    obtain ⟨tr, htr⟩ := hedge
    refine ⟨A.add (A.add f tr) ((em.get? c).getD T.minFloat), p.1, ?_, ((hmem p).mp hp).1, p.2, ((hmem p).mp hp).2.1, ?_⟩
    · unfold stepVal
      rw [hc]
      simp only [bind, Except.bind]
      rw [hbest]
      simp only [pure, Except.pure]
      rw [← hcp, hf, htr]
      rfl
    · rw [PyDict.has_iff]; exact ⟨tr, htr⟩
  have hnd := obsStates_nodup T hT.nodup σ hσ c prev
  obtain ⟨V', hV'⟩ := mapM_except_total (obsStates T σ c prev) (fun y => (stepVal A T V c prev y).map (fun v => (y, v))) (by
    intro y hy
    obtain ⟨v, p, h, -⟩ := hval y hy
    exact ⟨(y, (v, some p)), by rw [h]; rfl⟩)
  have hkeys : PyDict.keys V' = obsStates T σ c prev := keys_of_mapM _ _ _ hV'
  have hentry : ∀ kv ∈ V', kv.1 ∈ obsStates T σ c prev ∧ stepVal A T V c prev kv.1 = .ok kv.2 := by
    intro kv hkv
    obtain ⟨-, -, h3⟩ := mapM_except_ok _ _ _ hV'
    obtain ⟨y, hy, he⟩ := h3 kv hkv
    cases hs : stepVal A T V c prev y with
    | error e => rw [hs] at he; cases he
    | ok v =>
      rw [hs] at he
      injection he with he
      rw [← he]
      exact ⟨hy, hs⟩
  refine ⟨V', ?_, ⟨?_, ?_, ?_, ?_⟩, ?_⟩
  · unfold stepCol
    rw [hp]
    simp only [bind, Except.bind]
    rw [stepLoop_eq A T V c prev _ hnd]
    exact hV'
  · rw [hkeys]; exact hnd
  · rw [hkeys]; exact fun y hy => Live.has (hlive y hy)
  · rw [hkeys]
    obtain ⟨y, hy⟩ := List.exists_mem_of_ne_nil _ hobs.1
    exact ⟨y, hy, hlive y hy⟩
  · intro kv hkv
    obtain ⟨h1, h2⟩ := hentry kv hkv
    obtain ⟨v, p, h3, -⟩ := hval kv.1 h1
    rw [h2] at h3
    injection h3 with h3
    exact ⟨v, by rw [h3]⟩
  · intro kv hkv
    obtain ⟨h1, h2⟩ := hentry kv hkv
    obtain ⟨v, p, h3, h4, h5⟩ := hval kv.1 h1
    rw [h2] at h3
    injection h3 with h3
    exact ⟨p, by rw [h3], h4, h5⟩

/-- Columns, newest first, each linked to the one before. -/
def Linked (T : Tables F) : List (Col F) → Prop
  | [] => True
  | [_] => True
  | V' :: V :: cols => Link T V V' ∧ Linked T (V :: cols)

theorem columns_ok (A : Arith F) (T : Tables F) (hT : TablesOK T) (σ : Nat → List PState → List PState)
    (hσ : ∀ t l, (σ t l).Perm l) (cs : Str) (t : Nat) (V : Col F) (cols : List (Col F)) (hV : ColOK T V)
    (hl : Linked T (V :: cols)) :
    ∃ W r, columns A T σ t cs (V :: cols) = .ok (W :: r) ∧ ColOK T W ∧ Linked T (W :: r) ∧
      (W :: r).length = (V :: cols).length + cs.length := by
  induction cs generalizing t V cols with
  | nil => exact ⟨V, cols, by simp [columns], hV, hl, rfl⟩
  | cons c cs ih =>
    obtain ⟨V', h1, h2, h3⟩ := stepCol_ok A T hT (σ t) (hσ t) V c hV
    obtain ⟨W, r, h4, h5, h6, h7⟩ := ih (t + 1) V' (V :: cols) h2 ⟨h3, hl⟩
    refine ⟨W, r, ?_, h5, h6, ?_⟩
    · unfold columns
      rw [h1]
      exact h4
    · rw [h7]; simp; omega

theorem backtrace_ok (T : Tables F) (cols : List (Col F)) (hl : Linked T cols) (st : PState)
    (hst : ∀ V, cols.head? = some V → st ∈ PyDict.keys V) :
    ∃ route, backtrace cols st = .ok route ∧ route.length = cols.length ∧ route.IsChain (Edge T) ∧
      (cols ≠ [] → route.getLast? = some st) := by
  induction cols generalizing st with
  | nil => exact ⟨[], rfl, rfl, by simp, by simp⟩
  | cons V cols ih =>
    have hk := hst V rfl
    rw [PyDict.mem_keys_iff, PyDict.has_iff] at hk
    obtain ⟨v, hv⟩ := hk
    cases cols with
    | nil =>
      refine ⟨[st], ?_, rfl, by simp, by simp⟩
      unfold backtrace
      rw [(look_ok _ _ _).mpr hv]
      rfl
    | cons V0 cols =>
      have hmem : (st, v) ∈ V := by
        clear ih hst hl
        induction V with
        | nil => simp [PyDict.get?] at hv
        | cons kv V ih =>
          unfold PyDict.get? at hv
          split at hv
          · next h => injection hv with hv; rw [← h, ← hv]; simp
          · simp [ih hv]
      obtain ⟨p, hp1, hp2, hp3⟩ := hl.1 _ hmem
      obtain ⟨r, h1, h2, h3, h4⟩ := ih hl.2 p (by rintro W hW; simp at hW; rw [← hW]; exact hp2)
      refine ⟨r ++ [st], ?_, by simp [h2], ?_, by simp⟩
      · unfold backtrace
        rw [(look_ok _ _ _).mpr hv]
        simp only [bind, Except.bind] at hp1 ⊢
        rw [hp1]
        simp only []
        rw [h1]
        rfl
      · rw [List.isChain_append]
        refine ⟨h3, by simp, ?_⟩
        intro x hx y hy
        rw [h4 (by simp)] at hx
        simp at hx hy
        rw [← hx, ← hy]
        exact hp3

/-- On sane tables the Viterbi algorithm finds, for every non-empty text, a sequence of states as long as the text that
follows transitions of the table, with a finite score. -/
theorem viterbi_ok (A : Arith F) (T : Tables F) (hT : TablesOK T) (σ : Nat → List PState → List PState)
    (hσ : ∀ t l, (σ t l).Perm l) (obs : Str) (hne : obs ≠ []) :
    ∃ (p : F) (route : List PState), viterbi A T σ obs = .ok ((p : WithBot F), route) ∧ route.length = obs.length ∧
      route.IsChain (Edge T) := by
  cases obs with
  | nil => exact absurd rfl hne
  | cons c cs =>
    obtain ⟨V0, h0, hV0⟩ := initCol_ok A T hT c
    obtain ⟨W, r, h1, h2, h3, h4⟩ := columns_ok A T hT σ hσ cs 1 V0 [] hV0 trivial
    obtain ⟨y, hy, -⟩ := h2.live
    have hWne : W.map (fun kv => (kv.2.1, kv.1)) ≠ [] := by
      intro h; rw [List.map_eq_nil_iff] at h; rw [h] at hy; simp [PyDict.keys] at hy
    obtain ⟨best, hb⟩ := maxState_exists _ hWne
    obtain ⟨hb1, -⟩ := maxState_spec _ _ hb
    rw [List.mem_map] at hb1
    obtain ⟨kv, hkv, hbe⟩ := hb1
    obtain ⟨v, hv⟩ := h2.finite kv hkv
    have hbk : best.2 ∈ PyDict.keys W := by
      rw [← hbe]; exact List.mem_map_of_mem hkv
    obtain ⟨route, g1, g2, g3, -⟩ := backtrace_ok T (W :: r) h3 best.2 (by rintro X hX; simp at hX; rw [← hX]; exact hbk)
    refine ⟨v, route, ?_, ?_, g3⟩
    · unfold viterbi
      simp only []
      rw [h0]
      simp only [bind, Except.bind]
      rw [h1]
      simp only [List.headD_cons]
      rw [hb]
      simp only []
      rw [g1]
      simp only [pure, Except.pure]
      rw [← hbe, hv]
    · rw [g2, h4]; simp; omega

end Jieba.Pos
