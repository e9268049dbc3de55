import Verif.Proofs.PosTotal
import Verif.Spec.PosPaths
import Verif.Spec.Tags
/-!
# Helper lemmas: the Viterbi algorithm of the POS tagger finds a best state sequence
-/

set_option linter.unusedSectionVars false

namespace Jieba.Pos
open Jieba.Spec

variable {F : Type _} [LinearOrder F]

theorem mem_statesFor (T : Tables F) (c : Ch) (y : PState) : y ∈ statesFor T c ↔ StateOf T c y := by
  unfold statesFor StateOf
  cases h : T.charStates.get? c with
  | some l => simp
  | none => simp [PyDict.mem_keys_iff]

theorem tupLt_false {a b : WithBot F × PState} (h : tupLt stateLt a b = false) :
    b.1 ≤ a.1 ∧ (b.1 = a.1 → b.2 = a.2 ∨ stateLt b.2 a.2 = true) := by
  unfold tupLt at h
  simp only [Bool.or_eq_false_iff, decide_eq_false_iff_not, Bool.and_eq_false_iff] at h
  refine ⟨not_lt.mp h.1, fun he => ?_⟩
  rcases h.2 with h2 | h2
  · exact absurd he.symm h2
  · rcases stateLt_total.tri a.2 b.2 with h3 | h3 | h3
    · rw [h3] at h2; exact Bool.noConfusion h2
    · exact Or.inl h3.symm
    · exact Or.inr h3

theorem strLt_iff (a b : Str) : strLt a b = true ↔ a < b := by
  induction a generalizing b with
  | nil => cases b <;> simp [strLt]
  | cons x a ih =>
    cases b with
    | nil => simp [strLt]
    | cons y b =>
      rw [List.cons_lt_cons_iff]
      simp only [strLt, Bool.or_eq_true, decide_eq_true_eq, Bool.and_eq_true, ih]

theorem stateLt_iff (a b : PState) : stateLt a b = true ↔ Smaller a b := by
  unfold stateLt Smaller
  simp only [Bool.or_eq_true, decide_eq_true_eq, Bool.and_eq_true, strLt_iff]

/-- The first column. -/
theorem initCol_val (A : Arith F) (T : Tables F) (c : Ch) (V : Col F) (h : initCol A T c = .ok V) :
    (∀ y, y ∈ PyDict.keys V ↔ StateOf T c y) ∧
      ∀ y v, V.get? y = some v → ∃ p e, T.start.get? y = some p ∧ Emits T y c e ∧ v.1 = ((A.add p e : F) : WithBot F) := by
  have key : ∀ (l : List PState) (d V : Col F), l.foldlM (initOne A T c) d = .ok V →
      (∀ y v, d.get? y = some v → ∃ p e, T.start.get? y = some p ∧ Emits T y c e ∧ v.1 = ((A.add p e : F) : WithBot F)) →
      (∀ y, y ∈ PyDict.keys V ↔ (y ∈ PyDict.keys d ∨ y ∈ l)) ∧
      ∀ y v, V.get? y = some v → ∃ p e, T.start.get? y = some p ∧ Emits T y c e ∧ v.1 = ((A.add p e : F) : WithBot F) := by
    intro l
    induction l with
    | nil => intro d V h hd; simp [pure, Except.pure] at h; subst h; exact ⟨by simp, hd⟩
    | cons y l ih =>
      intro d V h hd
      rw [List.foldlM_cons] at h
      cases h1 : initOne A T c d y with
      | error e => rw [h1] at h; cases h
      | ok d' =>
        rw [h1] at h
        unfold initOne at h1
        cases h2 : look T.start y with
        | error e => rw [h2] at h1; cases h1
        | ok s =>
          rw [h2] at h1
          cases h3 : look T.emit y with
          | error e => rw [h3] at h1; cases h1
          | ok em =>
            rw [h3] at h1
            simp only [bind, Except.bind, pure, Except.pure] at h1
            injection h1 with h1
            rw [look_ok] at h2 h3
            obtain ⟨g1, g2⟩ := ih d' V h (by
              intro z v hz
              rw [← h1, PyDict.get?_set] at hz
              split at hz
              · next hzy =>
                injection hz with hz
                exact ⟨s, (em.get? c).getD T.minFloat, by rw [← hzy]; exact h2, ⟨em, by rw [← hzy]; exact h3, rfl⟩, by rw [← hz]; rfl⟩
              · exact hd z v hz)
            refine ⟨fun z => ?_, g2⟩
            rw [g1, ← h1, PyDict.mem_keys_iff, PyDict.has_set, PyDict.mem_keys_iff]
            simp only [Bool.or_eq_true, decide_eq_true_eq, List.mem_cons]
            tauto
  obtain ⟨g1, g2⟩ := key (statesFor T c) [] V h (by simp [PyDict.get?])
  refine ⟨fun y => ?_, g2⟩
  rw [g1, mem_statesFor]; simp [PyDict.keys]

/-- A later column: its keys, and the values as maxima over the transitions from the column before. -/
theorem stepCol_val (A : Arith F) (T : Tables F) (hT : TablesOK T) (σ : List PState → List PState) (hσ : ∀ l, (σ l).Perm l)
    (V : Col F) (c : Ch) (hV : ColOK T V) (V' : Col F) (h : stepCol A T σ V c = .ok V') :
    (∀ y, y ∈ PyDict.keys V' ↔ ((∃ x ∈ PyDict.keys V, Edge T x y) ∧
      (StateOf T c y ∨ ¬ ∃ z, StateOf T c z ∧ ∃ x ∈ PyDict.keys V, Edge T x z))) ∧
    ∀ y w, V'.get? y = some w →
      (∃ (x : PState) (vx : WithBot F × Option PState) (f : F) (tx : PyDict PState F) (p e : F), w.2 = some x ∧ V.get? x = some vx ∧ vx.1 = (f : WithBot F) ∧
        T.trans.get? x = some tx ∧ tx.get? y = some p ∧ Emits T y c e ∧
        w.1 = ((A.add (A.add f p) e : F) : WithBot F) ∧
        ∀ (x' : PState) (vx' : WithBot F × Option PState) (f' : F) (tx' : PyDict PState F) (p' e' : F), V.get? x' = some vx' → vx'.1 = (f' : WithBot F) →
          T.trans.get? x' = some tx' → tx'.get? y = some p' → Emits T y c e' →
          A.add (A.add f' p') e' ≤ A.add (A.add f p) e ∧
          (A.add (A.add f' p') e' = A.add (A.add f p) e → x' = x ∨ stateLt x' x = true)) := by
  obtain ⟨prev, hp, hmem⟩ := prevStates_ok T (PyDict.keys V) hV.known
  obtain ⟨V'', hs1, hok', hlink⟩ := stepCol_ok A T hT σ hσ V c hV
  rw [h] at hs1
  injection hs1 with hs1
  subst hs1
  unfold stepCol at h
  rw [hp] at h
  simp only [bind, Except.bind] at h
  have hnd := obsStates_nodup T hT.nodup σ hσ c prev
  rw [stepLoop_eq A T V c prev _ hnd] at h
  have hkeys : PyDict.keys V' = obsStates T σ c prev := keys_of_mapM _ _ _ h
  have hnext : ∀ y, y ∈ dedup (prev.flatMap (fun p => p.2.keys)) ↔ ∃ x ∈ PyDict.keys V, Edge T x y := by
    intro y
    rw [mem_dedup, List.mem_flatMap]
    constructor
    · rintro ⟨p, h1, h2⟩
      obtain ⟨a, b, -⟩ := (hmem p).mp h1
      exact ⟨p.1, a, p.2, b, (PyDict.mem_keys_iff _ _).mp h2⟩
    · rintro ⟨x, hx, tx, h1, h2⟩
      refine ⟨(x, tx), (hmem _).mpr ⟨hx, h1, ?_⟩, (PyDict.mem_keys_iff _ _).mpr h2⟩
      rintro rfl
      simp [PyDict.has, PyDict.get?] at h2
  have hedge : ∀ p ∈ prev, ∀ y tr, p.2.get? y = some tr → p.1 ∈ PyDict.keys V ∧ Edge T p.1 y := by
    intro p hp y tr htr
    obtain ⟨a, b, -⟩ := (hmem p).mp hp
    exact ⟨a, p.2, b, by rw [PyDict.has_iff]; exact ⟨tr, htr⟩⟩
  constructor
  · intro y
    rw [hkeys]
    unfold obsStates
    simp only []
    split
    · next hne =>
      rw [(hσ _).mem_iff, List.mem_filter, mem_dedup, mem_statesFor]
      simp only [decide_eq_true_eq]
      rw [hnext]
      constructor
      · rintro ⟨h1, h2⟩; exact ⟨h2, Or.inl h1⟩
      · rintro ⟨h1, h2 | h2⟩
        · exact ⟨h2, h1⟩
        · exfalso
          apply h2
          obtain ⟨z, hz⟩ := List.exists_mem_of_ne_nil _ hne
          rw [List.mem_filter, mem_dedup, mem_statesFor] at hz
          simp only [decide_eq_true_eq] at hz
          exact ⟨z, hz.1, (hnext z).mp hz.2⟩
    · next hnil =>
      have hno : ¬ ∃ z, StateOf T c z ∧ ∃ x ∈ PyDict.keys V, Edge T x z := by
        rintro ⟨z, hz1, hz2⟩
        apply hnil
        intro h0
        have : z ∈ (dedup (statesFor T c)).filter (fun y => decide (y ∈ dedup (prev.flatMap (fun p => p.2.keys)))) := by
          rw [List.mem_filter, mem_dedup, mem_statesFor]
          exact ⟨hz1, by simp only [decide_eq_true_eq]; exact (hnext z).mpr hz2⟩
        rw [h0] at this
        simp at this
      have hne : dedup (prev.flatMap (fun p => p.2.keys)) ≠ [] := by
        obtain ⟨y, hy, tx, h1, h2⟩ := hV.live
        cases tx with
        | nil => exact absurd rfl h2
        | cons kv tx =>
          have : kv.1 ∈ dedup (prev.flatMap (fun p => p.2.keys)) := by
            rw [hnext]
            refine ⟨y, hy, kv :: tx, h1, ?_⟩
            rw [← PyDict.mem_keys_iff]; simp [PyDict.keys]
          intro h0; rw [h0] at this; simp at this
      rw [if_pos hne, (hσ _).mem_iff, hnext]
      constructor
      · intro h1; exact ⟨h1, Or.inr hno⟩
      · rintro ⟨h1, -⟩; exact h1
  · intro y w hw
    have hw' := (PyDict.get?_eq_some_iff_mem _ hok'.nodup _ _).mp hw
    obtain ⟨-, -, h3⟩ := mapM_except_ok _ _ _ h
    obtain ⟨y0, hy0, he⟩ := h3 _ hw'
    cases hs : stepVal A T V c prev y0 with
    | error e => rw [hs] at he; cases he
    | ok w0 =>
      rw [hs] at he
      simp only [Except.map] at he
      injection he with he
      injection he with he1 he2
      subst he1 he2
      obtain ⟨f0, hf0⟩ := hok'.finite _ hw'
      simp only at hf0
      unfold stepVal at hs
      cases hm : prev.mapM (candidate A T V c y0) with
      | error e => rw [hm] at hs; cases hs
      | ok cands =>
        rw [hm] at hs
        simp only [bind, Except.bind] at hs
        cases hb : maxState cands with
        | error e => rw [hb] at hs; cases hs
        | ok best =>
          rw [hb] at hs
          simp only [pure, Except.pure] at hs
          injection hs with hs
          obtain ⟨hb1, hb2⟩ := maxState_spec _ _ hb
          obtain ⟨-, hc1, hc2⟩ := mapM_except_ok _ _ _ hm
          -- what a candidate is
          have hcand : ∀ q ∈ prev, ∀ b, candidate A T V c y0 q = .ok b → ∃ vx em, V.get? q.1 = some vx ∧ T.emit.get? y0 = some em ∧
              b = (padd A (padd A vx.1 ((q.2.get? y0).elim ⊥ some)) (some ((em.get? c).getD T.minFloat)), q.1) := by
            intro q hq b hqb
            unfold candidate at hqb
            cases g1 : look V q.1 with
            | error e => rw [g1] at hqb; cases hqb
            | ok vx =>
              cases g2 : look T.emit y0 with
              | error e => rw [g1, g2] at hqb; cases hqb
              | ok em =>
                rw [g1, g2] at hqb
                simp only [bind, Except.bind, pure, Except.pure] at hqb
                injection hqb with hqb
                exact ⟨vx, em, (look_ok _ _ _).mp g1, (look_ok _ _ _).mp g2, hqb.symm⟩
          obtain ⟨q, hq, hqb⟩ := hc2 _ hb1
          obtain ⟨vx, em, g1, g2, g3⟩ := hcand q hq _ hqb
          obtain ⟨f, hf⟩ := hV.finite (q.1, vx) ((PyDict.get?_eq_some_iff_mem _ hV.nodup _ _).mp g1)
          simp only at hf
          have hw1 : w0.1 = best.1 := by rw [← hs]
          have htr : ∃ tr, q.2.get? y0 = some tr := by
            cases htr : q.2.get? y0 with
            | some tr => exact ⟨tr, rfl⟩
            | none =>
              exfalso
              rw [hw1, g3, htr] at hf0
              simp only [Option.elim] at hf0
              rw [hf] at hf0
              cases hf0
          obtain ⟨tr, htr⟩ := htr
          have hbv : best.1 = ((A.add (A.add f tr) ((em.get? c).getD T.minFloat) : F) : WithBot F) := by
            rw [g3, hf, htr]; rfl
          refine ⟨q.1, vx, f, q.2, tr, (em.get? c).getD T.minFloat, ?_, g1, hf, ((hmem q).mp hq).2.1, htr, ⟨em, g2, rfl⟩, ?_, ?_⟩
          · rw [← hs, g3]
          · rw [hw1, hbv]
          · intro x' vx' f' tx' p' e' k1 k2 k3 k4 ⟨em', k5, k6⟩
            have hx' : (x', tx') ∈ prev := by
              refine (hmem _).mpr ⟨?_, k3, ?_⟩
              · rw [PyDict.mem_keys_iff, PyDict.has_iff]; exact ⟨vx', k1⟩
              · rintro rfl; simp [PyDict.get?] at k4
            obtain ⟨b, hb3, hb4⟩ := hc1 _ hx'
            obtain ⟨vx2, em2, j1, j2, j3⟩ := hcand _ hx' _ hb4
            simp only at j1 j3
            rw [k1] at j1
            injection j1 with j1
            rw [k5] at j2
            injection j2 with j2
            subst j1 j2
            have hbv' : b.1 = ((A.add (A.add f' p') e' : F) : WithBot F) := by
              rw [j3, k2, k4, k6]; rfl
            obtain ⟨l1, l2⟩ := tupLt_false (hb2 b hb3)
            rw [hbv, hbv'] at l1 l2
            refine ⟨by exact_mod_cast l1, fun heq => ?_⟩
            have := l2 (by rw [heq])
            rw [j3] at this
            have hb2' : best.2 = q.1 := by rw [g3]
            rw [hb2'] at this
            exact this

theorem allowed_one (T : Tables F) (c : Ch) (y : PState) : Allowed T [c] y ↔ StateOf T c y := Iff.rfl

theorem allowed_snoc (T : Tables F) (s : Str) (hs : s ≠ []) (c : Ch) (y : PState) : Allowed T (s ++ [c]) y ↔
    ((∃ x, Allowed T s x ∧ Edge T x y) ∧ (StateOf T c y ∨ ¬ ∃ z, StateOf T c z ∧ ∃ x, Allowed T s x ∧ Edge T x z)) := by
  unfold Allowed
  rw [List.reverse_append]
  cases h : s.reverse with
  | nil => simp at h; exact absurd h hs
  | cons d r => exact Iff.rfl

theorem Scored.ne_nil {A : Arith F} {T : Tables F} {s : Str} {ys : List PState} {v : F} (h : Scored A T s ys v) : s ≠ [] := by
  cases h <;> simp

/-- A column belongs to a text: its states are the allowed ones, and each value is that of a best sequence. -/
structure ColFor (A : Arith F) (T : Tables F) (s : Str) (V : Col F) (cols : List (Col F)) : Prop where
  ok : ColOK T V
  keys : ∀ y, y ∈ PyDict.keys V ↔ Allowed T s y
  best : ∀ y v, V.get? y = some v → ∃ (f : F) (ys : List PState), v.1 = (f : WithBot F) ∧ backtrace (V :: cols) y = .ok (ys ++ [y]) ∧
    Scored A T s (ys ++ [y]) f ∧ ∀ ys' f', Scored A T s (ys' ++ [y]) f' → f' ≤ f ∧
      (((∀ a b c : F, a < b → A.add a c < A.add b c)) → f' = f → ys' = ys ∨ LastLarger ys ys')

theorem colFor_init (A : Arith F) (T : Tables F) (hT : TablesOK T) (c : Ch) :
    ∃ V, initCol A T c = .ok V ∧ ColFor A T [c] V [] := by
  obtain ⟨V, h1, h2⟩ := initCol_ok A T hT c
  obtain ⟨h3, h4⟩ := initCol_val A T c V h1
  refine ⟨V, h1, h2, fun y => by rw [h3]; exact (allowed_one T c y).symm, ?_⟩
  intro y v hv
  obtain ⟨p, e, g1, g2, g3⟩ := h4 y v hv
  have hy : Allowed T [c] y := by
    rw [allowed_one, ← h3, PyDict.mem_keys_iff, PyDict.has_iff]; exact ⟨v, hv⟩
  refine ⟨A.add p e, [], g3, ?_, .one c y p e hy g1 g2, ?_⟩
  · unfold backtrace
    rw [(look_ok _ _ _).mpr hv]
    rfl
  · intro ys' f' hs
    generalize hse : ([c] : Str) = s at hs
    generalize hye : ys' ++ [y] = zs at hs
    cases hs with
    | one c' y' p' e' k1 k2 k3 =>
      injection hse with hse
      subst hse
      have hl := congrArg List.length hye
      simp at hl
      subst hl
      simp at hye
      subst hye
      rw [g1] at k2
      injection k2 with k2
      obtain ⟨em, a1, a2⟩ := g2
      obtain ⟨em', b1, b2⟩ := k3
      rw [a1] at b1
      injection b1 with b1
      subst b1
      rw [k2, a2, b2]
      exact ⟨le_refl _, fun _ _ => Or.inl rfl⟩
    | snoc s ys x v c' y' tx p' e' k0 =>
      have := Scored.ne_nil k0
      have hl := congrArg List.length hse
      simp at hl
      exact absurd hl this

theorem colFor_step (A : Arith F) (hA : MonoAdd A) (T : Tables F) (hT : TablesOK T) (σ : List PState → List PState)
    (hσ : ∀ l, (σ l).Perm l) (s : Str) (hs : s ≠ []) (V : Col F) (cols : List (Col F)) (c : Ch) (hV : ColFor A T s V cols) :
    ∃ V', stepCol A T σ V c = .ok V' ∧ ColFor A T (s ++ [c]) V' (V :: cols) := by
  obtain ⟨V', h1, h2, -⟩ := stepCol_ok A T hT σ hσ V c hV.ok
  obtain ⟨h3, h4⟩ := stepCol_val A T hT σ hσ V c hV.ok V' h1
  have hk : ∀ y, y ∈ PyDict.keys V' ↔ Allowed T (s ++ [c]) y := by
    intro y
    rw [h3, allowed_snoc T s hs]
    simp only [hV.keys]
  refine ⟨V', h1, h2, hk, ?_⟩
  intro y w hw
  have hy : Allowed T (s ++ [c]) y := by
    rw [← hk, PyDict.mem_keys_iff, PyDict.has_iff]; exact ⟨w, hw⟩
  obtain ⟨x, vx, f, tx, p, e, g1, g2, g3, g4, g5, g6, g7, g8⟩ := h4 y w hw
  obtain ⟨fx, ys, j1, j2, j3, j4⟩ := hV.best x vx g2
  have hfx : fx = f := by rw [g3] at j1; exact (WithBot.coe_injective j1).symm
  subst hfx
  refine ⟨A.add (A.add fx p) e, ys ++ [x], g7, ?_, .snoc s ys x fx c y tx p e j3 hy g4 g5 g6, ?_⟩
  · unfold backtrace
    rw [(look_ok _ _ _).mpr hw]
    simp only [bind, Except.bind]
    rw [g1]
    simp only []
    rw [j2]
    rfl
  · intro ys' f' hsc
    generalize hse : s ++ [c] = s2 at hsc
    generalize hye : ys' ++ [y] = zs at hsc
    cases hsc with
    | one c' y' p' e' k1 k2 k3 =>
      have hl := congrArg List.length hse
      simp at hl
      exact absurd hl hs
    | snoc s' ys2 x' v' c' y' tx' p' e' k0 k1 k2 k3 k4 =>
      obtain ⟨rfl, hcc⟩ := List.append_inj' hse rfl
      injection hcc with hcc
      subst hcc
      obtain ⟨rfl, hyy⟩ := List.append_inj' hye rfl
      injection hyy with hyy
      subst hyy
      have hx' : ∃ vx', V.get? x' = some vx' := by
        rw [← PyDict.has_iff, ← PyDict.mem_keys_iff, hV.keys]
        generalize hze : ys2 ++ [x'] = zs at k0
        cases k0 with
        | one c y p e a1 a2 a3 =>
          have hl := congrArg List.length hze
          simp at hl
          subst hl
          simp at hze
          rw [hze]; exact a1
        | snoc s ys x v c y tx p e a0 a1 a2 a3 a4 =>
          obtain ⟨-, hh⟩ := List.append_inj' hze rfl
          injection hh with hh
          rw [hh]; exact a1
      obtain ⟨vx', hvx'⟩ := hx'
      obtain ⟨fx', yb, m1, m2, m3, m4⟩ := hV.best x' vx' hvx'
      obtain ⟨n1, n2⟩ := m4 ys2 v' k0
      obtain ⟨q1, q2⟩ := g8 x' vx' fx' tx' p' e' hvx' m1 k2 k3 k4
      have hle : A.add (A.add v' p') e' ≤ A.add (A.add fx' p') e' := hA.left _ _ _ (hA.left _ _ _ n1)
      refine ⟨le_trans hle q1, fun hstrict heq => ?_⟩
      have e1 : A.add (A.add fx' p') e' = A.add (A.add fx p) e := le_antisymm q1 (heq ▸ hle)
      have e2 : v' = fx' := by
        rcases lt_or_eq_of_le n1 with hlt | heq2
        · exfalso
          have := hstrict _ _ e' (hstrict _ _ p' hlt)
          rw [heq, e1] at this
          exact lt_irrefl _ this
        · exact heq2
      rcases q2 e1 with rfl | hx
      · rw [g2] at hvx'
        injection hvx' with hvx'
        subst hvx'
        have hfe : fx' = fx := by rw [m1] at j1; exact WithBot.coe_injective j1
        subst hfe
        rcases (j4 ys2 v' k0).2 hstrict e2 with hyy | ⟨a, b, r, x1, x2, r1, r2, r3⟩
        · left; rw [hyy]
        · right; exact ⟨a, b, r ++ [x'], x1, x2, by rw [r1]; simp, by rw [r2]; simp, r3⟩
      · right; exact ⟨ys, ys2, [], x, x', by simp, by simp, (stateLt_iff _ _).mp hx⟩

theorem columns_for (A : Arith F) (hA : MonoAdd A) (T : Tables F) (hT : TablesOK T) (σ : Nat → List PState → List PState)
    (hσ : ∀ t l, (σ t l).Perm l) (cs : Str) (t : Nat) (s : Str) (hs : s ≠ []) (V : Col F) (cols : List (Col F))
    (hV : ColFor A T s V cols) :
    ∃ W r, columns A T σ t cs (V :: cols) = .ok (W :: r) ∧ ColFor A T (s ++ cs) W r := by
  induction cs generalizing t s V cols with
  | nil => exact ⟨V, cols, by simp [columns], by simpa using hV⟩
  | cons c cs ih =>
    obtain ⟨V', h1, h2⟩ := colFor_step A hA T hT (σ t) (hσ t) s hs V cols c hV
    obtain ⟨W, r, h3, h4⟩ := ih (t + 1) (s ++ [c]) (by simp) V' (V :: cols) h2
    refine ⟨W, r, ?_, by simpa using h4⟩
    unfold columns
    rw [h1]
    exact h3

theorem Scored.last {A : Arith F} {T : Tables F} {s : Str} {ys : List PState} {v : F} (h : Scored A T s ys v) :
    ∃ zs y, ys = zs ++ [y] ∧ Allowed T s y := by
  cases h with
  | one c y p e a => exact ⟨[], y, rfl, a⟩
  | snoc s ys x v c y tx p e _ a => exact ⟨_, y, rfl, a⟩

/-- The Viterbi algorithm finds an allowed state sequence of maximal score; with exact addition, ties go to the larger state
at the last difference. -/
theorem viterbi_best (A : Arith F) (hA : MonoAdd A) (T : Tables F) (hT : TablesOK T) (σ : Nat → List PState → List PState)
    (hσ : ∀ t l, (σ t l).Perm l) (obs : Str) (hne : obs ≠ []) :
    ∃ (v : F) (route : List PState), viterbi A T σ obs = .ok ((v : WithBot F), route) ∧ Scored A T obs route v ∧
      ∀ ys w, Scored A T obs ys w → w ≤ v ∧
        ((∀ a b c : F, a < b → A.add a c < A.add b c) → w = v → ys = route ∨ LastLarger route ys) := by
  cases obs with
  | nil => exact absurd rfl hne
  | cons c cs =>
    obtain ⟨V0, h0, hV0⟩ := colFor_init A T hT c
    obtain ⟨W, r, h1, h2⟩ := columns_for A hA T hT σ hσ cs 1 [c] (by simp) V0 [] hV0
    obtain ⟨y, hy, -⟩ := h2.ok.live
    have hWne : W.map (fun kv => (kv.2.1, kv.1)) ≠ [] := by
      intro h; rw [List.map_eq_nil_iff] at h; rw [h] at hy; simp [PyDict.keys] at hy
    obtain ⟨best, hb⟩ := maxState_exists _ hWne
    obtain ⟨hb1, hb2⟩ := maxState_spec _ _ hb
    rw [List.mem_map] at hb1
    obtain ⟨kv, hkv, hbe⟩ := hb1
    have hget : W.get? kv.1 = some kv.2 := (PyDict.get?_eq_some_iff_mem _ h2.ok.nodup _ _).mpr hkv
    obtain ⟨f, ys, g1, g2, g3, g4⟩ := h2.best _ _ hget
    refine ⟨f, ys ++ [kv.1], ?_, g3, ?_⟩
    · unfold viterbi
      simp only []
      rw [h0]
      simp only [bind, Except.bind]
      rw [h1]
      simp only [List.headD_cons]
      rw [hb]
      simp only []
      rw [← hbe]
      simp only
      rw [g2]
      simp only [pure, Except.pure]
      rw [g1]
    · intro zs w hz
      obtain ⟨zs', z, rfl, ha⟩ := Scored.last hz
      have hzk : z ∈ PyDict.keys W := (h2.keys z).mpr ha
      rw [PyDict.mem_keys_iff, PyDict.has_iff] at hzk
      obtain ⟨vz, hvz⟩ := hzk
      obtain ⟨fz, yz, k1, k2, k3, k4⟩ := h2.best z vz hvz
      obtain ⟨m1, m2⟩ := k4 zs' w hz
      have hmem := (PyDict.get?_eq_some_iff_mem _ h2.ok.nodup _ _).mp hvz
      obtain ⟨l1, l2⟩ := tupLt_false (hb2 (vz.1, z) (List.mem_map.mpr ⟨(z, vz), hmem, rfl⟩))
      rw [← hbe] at l1 l2
      simp only [k1, g1] at l1 l2
      have l1' : fz ≤ f := by exact_mod_cast l1
      refine ⟨le_trans m1 l1', fun hstrict heq => ?_⟩
      have hfz : fz = f := le_antisymm l1' (heq ▸ m1)
      rcases l2 (by rw [hfz]) with rfl | hlt
      · rw [hget] at hvz
        injection hvz with hvz
        subst hvz
        rcases (g4 zs' w hz).2 hstrict heq with rfl | ⟨a, b, r, x1, x2, r1, r2, r3⟩
        · left; rfl
        · right; exact ⟨a, b, r ++ [kv.1], x1, x2, by rw [r1]; simp, by rw [r2]; simp, r3⟩
      · right; exact ⟨ys, zs', [], kv.1, z, by simp, by simp, (stateLt_iff _ _).mp hlt⟩

end Jieba.Pos
