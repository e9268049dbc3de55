import Mathlib.Data.List.Forall2
import Verif.Proofs.PosOrder
/-!
# Helper lemmas: the Viterbi algorithm of the POS tagger

First, that the iteration order of sets does not matter; second, that on sane tables it never fails and follows
transitions of the table.
-/

set_option linter.unusedSectionVars false

namespace Jieba.Pos

variable {F : Type _} [LinearOrder F]

/-! ## Independence of the iteration order -/

theorem prevStates_eq (T : Tables F) (l : List PState) :
    prevStates T l = (l.mapM (fun x => (look T.trans x).map (fun tx => (x, tx)))).map
      (fun r => r.filter (fun p => decide (0 < p.2.length))) := by
  induction l with
  | nil => rfl
  | cons x l ih =>
    rw [List.mapM_cons]
    unfold prevStates
    rw [ih]
    cases look T.trans x with
    | error e => rfl
    | ok tx =>
      cases l.mapM (fun x => (look T.trans x).map (fun tx => (x, tx))) with
      | error e => rfl
      | ok r =>
        simp only [Except.map, bind, Except.bind, pure, Except.pure, List.filter_cons]
        by_cases h : 0 < tx.length
        · simp [h]
        · simp [h]

theorem look_error {K V : Type _} [DecidableEq K] (d : PyDict K V) (k : K) (e : PyErr) (h : look d k = .error e) :
    e = .keyError := by
  unfold look at h
  split at h
  · cases h
  · injection h with h; exact h.symm

theorem look_ok {K V : Type _} [DecidableEq K] (d : PyDict K V) (k : K) (v : V) : look d k = .ok v ↔ d.get? k = some v := by
  unfold look
  cases d.get? k <;> simp

theorem prevStates_perm (T : Tables F) {l m : List PState} (h : l.Perm m) :
    (∃ r r', prevStates T l = .ok r ∧ prevStates T m = .ok r' ∧ r.Perm r') ∨
      (prevStates T l = .error .keyError ∧ prevStates T m = .error .keyError) := by
  rw [prevStates_eq, prevStates_eq]
  rcases mapM_perm .keyError (fun x => (look T.trans x).map (fun tx => (x, tx))) h (by
    intro a _ e' he
    cases hl : look T.trans a with
    | error e =>
      rw [hl] at he
      injection he with he
      rw [← he]
      exact look_error _ _ _ hl
    | ok v => rw [hl] at he; cases he) with ⟨r, r', h1, h2, h3⟩ | ⟨h1, h2⟩
  · left
    rw [h1, h2]
    exact ⟨_, _, rfl, rfl, h3.filter _⟩
  · right
    rw [h1, h2]
    exact ⟨rfl, rfl⟩

/-- What one round of the inner loop computes. -/
def stepVal (A : Arith F) (T : Tables F) (V : Col F) (c : Ch) (prev : List (PState × PyDict PState F)) (y : PState) :
    Except PyErr (WithBot F × Option PState) := do
  let cands ← prev.mapM (candidate A T V c y)
  let best ← maxState cands
  return (best.1, some best.2)

theorem stepOne_eq (A : Arith F) (T : Tables F) (V : Col F) (c : Ch) (prev : List (PState × PyDict PState F)) (d : Col F)
    (y : PState) : stepOne A T V c prev d y = (stepVal A T V c prev y).map (fun v => PyDict.set d y v) := by
  unfold stepOne stepVal
  cases prev.mapM (candidate A T V c y) with
  | error e => rfl
  | ok cands =>
    simp only [bind, Except.bind]
    cases maxState cands <;> rfl

theorem candidate_error (A : Arith F) (T : Tables F) (V : Col F) (c : Ch) (y : PState) (p : PState × PyDict PState F) (e : PyErr)
    (h : candidate A T V c y p = .error e) : e = .keyError := by
  unfold candidate at h
  cases h1 : look V p.1 with
  | error e1 => rw [h1] at h; injection h with h; rw [← h]; exact look_error _ _ _ h1
  | ok v =>
    rw [h1] at h
    cases h2 : look T.emit y with
    | error e2 => rw [h2] at h; injection h with h; rw [← h]; exact look_error _ _ _ h2
    | ok em => rw [h2] at h; cases h

theorem stepVal_error (A : Arith F) (T : Tables F) (V : Col F) (c : Ch) (prev : List (PState × PyDict PState F)) (y : PState)
    (e : PyErr) (h : stepVal A T V c prev y = .error e) : e = if prev.length = 0 then .valueError else .keyError := by
  unfold stepVal at h
  cases hm : prev.mapM (candidate A T V c y) with
  | error e1 =>
    rw [hm] at h
    simp only [bind, Except.bind] at h
    injection h with h
    subst h
    have hex : ∃ a ∈ prev, ∃ e', candidate A T V c y a = .error e' := by
      by_contra hcon
      push Not at hcon
      obtain ⟨r, hr⟩ := mapM_except_total prev (candidate A T V c y) (by
        intro a ha
        cases hc : candidate A T V c y a with
        | ok b => exact ⟨b, rfl⟩
        | error e' => exact absurd hc (hcon a ha e'))
      rw [hr] at hm
      cases hm
    rw [mapM_error .keyError _ prev (fun a _ e' he => candidate_error A T V c y a e' he) hex] at hm
    injection hm with hm
    obtain ⟨a, ha, -⟩ := hex
    have : prev.length ≠ 0 := by intro h0; rw [List.length_eq_zero_iff] at h0; rw [h0] at ha; simp at ha
    rw [if_neg this, hm]
  | ok cands =>
    rw [hm] at h
    simp only [bind, Except.bind] at h
    have hl := (mapM_except_ok _ _ _ hm).1
    cases cands with
    | nil =>
      simp [maxState] at h
      rw [if_pos (by simpa using hl.symm), h]
    | cons x xs => simp [maxState, pure, Except.pure] at h

theorem stepVal_perm (A : Arith F) (T : Tables F) {V W : Col F} (c : Ch) {prev prev' : List (PState × PyDict PState F)}
    (y : PState) (hV : V.Perm W) (hn : (PyDict.keys V).Nodup) (hp : prev.Perm prev') :
    stepVal A T V c prev y = stepVal A T W c prev' y := by
  have hc : candidate A T V c y = candidate A T W c y := by
    funext p
    unfold candidate look
    rw [get?_perm hV hn]
  unfold stepVal
  rw [hc]
  rcases mapM_perm .keyError (candidate A T W c y) hp (fun a _ e' he => candidate_error A T W c y a e' he) with
    ⟨r, r', h1, h2, h3⟩ | ⟨h1, h2⟩
  · rw [h1, h2]
    simp only [bind, Except.bind]
    rw [maxState_perm h3]
  · rw [h1, h2]

theorem obsStates_perm (T : Tables F) (σ₁ σ₂ : List PState → List PState) (h1 : ∀ l, (σ₁ l).Perm l) (h2 : ∀ l, (σ₂ l).Perm l)
    (c : Ch) {prev prev' : List (PState × PyDict PState F)} (hp : prev.Perm prev') :
    (obsStates T σ₁ c prev).Perm (obsStates T σ₂ c prev') := by
  have hmem : ∀ y, y ∈ prev.flatMap (fun p => p.2.keys) ↔ y ∈ prev'.flatMap (fun p => p.2.keys) := by
    intro y
    simp only [List.mem_flatMap, hp.mem_iff]
  have he := dedup_perm hmem
  have hf : (fun y : PState => decide (y ∈ dedup (prev.flatMap (fun p => p.2.keys)))) =
      (fun y => decide (y ∈ dedup (prev'.flatMap (fun p => p.2.keys)))) := by
    funext y
    rw [decide_eq_decide]
    exact he.mem_iff
  unfold obsStates
  simp only [hf]
  have hnil : dedup (prev.flatMap (fun p => p.2.keys)) ≠ [] ↔ dedup (prev'.flatMap (fun p => p.2.keys)) ≠ [] := by
    rw [not_iff_not]
    constructor
    · intro h; rw [h] at he; exact List.nil_perm.mp he
    · intro h; rw [h] at he; exact List.perm_nil.mp he
  split
  · exact (h1 _).trans (h2 _).symm
  · by_cases h : dedup (prev.flatMap (fun p => p.2.keys)) ≠ []
    · rw [if_pos h, if_pos (hnil.mp h)]
      exact (h1 _).trans (he.trans (h2 _).symm)
    · rw [if_neg h, if_neg (fun h' => h (hnil.mpr h'))]

theorem obsStates_nodup (T : Tables F) (hT : (PyDict.keys T.trans).Nodup) (σ : List PState → List PState) (h : ∀ l, (σ l).Perm l)
    (c : Ch) (prev : List (PState × PyDict PState F)) : (obsStates T σ c prev).Nodup := by
  unfold obsStates
  simp only []
  split
  · exact (h _).nodup_iff.mpr ((nodup_dedup _).filter _)
  · split
    · exact (h _).nodup_iff.mpr (nodup_dedup _)
    · exact hT

/-- Equal up to the order of insertion. -/
def ColEq (V W : Col F) : Prop := V.Perm W ∧ (PyDict.keys V).Nodup

theorem stepLoop_eq (A : Arith F) (T : Tables F) (V : Col F) (c : Ch) (prev : List (PState × PyDict PState F))
    (ys : List PState) (hn : ys.Nodup) :
    ys.foldlM (stepOne A T V c prev) [] = ys.mapM (fun y => (stepVal A T V c prev y).map (fun v => (y, v))) := by
  rw [foldlM_set (stepVal A T V c prev) _ (stepOne_eq A T V c prev) ys [] hn (by simp [PyDict.keys])]
  cases ys.mapM (fun y => (stepVal A T V c prev y).map (fun v => (y, v))) <;> rfl

theorem keys_of_mapM {β : Type _} (f : PState → Except PyErr β) (ys : List PState) (r : List (PState × β))
    (h : ys.mapM (fun y => (f y).map (fun v => (y, v))) = .ok r) : r.map Prod.fst = ys := by
  induction ys generalizing r with
  | nil => simp [pure, Except.pure] at h; subst h; rfl
  | cons y ys ih =>
    rw [List.mapM_cons] at h
    cases hf : f y with
    | error e => rw [hf] at h; cases h
    | ok v =>
      rw [hf] at h
      cases hm : ys.mapM (fun y => (f y).map (fun v => (y, v))) with
      | error e => rw [hm] at h; cases h
      | ok r' =>
        rw [hm] at h
        simp only [Except.map, bind, Except.bind, pure, Except.pure] at h
        injection h with h
        rw [← h, List.map_cons, ih r' hm]

theorem stepCol_perm (A : Arith F) (T : Tables F) (hT : (PyDict.keys T.trans).Nodup) (σ₁ σ₂ : List PState → List PState)
    (h1 : ∀ l, (σ₁ l).Perm l) (h2 : ∀ l, (σ₂ l).Perm l) (V W : Col F) (c : Ch) (h : ColEq V W) :
    (∃ V' W', stepCol A T σ₁ V c = .ok V' ∧ stepCol A T σ₂ W c = .ok W' ∧ ColEq V' W') ∨
      ∃ e, stepCol A T σ₁ V c = .error e ∧ stepCol A T σ₂ W c = .error e := by
  unfold stepCol
  rcases prevStates_perm T (l := PyDict.keys V) (m := PyDict.keys W) (h.1.map Prod.fst) with ⟨p, p', e1, e2, hp⟩ | ⟨e1, e2⟩
  · rw [e1, e2]
    simp only [bind, Except.bind]
    rw [stepLoop_eq A T V c p _ (obsStates_nodup T hT σ₁ h1 c p), stepLoop_eq A T W c p' _ (obsStates_nodup T hT σ₂ h2 c p')]
    have hf : (fun y => (stepVal A T V c p y).map (fun v => (y, v))) = (fun y => (stepVal A T W c p' y).map (fun v => (y, v))) := by
      funext y; rw [stepVal_perm A T c y h.1 h.2 hp]
    rw [hf]
    rcases mapM_perm (if p'.length = 0 then .valueError else .keyError) (fun y => (stepVal A T W c p' y).map (fun v => (y, v)))
      (obsStates_perm T σ₁ σ₂ h1 h2 c hp) (by
        intro a _ e' he
        cases hs : stepVal A T W c p' a with
        | ok v => rw [hs] at he; cases he
        | error e =>
          rw [hs] at he
          injection he with he
          rw [← he]
          exact stepVal_error A T W c p' a e hs) with ⟨r, r', g1, g2, g3⟩ | ⟨g1, g2⟩
    · left
      refine ⟨r, r', g1, g2, g3, ?_⟩
      have := keys_of_mapM _ _ _ g1
      show (r.map Prod.fst).Nodup
      rw [this]
      exact obsStates_nodup T hT σ₁ h1 c p
    · right; exact ⟨_, g1, g2⟩
  · right
    exact ⟨.keyError, by rw [e1]; rfl, by rw [e2]; rfl⟩

theorem columns_perm (A : Arith F) (T : Tables F) (hT : (PyDict.keys T.trans).Nodup) (σ₁ σ₂ : Nat → List PState → List PState)
    (h1 : ∀ t l, (σ₁ t l).Perm l) (h2 : ∀ t l, (σ₂ t l).Perm l) (cs : Str) (t : Nat) (cols cols' : List (Col F))
    (h : List.Forall₂ ColEq cols cols') :
    (∃ r r', columns A T σ₁ t cs cols = .ok r ∧ columns A T σ₂ t cs cols' = .ok r' ∧ List.Forall₂ ColEq r r') ∨
      ∃ e, columns A T σ₁ t cs cols = .error e ∧ columns A T σ₂ t cs cols' = .error e := by
  induction cs generalizing t cols cols' with
  | nil => left; exact ⟨cols, cols', by simp [columns], by simp [columns], h⟩
  | cons c cs ih =>
    cases h with
    | nil => right; exact ⟨.indexError, rfl, rfl⟩
    | cons hVW hrest =>
      rename_i V W cols cols'
      unfold columns
      rcases stepCol_perm A T hT (σ₁ t) (σ₂ t) (h1 t) (h2 t) V W c hVW with ⟨V', W', e1, e2, e3⟩ | ⟨e, e1, e2⟩
      · rw [e1, e2]
        exact ih (t + 1) _ _ (.cons e3 (.cons hVW hrest))
      · right; exact ⟨e, by rw [e1]; rfl, by rw [e2]; rfl⟩

theorem backtrace_perm (cols cols' : List (Col F)) (h : List.Forall₂ ColEq cols cols') (st : PState) :
    backtrace cols st = backtrace cols' st := by
  induction h generalizing st with
  | nil => rfl
  | cons hVW hrest ih =>
    rename_i V W cols cols'
    have hl : look V st = look W st := by unfold look; rw [get?_perm hVW.1 hVW.2]
    unfold backtrace
    rw [hl]
    cases look W st with
    | error e => rfl
    | ok v =>
      simp only [bind, Except.bind]
      cases hrest with
      | nil => rfl
      | cons _ _ =>
        cases v.2 with
        | none => rfl
        | some p => simp only [ih]

theorem initOne_nodup (A : Arith F) (T : Tables F) (c : Ch) (l : List PState) (d V : Col F) (hd : (PyDict.keys d).Nodup)
    (h : l.foldlM (initOne A T c) d = .ok V) : (PyDict.keys V).Nodup := by
  induction l generalizing d with
  | nil => simp [pure, Except.pure] at h; subst h; exact hd
  | cons y l ih =>
    rw [List.foldlM_cons] at h
    cases h1 : initOne A T c d y with
    | error e => rw [h1] at h; cases h
    | ok d' =>
      rw [h1] at h
      refine ih d' ?_ h
      unfold initOne at h1
      cases h2 : look T.start y with
      | error e => rw [h2] at h1; cases h1
      | ok s =>
        rw [h2] at h1
        cases h3 : look T.emit y with
        | error e => rw [h3] at h1; cases h1
        | ok em =>
          rw [h3] at h1
          simp only [bind, Except.bind, pure, Except.pure] at h1
          injection h1 with h1
          rw [← h1]
          exact PyDict.nodup_keys_set _ _ _ hd

theorem viterbi_order (A : Arith F) (T : Tables F) (hT : (PyDict.keys T.trans).Nodup) (σ₁ σ₂ : Nat → List PState → List PState)
    (h1 : ∀ t l, (σ₁ t l).Perm l) (h2 : ∀ t l, (σ₂ t l).Perm l) (obs : Str) : viterbi A T σ₁ obs = viterbi A T σ₂ obs := by
  cases obs with
  | nil => rfl
  | cons c cs =>
    unfold viterbi
    simp only []
    cases h0 : initCol A T c with
    | error e => rfl
    | ok V0 =>
      simp only [bind, Except.bind]
      have hn : (PyDict.keys V0).Nodup := initOne_nodup A T c _ _ _ (by simp [PyDict.keys]) h0
      rcases columns_perm A T hT σ₁ σ₂ h1 h2 cs 1 [V0] [V0] (.cons ⟨List.Perm.refl _, hn⟩ .nil) with
        ⟨r, r', e1, e2, e3⟩ | ⟨e, e1, e2⟩
      · rw [e1, e2]
        simp only []
        have hlast : maxState ((r.headD []).map (fun kv => (kv.2.1, kv.1))) =
            maxState ((r'.headD []).map (fun kv => (kv.2.1, kv.1))) := by
          cases e3 with
          | nil => rfl
          | cons hVW _ => exact maxState_perm (hVW.1.map _)
        rw [hlast]
        cases maxState ((r'.headD []).map (fun kv => (kv.2.1, kv.1))) with
        | error e => rfl
        | ok best => simp only [backtrace_perm r r' e3]
      · rw [e1, e2]

end Jieba.Pos
