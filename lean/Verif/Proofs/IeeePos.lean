import Verif.Proofs.IeeeCut
import Verif.Model.Posseg
/-!
# The bounded exponents make no difference to the POS tagger
-/

namespace Jieba.Pos

attribute [local irreducible] rnd rndIeee Safe

variable (log : Nat → ℚ) (over : ℚ → ℚ)

/-- `-inf` or a safe number. -/
def BSafe (k : ℕ) (a : WithBot ℚ) : Prop := ∀ q : ℚ, a = some q → Safe k q

theorem BSafe.mono {k l : ℕ} {a : WithBot ℚ} (h : BSafe k a) (hkl : k ≤ l) : BSafe l a := fun q hq => (h q hq).mono hkl

theorem bsafe_some {k : ℕ} {q : ℚ} (h : Safe k q) : BSafe k (some q) := by
  intro q' hq'
  injection hq' with hq'
  exact hq' ▸ h

theorem padd_ieee {k l : ℕ} {a b : WithBot ℚ} (ha : BSafe k a) (hb : BSafe l b) (h : k + l ≤ 2 ^ 53) :
    padd (ieeeArith log over) a b = padd (dblArith log) a b ∧ BSafe (k + l + 1) (padd (dblArith log) a b) := by
  cases a with
  | bot => exact ⟨rfl, fun q hq => by cases hq⟩
  | coe a =>
    cases b with
    | bot => exact ⟨rfl, fun q hq => by cases hq⟩
    | coe b =>
      obtain ⟨h1, h2⟩ := safe_add over (ha a rfl) (hb b rfl) h
      constructor
      · show some (rndIeee over (a + b)) = some (rnd (a + b))
        rw [h1]
      · show BSafe (k + l + 1) (some (rnd (a + b)))
        exact bsafe_some h2

/-- The numbers of the tables are doubles, at most 2^350. -/
structure SafeTables (T : Tables ℚ) : Prop where
  start : ∀ y v, T.start.get? y = some v → Safe 1 v
  trans : ∀ y d y' v, T.trans.get? y = some d → d.get? y' = some v → Safe 1 v
  emit : ∀ y d c v, T.emit.get? y = some d → d.get? c = some v → Safe 1 v
  min : Safe 1 T.minFloat

theorem get_of_look {K V : Type _} [DecidableEq K] {d : PyDict K V} {k : K} {v : V} (h : look d k = .ok v) : d.get? k = some v := by
  unfold look at h
  cases hd : d.get? k with
  | none => rw [hd] at h; cases h
  | some w => rw [hd] at h; injection h with h; rw [h]

theorem SafeTables.emitD {T : Tables ℚ} (h : SafeTables T) {y : PState} {e : PyDict Ch ℚ} (he : look T.emit y = .ok e) (c : Ch) :
    Safe 1 ((e.get? c).getD T.minFloat) := by
  cases hv : e.get? c with
  | none => exact h.min
  | some v => exact h.emit y e c v (get_of_look he) hv

/-- All scores of a column. -/
def ColSafe (k : ℕ) (V : Col ℚ) : Prop := ∀ y v, V.get? y = some v → BSafe k v.1

theorem colSafe_set {k : ℕ} {V : Col ℚ} (h : ColSafe k V) (y : PState) (v : WithBot ℚ × Option PState) (hv : BSafe k v.1) : ColSafe k (V.set y v) := by
  intro y' v' h'
  by_cases hy : y = y'
  · subst hy
    rw [PyDict.get?_set_self] at h'
    injection h' with h'
    exact h' ▸ hv
  · rw [PyDict.get?_set_of_ne _ _ _ _ hy] at h'
    exact h y' v' h'

/-- Two folds that agree while an invariant holds. -/
theorem foldlM_congr {α β : Type _} (P : β → Prop) (f g : β → α → Except PyErr β) (l : List α)
    (h : ∀ b a, P b → f b a = g b a ∧ ∀ b', g b a = .ok b' → P b') (b : β) (hb : P b) :
    l.foldlM f b = l.foldlM g b ∧ ∀ b', l.foldlM g b = .ok b' → P b' := by
  induction l generalizing b with
  | nil =>
    refine ⟨rfl, ?_⟩
    intro b' hb'
    rw [List.foldlM_nil] at hb'
    injection hb' with hb'
    exact hb' ▸ hb
  | cons a l ih =>
    rw [List.foldlM_cons, List.foldlM_cons, (h b a hb).1]
    cases hg : g b a with
    | error e => exact ⟨rfl, fun b' hb' => by cases hb'⟩
    | ok b1 => exact ih b1 ((h b a hb).2 b1 hg)

theorem initCol_ieee {T : Tables ℚ} (hT : SafeTables T) (c : Ch) :
    initCol (ieeeArith log over) T c = initCol (dblArith log) T c ∧ ∀ V, initCol (dblArith log) T c = .ok V → ColSafe 4 V := by
  unfold initCol
  apply foldlM_congr (ColSafe 4)
  · intro V y hV
    unfold initOne
    cases hs : look T.start y with
    | error e => exact ⟨rfl, fun b' hb' => by cases hb'⟩
    | ok s =>
      cases he : look T.emit y with
      | error e => exact ⟨rfl, fun b' hb' => by cases hb'⟩
      | ok e =>
        obtain ⟨h1, h2⟩ := padd_ieee log over (bsafe_some (hT.start y s (get_of_look hs))) (bsafe_some (hT.emitD he c)) (by norm_num)
        simp only [bind, Except.bind, pure, Except.pure]
        rw [h1]
        refine ⟨rfl, ?_⟩
        intro V' hV'
        injection hV' with hV'
        subst hV'
        exact colSafe_set hV y _ (h2.mono (by norm_num))
  · intro y v h
    cases h

theorem candidate_ieee {T : Tables ℚ} (hT : SafeTables T) (k : ℕ) (hk : 4 * k + 4 ≤ 2 ^ 53) (V : Col ℚ) (hV : ColSafe (4 * k) V) (c : Ch) (y : PState)
    (p : PState × PyDict PState ℚ) (hp : ∀ y' v, p.2.get? y' = some v → Safe 1 v) :
    candidate (ieeeArith log over) T V c y p = candidate (dblArith log) T V c y p ∧
      ∀ r, candidate (dblArith log) T V c y p = .ok r → BSafe (4 * (k + 1)) r.1 := by
  unfold candidate
  cases hv : look V p.1 with
  | error e => exact ⟨rfl, fun b' hb' => by cases hb'⟩
  | ok v =>
    cases he : look T.emit y with
    | error e => exact ⟨rfl, fun b' hb' => by cases hb'⟩
    | ok e =>
      have ht : BSafe 1 ((p.2.get? y).elim (⊥ : WithBot ℚ) some) := by
        cases hg : p.2.get? y with
        | none => exact fun q hq => by cases hq
        | some w => exact bsafe_some (hp y w hg)
      obtain ⟨h1, h2⟩ := padd_ieee log over (hV p.1 v (get_of_look hv)) ht (by omega)
      obtain ⟨g1, g2⟩ := padd_ieee log over h2 (bsafe_some (hT.emitD he c)) (by omega)
      simp only [bind, Except.bind, pure, Except.pure]
      rw [h1, g1]
      refine ⟨rfl, ?_⟩
      intro r hr
      injection hr with hr
      subst hr
      exact g2.mono (by omega)

theorem prevStates_trans {T : Tables ℚ} (l : List PState) (r : List (PState × PyDict PState ℚ)) (h : prevStates T l = .ok r) :
    ∀ p ∈ r, T.trans.get? p.1 = some p.2 := by
  induction l generalizing r with
  | nil =>
    unfold prevStates at h
    injection h with h
    subst h
    intro p hp; cases hp
  | cons x xs ih =>
    unfold prevStates at h
    cases hx : look T.trans x with
    | error e => rw [hx] at h; cases h
    | ok tx =>
      rw [hx] at h
      cases hr : prevStates T xs with
      | error e => rw [hr] at h; cases h
      | ok r' =>
        rw [hr] at h
        simp only [bind, Except.bind, pure, Except.pure] at h
        injection h with h
        intro p hp
        rw [← h] at hp
        split at hp
        · rcases List.mem_cons.mp hp with rfl | hp
          · exact get_of_look hx
          · exact ih r' hr p hp
        · exact ih r' hr p hp

theorem stepCol_ieee {T : Tables ℚ} (hT : SafeTables T) (k : ℕ) (hk : 4 * k + 4 ≤ 2 ^ 53) (σ : List PState → List PState) (V : Col ℚ)
    (hV : ColSafe (4 * k) V) (c : Ch) :
    stepCol (ieeeArith log over) T σ V c = stepCol (dblArith log) T σ V c ∧
      ∀ V', stepCol (dblArith log) T σ V c = .ok V' → ColSafe (4 * (k + 1)) V' := by
  unfold stepCol
  cases hp : prevStates T V.keys with
  | error e => exact ⟨rfl, fun b' hb' => by cases hb'⟩
  | ok prev =>
    have hpt := prevStates_trans _ prev hp
    simp only [bind, Except.bind]
    apply foldlM_congr (ColSafe (4 * (k + 1)))
    · intro d y hd
      unfold stepOne
      have hc : ∀ p ∈ prev, _ := fun p hp' =>
        candidate_ieee log over hT k hk V hV c y p (fun y' v hv => hT.trans p.1 p.2 y' v (hpt p hp') hv)
      rw [mapM_congr_mem prev _ _ (fun p hp' => (hc p hp').1)]
      cases hm : prev.mapM (candidate (dblArith log) T V c y) with
      | error e => exact ⟨rfl, fun b' hb' => by cases hb'⟩
      | ok cands =>
        refine ⟨rfl, ?_⟩
        simp only [bind, Except.bind, pure, Except.pure]
        cases hb : maxState cands with
        | error e => exact fun b' hb' => by cases hb'
        | ok best =>
          intro d' hd'
          injection hd' with hd'
          subst hd'
          apply colSafe_set hd
          have hbest : best ∈ cands := by
            cases cands with
            | nil => simp [maxState] at hb
            | cons x xs =>
              simp only [maxState] at hb
              injection hb with hb
              rw [← hb]
              exact pyMax_mem' _ _ _
          obtain ⟨p, hp', hpb⟩ := (mapM_except_ok prev _ cands hm).2.2 best hbest
          exact (hc p hp').2 best hpb
    · intro y v h
      cases h

theorem columns_ieee {T : Tables ℚ} (hT : SafeTables T) (σ : Nat → List PState → List PState) (cs : Str) (t k : ℕ) (V : Col ℚ) (cols : List (Col ℚ))
    (hk : 4 * (k + cs.length) ≤ 2 ^ 53) (hV : ColSafe (4 * k) V) :
    columns (ieeeArith log over) T σ t cs (V :: cols) = columns (dblArith log) T σ t cs (V :: cols) := by
  induction cs generalizing t k V cols with
  | nil => simp only [columns]
  | cons c cs ih =>
    rw [List.length_cons] at hk
    obtain ⟨h1, h2⟩ := stepCol_ieee log over hT k (by omega) (σ t) V hV c
    simp only [columns, h1]
    cases hs : stepCol (dblArith log) T (σ t) V c with
    | error e => simp only [bind, Except.bind]
    | ok V' =>
      have hk' : 4 * (k + 1 + cs.length) ≤ 2 ^ 53 := by omega
      have := ih (t + 1) (k + 1) V' (V :: cols) hk' (h2 V' hs)
      simp only [bind, Except.bind]
      exact this

theorem viterbi_ieee {T : Tables ℚ} (hT : SafeTables T) (σ : Nat → List PState → List PState) (s : Str) (hs : s.length ≤ 2 ^ 50) :
    viterbi (ieeeArith log over) T σ s = viterbi (dblArith log) T σ s := by
  cases s with
  | nil => rfl
  | cons c cs =>
    rw [List.length_cons] at hs
    obtain ⟨h1, h2⟩ := initCol_ieee log over hT c
    simp only [viterbi, h1]
    cases hV : initCol (dblArith log) T c with
    | error e => simp only [bind, Except.bind]
    | ok V0 =>
      simp only [bind, Except.bind]
      rw [columns_ieee log over hT σ cs 1 1 V0 [] (by omega) (h2 V0 hV)]

variable {freq : Freq} {total : Int} {N : ℕ} (h : LogRange log freq total N) {T : Tables ℚ} (hT : SafeTables T) (tab : PyDict Str Str)
  (σ : Str → Nat → List PState → List PState)

include hT in
theorem cutDetail_ieee (s : Str) (hs : s.length ≤ 2 ^ 50) :
    cutDetail ⟨ieeeArith log over, freq, total, T, tab, σ⟩ s = cutDetail ⟨dblArith log, freq, total, T, tab, σ⟩ s := by
  unfold cutDetail
  apply forEach_congr_mem
  intro b hb
  have hl : b.length ≤ s.length := mem_split_length (.plus isHan) rfl s b hb
  unfold hmmCut
  simp only
  rw [viterbi_ieee log over hT (σ b) b (hl.trans hs)]

include hT in
theorem flushBuf_ieee (b : Str) (hb : b.length ≤ 2 ^ 50) :
    flushBuf ⟨ieeeArith log over, freq, total, T, tab, σ⟩ b = flushBuf ⟨dblArith log, freq, total, T, tab, σ⟩ b := by
  unfold flushBuf
  rw [cutDetail_ieee log over hT tab σ b hb]

include hT in
theorem dagCutLoop_ieee (s : Str) (hs : s.length ≤ 2 ^ 50) (route : List (ℚ × Nat)) (fuel x : Nat) (buf : Str) (hb : buf.length + fuel ≤ s.length) :
    dagCutLoop ⟨ieeeArith log over, freq, total, T, tab, σ⟩ s route fuel x buf = dagCutLoop ⟨dblArith log, freq, total, T, tab, σ⟩ s route fuel x buf := by
  induction fuel generalizing x buf with
  | zero => exact flushBuf_ieee log over hT tab σ buf (by omega)
  | succ fuel ih =>
    unfold dagCutLoop
    have hf := flushBuf_ieee (freq := freq) (total := total) log over hT tab σ buf (by omega)
    by_cases hx : x < s.length
    · rw [if_pos hx, if_pos hx]
      cases route[x]? with
      | none => rfl
      | some r =>
        simp only
        by_cases hy : r.2 + 1 - x = 1
        · rw [if_pos hy, if_pos hy]
          apply ih
          have : (slice s x (r.2 + 1)).length ≤ 1 := by
            unfold slice
            simp only [List.length_take, List.length_drop]
            omega
          rw [List.length_append]
          omega
        · rw [if_neg hy, if_neg hy, hf, ih (r.2 + 1) [] (by simp only [List.length_nil]; omega)]
    · rw [if_neg hx, if_neg hx, hf]

include h hT in
theorem cut_ieee_eq (hmm : Bool) (s : Str) (hs : s.length ≤ 2 ^ 50) :
    cut ⟨ieeeArith log over, freq, total, T, tab, σ⟩ hmm s = cut ⟨dblArith log, freq, total, T, tab, σ⟩ hmm s := by
  unfold cut
  apply forEach_congr_mem
  intro b hb
  have hl : b.length ≤ s.length := mem_split_length (.plus isWordChPos) rfl s b hb
  have hb' := hl.trans hs
  have e1 : cutDAGNoHMM ⟨ieeeArith log over, freq, total, T, tab, σ⟩ b = cutDAGNoHMM ⟨dblArith log, freq, total, T, tab, σ⟩ b := by
    unfold cutDAGNoHMM
    simp only
    rw [calcRoute_eq log over h b hb']
  have e2 : cutDAG ⟨ieeeArith log over, freq, total, T, tab, σ⟩ b = cutDAG ⟨dblArith log, freq, total, T, tab, σ⟩ b := by
    unfold cutDAG
    simp only
    rw [calcRoute_eq log over h b hb']
    cases calcRoute (dblArith log) freq total b (getDAG freq b) with
    | error e => simp only [Gen.ofExcept]
    | ok route =>
      simp only [Gen.ofExcept]
      exact dagCutLoop_ieee log over hT tab σ b hb' route b.length 0 [] (by rw [List.length_nil, Nat.zero_add])
  unfold cutBlock
  rw [e1, e2]

end Jieba.Pos
