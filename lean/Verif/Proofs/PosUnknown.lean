import Verif.Proofs.HmmUnknown
import Verif.Proofs.PosBest
import Verif.Spec.PosShape
/-!
# Helper lemmas: the Viterbi algorithm of the POS tagger in doubles, on characters without emission probabilities
-/

set_option linter.unusedSectionVars false

namespace Jieba.Pos
open Jieba.Spec
open Jieba.FinalSeg (minFloat_dbl minFloat_large rnd_grid rnd_le_grid grid_le_rnd absorb_low)

variable {log : Nat → ℚ} {T T' : Tables ℚ}

/-- A score that contains at least one -3.14e100. -/
def Low (v : ℚ) : Prop := IsDbl v ∧ v ≤ minFloat

/-- A score without one. -/
def High (k : ℕ) (v : ℚ) : Prop := |v| ≤ k * 2 ^ 100

theorem high_add {k : ℕ} {v p : ℚ} (h : High k v) (hp : |p| ≤ 2 ^ 100) (hk : k + 1 ≤ 2 ^ 53) : High (k + 1) (rnd (v + p)) := by
  unfold High at *
  rw [abs_le] at *
  constructor
  · exact grid_le_rnd (k + 1) hk (by push_cast; linarith [h.1, hp.1])
  · exact rnd_le_grid (k + 1) hk (by push_cast; linarith [h.2, hp.2])

theorem High.mono {k l : ℕ} {v : ℚ} (h : High k v) (hl : k ≤ l) : High l v := by
  unfold High at *
  have : (k : ℚ) ≤ l := by exact_mod_cast hl
  nlinarith [h]

theorem low_add {v p : ℚ} (h : Low v) (hp : |p| ≤ 2 ^ 100) : rnd (v + p) = v :=
  absorb_low h.1 h.2 (le_trans hp (by norm_num))

theorem low_min {v : ℚ} (h : Low v) : Low (rnd (v + minFloat)) := by
  refine ⟨isDbl_rnd _, ?_⟩
  have : rnd (v + minFloat) ≤ rnd minFloat := rnd_mono (by have := h.2; have := minFloat_large; linarith)
  rwa [show rnd minFloat = minFloat from minFloat_dbl] at this

theorem bound_53 {k : ℕ} (hk : k ≤ 2 ^ 53) : (k : ℚ) * 2 ^ 100 ≤ 2 ^ 153 := by
  have : (k : ℚ) ≤ 2 ^ 53 := by exact_mod_cast hk
  calc _ ≤ (2 : ℚ) ^ 53 * 2 ^ 100 := mul_le_mul_of_nonneg_right this (by norm_num)
    _ = 2 ^ 153 := by norm_num

theorem high_min {k : ℕ} {v : ℚ} (h : High k v) (hk : k ≤ 2 ^ 53) : rnd (v + minFloat) = minFloat := by
  rw [add_comm]
  exact absorb_low minFloat_dbl le_rfl (le_trans h (bound_53 hk))

theorem low_minFloat : Low minFloat := ⟨minFloat_dbl, le_rfl⟩

theorem low_lt_high {k : ℕ} {v w : ℚ} (hv : Low v) (hw : High k w) (hk : k ≤ 2 ^ 53) : v < w := by
  have h1 := (abs_le.mp hw).1
  have := bound_53 hk
  have := hv.2
  have := minFloat_large
  have : (2 : ℚ) ^ 153 < 2 ^ 240 := by norm_num
  linarith

/-- Scores by two tables of the same shape: neither contains a -3.14e100, or both are the same. -/
def Agree (k : ℕ) (v v' : ℚ) : Prop := (High k v ∧ High k v') ∨ (v = v' ∧ Low v)

theorem agree_add {k : ℕ} {v v' p p' : ℚ} (h : Agree k v v') (hp : |p| ≤ 2 ^ 100) (hp' : |p'| ≤ 2 ^ 100) (hk : k + 1 ≤ 2 ^ 53) :
    Agree (k + 1) (rnd (v + p)) (rnd (v' + p')) := by
  rcases h with ⟨h, h'⟩ | ⟨rfl, h⟩
  · exact Or.inl ⟨high_add h hp hk, high_add h' hp' hk⟩
  · right; rw [low_add h hp, low_add h hp']; exact ⟨rfl, h⟩

theorem agree_min {k : ℕ} {v v' : ℚ} (h : Agree k v v') (hk : k ≤ 2 ^ 53) :
    rnd (v + minFloat) = rnd (v' + minFloat) ∧ Low (rnd (v + minFloat)) := by
  rcases h with ⟨h, h'⟩ | ⟨rfl, h⟩
  · rw [high_min h hk, high_min h' hk]; exact ⟨rfl, low_minFloat⟩
  · exact ⟨rfl, low_min h⟩

theorem stateOf_same (h : SameShape T T') (c : Ch) (y : PState) : StateOf T c y ↔ StateOf T' c y := by
  unfold StateOf; rw [h.chars, h.states]

theorem allowed_same (h : SameShape T T') (s : Str) (y : PState) : Allowed T s y ↔ Allowed T' s y := by
  unfold Allowed
  generalize s.reverse = r
  induction r generalizing y with
  | nil => exact Iff.rfl
  | cons c r ih =>
    cases r with
    | nil => exact stateOf_same h c y
    | cons d r =>
      simp only [AllowedRev, stateOf_same h, h.edges, ih]

/-- Emission values of two tables of the same shape. -/
theorem emits_cases (hT : PosModerate T) (hT' : PosModerate T') (hs : SameShape T T') {y : PState} {c : Ch} {e e' : ℚ}
    (h : Emits T y c e) (h' : Emits T' y c e') :
    (|e| ≤ 2 ^ 100 ∧ |e'| ≤ 2 ^ 100 ∧ ¬ NoEmission T c) ∨ (e = minFloat ∧ e' = minFloat) := by
  obtain ⟨em, h1, rfl⟩ := h
  obtain ⟨em', h1', rfl⟩ := h'
  have hh := hs.emit y em em' c h1 h1'
  cases h2 : em.get? c with
  | none =>
    cases h2' : em'.get? c with
    | none => right; exact ⟨hT.min, hT'.min⟩
    | some e' => simp [PyDict.has, h2, h2'] at hh
  | some e =>
    cases h2' : em'.get? c with
    | none => simp [PyDict.has, h2, h2'] at hh
    | some e' =>
      left
      exact ⟨hT.emit y em c e h1 h2, hT'.emit y em' c e' h1' h2', fun hn => by rw [hn y em h1] at h2; cases h2⟩

theorem agree_emit (hT : PosModerate T) (hT' : PosModerate T') (hs : SameShape T T') {k : ℕ} {v v' : ℚ} {y : PState} {c : Ch} {e e' : ℚ}
    (h : Emits T y c e) (h' : Emits T' y c e') (hv : Agree k v v') (hk : k + 1 ≤ 2 ^ 53) :
    Agree (k + 1) (rnd (v + e)) (rnd (v' + e')) ∧ (NoEmission T c → Low (rnd (v + e))) := by
  rcases emits_cases hT hT' hs h h' with ⟨a, b, c⟩ | ⟨rfl, rfl⟩
  · exact ⟨agree_add hv a b hk, fun hn => absurd hn c⟩
  · obtain ⟨a, b⟩ := agree_min hv (by omega)
    exact ⟨Or.inr ⟨a, b⟩, fun _ => b⟩

theorem smaller_asymm {x y : PState} (h : Smaller x y) : ¬ Smaller y x := by
  rintro (h' | ⟨h1, h2⟩)
  · rcases h with h | ⟨h, -⟩
    · unfold Ch at *; omega
    · rw [h] at h'; exact absurd h' (lt_irrefl _)
  · rcases h with h | ⟨-, h⟩
    · rw [h1] at h; exact absurd h (lt_irrefl _)
    · exact absurd h2 (List.lt_asymm h)

/-- Two columns for the same text, by tables of the same shape. -/
structure Paired (log : Nat → ℚ) (T T' : Tables ℚ) (k : ℕ) (s : Str) (V : Col ℚ) (cols : List (Col ℚ)) (V' : Col ℚ) (cols' : List (Col ℚ)) : Prop where
  left : ColFor (dblArith log) T s V cols
  right : ColFor (dblArith log) T' s V' cols'
  agree : ∀ y v v', V.get? y = some v → V'.get? y = some v' →
    ∃ f f' : ℚ, v.1 = (f : WithBot ℚ) ∧ v'.1 = (f' : WithBot ℚ) ∧ Agree k f f'

theorem col_val {log : Nat → ℚ} {T : Tables ℚ} {s : Str} {V : Col ℚ} {cols : List (Col ℚ)} (h : ColFor (dblArith log) T s V cols) (y : PState)
    (hy : Allowed T s y) : ∃ (f : ℚ) (b : Option PState), V.get? y = some ((f : WithBot ℚ), b) := by
  rw [← h.keys, PyDict.mem_keys_iff, PyDict.has_iff] at hy
  obtain ⟨⟨v, b⟩, hv⟩ := hy
  obtain ⟨f, -, hf, -⟩ := h.best y _ hv
  exact ⟨f, b, by rw [hv]; simp only at hf; rw [hf]⟩

theorem allowed_of_get {log : Nat → ℚ} {T : Tables ℚ} {s : Str} {V : Col ℚ} {cols : List (Col ℚ)} (h : ColFor (dblArith log) T s V cols) (y : PState)
    (v) (hv : V.get? y = some v) : Allowed T s y := by
  rw [← h.keys, PyDict.mem_keys_iff, PyDict.has_iff]; exact ⟨v, hv⟩

theorem paired_init (hT : PosModerate T) (hT' : PosModerate T') (hs : SameShape T T') (ok : TablesOK T) (ok' : TablesOK T') (c : Ch) :
    ∃ V V', initCol (dblArith log) T c = .ok V ∧ initCol (dblArith log) T' c = .ok V' ∧ Paired log T T' 3 [c] V [] V' [] ∧
      (NoEmission T c → ∀ y v, V.get? y = some v → ∃ f : ℚ, v.1 = (f : WithBot ℚ) ∧ Low f) := by
  obtain ⟨V, h1, h2⟩ := colFor_init (dblArith log) T ok c
  obtain ⟨V', h1', h2'⟩ := colFor_init (dblArith log) T' ok' c
  have key : ∀ y v v', V.get? y = some v → V'.get? y = some v' →
      ∃ f f' : ℚ, v.1 = (f : WithBot ℚ) ∧ v'.1 = (f' : WithBot ℚ) ∧ Agree 3 f f' ∧ (NoEmission T c → Low f) := by
    intro y v v' hv hv'
    obtain ⟨p, e, g1, g2, g3⟩ := (initCol_val _ T c V h1).2 y v hv
    obtain ⟨p', e', g1', g2', g3'⟩ := (initCol_val _ T' c V' h1').2 y v' hv'
    have hp : Agree 2 p p' := by
      by_cases hm : p = minFloat
      · right; exact ⟨hm.trans ((hs.start y p p' g1 g1').mp hm).symm, hm ▸ low_minFloat⟩
      · have hm' := fun h => hm ((hs.start y p p' g1 g1').mpr h)
        have a := (hT.start y p g1).resolve_left hm
        have b := (hT'.start y p' g1').resolve_left hm'
        left; unfold High; push_cast; constructor <;> linarith
    obtain ⟨a, b⟩ := agree_emit hT hT' hs g2 g2' hp (by norm_num)
    exact ⟨_, _, g3, g3', a, b⟩
  refine ⟨V, V', h1, h1', ⟨h2, h2', ?_⟩, ?_⟩
  · intro y v v' hv hv'
    obtain ⟨f, f', a, b, c, -⟩ := key y v v' hv hv'
    exact ⟨f, f', a, b, c⟩
  · intro hn y v hv
    obtain ⟨f', b, hv'⟩ := col_val h2' y ((allowed_same hs _ _).mp (allowed_of_get h2 y v hv))
    obtain ⟨f, f', a, b, -, d⟩ := key y v _ hv hv'
    exact ⟨f, a, d hn⟩

/-- One more character.  Where the score contains a -3.14e100, the predecessors are the same. -/
theorem paired_step (hT : PosModerate T) (hT' : PosModerate T') (hs : SameShape T T') (ok : TablesOK T) (ok' : TablesOK T')
    (σ σ' : List PState → List PState) (hσ : ∀ l, (σ l).Perm l) (hσ' : ∀ l, (σ' l).Perm l) (k : ℕ) (hk : k + 2 ≤ 2 ^ 53)
    (s : Str) (hne : s ≠ []) (V V' : Col ℚ) (cols cols' : List (Col ℚ)) (c : Ch) (h : Paired log T T' k s V cols V' cols') :
    ∃ W W', stepCol (dblArith log) T σ V c = .ok W ∧ stepCol (dblArith log) T' σ' V' c = .ok W' ∧
      Paired log T T' (k + 2) (s ++ [c]) W (V :: cols) W' (V' :: cols') ∧
      ∀ y w w', W.get? y = some w → W'.get? y = some w' → ∃ (f : ℚ) (x : PState), w.1 = (f : WithBot ℚ) ∧ w.2 = some x ∧ Allowed T s x ∧
        (Low f → w = w') ∧ (NoEmission T c → Low f) ∧
        ((∀ x v, V.get? x = some v → ∃ g : ℚ, v.1 = (g : WithBot ℚ) ∧ Low g) → Low f) := by
  obtain ⟨W, h1, h2⟩ := colFor_step (dblArith log) (dbl_mono log) T ok σ hσ s hne V cols c h.left
  obtain ⟨W', h1', h2'⟩ := colFor_step (dblArith log) (dbl_mono log) T' ok' σ' hσ' s hne V' cols' c h.right
  have key : ∀ y w w', W.get? y = some w → W'.get? y = some w' →
      ∃ (f f' : ℚ) (x : PState), w.1 = (f : WithBot ℚ) ∧ w'.1 = (f' : WithBot ℚ) ∧ Agree (k + 2) f f' ∧ w.2 = some x ∧ Allowed T s x ∧
      (Low f → w = w') ∧ (NoEmission T c → Low f) ∧
        ((∀ x v, V.get? x = some v → ∃ g : ℚ, v.1 = (g : WithBot ℚ) ∧ Low g) → Low f) := by
    intro y w w' hw hw'
    obtain ⟨x, vx, f, tx, p, e, a1, a2, a3, a4, a5, a6, a7, a8⟩ := (stepCol_val _ T ok σ hσ V c h.left.ok W h1).2 y w hw
    obtain ⟨x', vx', f', tx', p', e', b1, b2, b3, b4, b5, b6, b7, b8⟩ := (stepCol_val _ T' ok' σ' hσ' V' c h.right.ok W' h1').2 y w' hw'
    -- the predecessor chosen by one table, in the other
    have hx := allowed_of_get h.left x vx a2
    have hx' := allowed_of_get h.right x' vx' b2
    obtain ⟨g', bg', c2'⟩ := col_val h.right x ((allowed_same hs _ _).mp hx)
    obtain ⟨g, bg, c2⟩ := col_val h.left x' ((allowed_same hs _ _).mpr hx')
    obtain ⟨tx2, d4', d5'⟩ := (hs.edges x y).mp ⟨tx, a4, by rw [PyDict.has_iff]; exact ⟨p, a5⟩⟩
    obtain ⟨tx3, d4, d5⟩ := (hs.edges x' y).mpr ⟨tx', b4, by rw [PyDict.has_iff]; exact ⟨p', b5⟩⟩
    rw [PyDict.has_iff] at d5 d5'
    obtain ⟨q, d5⟩ := d5
    obtain ⟨q', d5'⟩ := d5'
    obtain ⟨l1, l2⟩ := a8 x' _ g tx3 q e c2 rfl d4 d5 a6
    obtain ⟨l1', l2'⟩ := b8 x _ g' tx2 q' e' c2' rfl d4' d5' b6
    obtain ⟨fa, fa', u1, u2, u3⟩ := h.agree x vx _ a2 c2'
    have : fa = f := by rw [a3] at u1; exact (WithBot.coe_injective u1).symm
    subst this
    have : fa' = g' := (WithBot.coe_injective u2).symm
    subst this
    obtain ⟨fb, fb', w1, w2, w3⟩ := h.agree x' _ vx' c2 b2
    have : fb = g := (WithBot.coe_injective w1).symm
    subst this
    have : fb' = f' := by rw [b3] at w2; exact (WithBot.coe_injective w2).symm
    subst this
    obtain ⟨C, CN⟩ := agree_emit hT hT' hs a6 b6 (agree_add u3 (hT.trans x tx y p a4 a5) (hT'.trans x tx2 y q' d4' d5') (by omega)) (by omega)
    obtain ⟨D, -⟩ := agree_emit hT hT' hs a6 b6 (agree_add w3 (hT.trans x' tx3 y q d4 d5) (hT'.trans x' tx' y p' b4 b5) (by omega)) (by omega)
    change rnd (rnd (fb + q) + e) ≤ rnd (rnd (fa + p) + e) at l1
    change rnd (rnd (fb + q) + e) = rnd (rnd (fa + p) + e) → _ at l2
    change rnd (rnd (fa' + q') + e') ≤ rnd (rnd (fb' + p') + e') at l1'
    change rnd (rnd (fa' + q') + e') = rnd (rnd (fb' + p') + e') → _ at l2'
    change w.1 = ((rnd (rnd (fa + p) + e) : ℚ) : WithBot ℚ) at a7
    change w'.1 = ((rnd (rnd (fb' + p') + e') : ℚ) : WithBot ℚ) at b7
    -- if the predecessor is low, so is the new score
    have CC : High k fa ∨ Low (rnd (rnd (fa + p) + e)) := by
      rcases u3 with ⟨hh, -⟩ | ⟨-, hh⟩
      · exact Or.inl hh
      · right
        rw [low_add hh (hT.trans x tx y p a4 a5)]
        rcases emits_cases hT hT' hs a6 b6 with ⟨r1, -, -⟩ | ⟨rfl, -⟩
        · rw [low_add hh r1]; exact hh
        · exact low_min hh
    generalize rnd (rnd (fa + p) + e) = vC at *
    generalize rnd (rnd (fa' + q') + e') = vC' at *
    generalize rnd (rnd (fb + q) + e) = vD at *
    generalize rnd (rnd (fb' + p') + e') = vD' at *
    have hxs : Low vC → w = w' := by
      intro hl
      have hCC : vC = vC' := by
        rcases C with ⟨hh, -⟩ | ⟨hh, -⟩
        · exact absurd (low_lt_high hl hh (by omega)) (lt_irrefl _)
        · exact hh
      have hDD : vD = vD' := by
        rcases D with ⟨hh, -⟩ | ⟨hh, -⟩
        · exact absurd (lt_of_lt_of_le (low_lt_high hl hh (by omega)) l1) (lt_irrefl _)
        · exact hh
      have e1 : vD = vC := le_antisymm l1 (by rw [hCC, hDD]; exact l1')
      have e2 : vC' = vD' := by rw [← hCC, ← hDD, e1]
      have hxx : x = x' := by
        rcases l2 e1 with h3 | h3
        · exact h3.symm
        · rcases l2' e2 with h4 | h4
          · exact h4
          · rw [stateLt_iff] at h3 h4
            exact absurd h4 (smaller_asymm h3)
      refine Prod.ext ?_ ?_
      · rw [a7, b7, hCC, e2]
      · rw [a1, b1, hxx]
    have hag : Agree (k + 2) vC vD' := by
      by_cases hl : Low vC
      · have := hxs hl
        rw [this, b7] at a7
        right; exact ⟨(WithBot.coe_injective a7).symm, hl⟩
      · have hC := C.resolve_right (fun hh => hl hh.2)
        rcases D with ⟨-, hh⟩ | ⟨hh, hd⟩
        · exact Or.inl ⟨hC.1, hh⟩
        · rw [hh] at hd
          exact absurd (lt_of_lt_of_le (low_lt_high hd hC.2 (by omega)) l1') (lt_irrefl _)
    refine ⟨vC, vD', x, a7, b7, hag, a1, hx, hxs, CN, ?_⟩
    intro hlow
    obtain ⟨g0, hg0, hl0⟩ := hlow x vx a2
    have hfa : g0 = fa := by rw [a3] at hg0; exact (WithBot.coe_injective hg0).symm
    subst hfa
    rcases CC with hh | hh
    · exact absurd (low_lt_high hl0 hh (by omega)) (lt_irrefl _)
    · exact hh
  refine ⟨W, W', h1, h1', ⟨h2, h2', ?_⟩, ?_⟩
  · intro y w w' hw hw'
    obtain ⟨f, f', x, a, b, c, -⟩ := key y w w' hw hw'
    exact ⟨f, f', a, b, c⟩
  · intro y w w' hw hw'
    obtain ⟨f, f', x, a, b, c, d, e, g, i, j⟩ := key y w w' hw hw'
    exact ⟨f, x, a, d, e, g, i, j⟩

/-- The first column points nowhere. -/
theorem initCol_none {A : Arith ℚ} {T : Tables ℚ} {c : Ch} {V : Col ℚ} (h : initCol A T c = .ok V) (y : PState) (v) (hv : V.get? y = some v) :
    v.2 = none := by
  have key : ∀ (l : List PState) (d V : Col ℚ), l.foldlM (initOne A T c) d = .ok V → (∀ y v, d.get? y = some v → v.2 = none) →
      ∀ y v, V.get? y = some v → v.2 = none := by
    intro l
    induction l with
    | nil => intro d V h hd; simp [pure, Except.pure] at h; subst h; exact hd
    | cons z l ih =>
      intro d V h hd
      rw [List.foldlM_cons] at h
      cases h1 : initOne A T c d z with
      | error e => rw [h1] at h; cases h
      | ok d' =>
        rw [h1] at h
        refine ih d' V h ?_
        unfold initOne at h1
        cases h2 : look T.start z with
        | error e => rw [h2] at h1; cases h1
        | ok s =>
          rw [h2] at h1
          cases h3 : look T.emit z with
          | error e => rw [h3] at h1; cases h1
          | ok em =>
            rw [h3] at h1
            simp only [bind, Except.bind, pure, Except.pure] at h1
            injection h1 with h1
            intro y v hv
            rw [← h1, PyDict.get?_set] at hv
            split at hv
            · injection hv with hv; rw [← hv]
            · exact hd y v hv
  exact key (statesFor T c) [] V h (by simp [PyDict.get?]) y v hv

theorem backtrace_cons {W V : Col ℚ} {cols : List (Col ℚ)} {y x : PState} {w : WithBot ℚ × Option PState} {r : List PState}
    (hw : W.get? y = some w) (hx : w.2 = some x) (hr : backtrace (V :: cols) x = .ok r) : backtrace (W :: V :: cols) y = .ok (r ++ [y]) := by
  unfold backtrace
  rw [(look_ok _ _ _).mpr hw]
  simp only [bind, Except.bind]
  rw [hx]
  simp only []
  rw [hr]
  rfl

/-- From a character without emission probabilities on: the columns are the same, and so are the last `n` states of the paths. -/
structure Merged (log : Nat → ℚ) (T T' : Tables ℚ) (k n : ℕ) (s : Str) (V : Col ℚ) (cols : List (Col ℚ)) (V' : Col ℚ) (cols' : List (Col ℚ)) :
    Prop where
  pair : Paired log T T' k s V cols V' cols'
  same : ∀ y v v', V.get? y = some v → V'.get? y = some v' → v = v'
  low : ∀ y v, V.get? y = some v → ∃ f : ℚ, v.1 = (f : WithBot ℚ) ∧ Low f
  tail : ∀ y, Allowed T s y → ∃ ys ys' tl, backtrace (V :: cols) y = .ok (ys ++ tl) ∧ backtrace (V' :: cols') y = .ok (ys' ++ tl) ∧ tl.length = n

theorem merged_step (hT : PosModerate T) (hT' : PosModerate T') (hs : SameShape T T') (ok : TablesOK T) (ok' : TablesOK T')
    (σ σ' : List PState → List PState) (hσ : ∀ l, (σ l).Perm l) (hσ' : ∀ l, (σ' l).Perm l) (k n : ℕ) (hk : k + 2 ≤ 2 ^ 53)
    (s : Str) (hne : s ≠ []) (V V' : Col ℚ) (cols cols' : List (Col ℚ)) (c : Ch) (h : Merged log T T' k n s V cols V' cols') :
    ∃ W W', stepCol (dblArith log) T σ V c = .ok W ∧ stepCol (dblArith log) T' σ' V' c = .ok W' ∧
      Merged log T T' (k + 2) (n + 1) (s ++ [c]) W (V :: cols) W' (V' :: cols') := by
  obtain ⟨W, W', h1, h1', h2, h3⟩ := paired_step hT hT' hs ok ok' σ σ' hσ hσ' k hk s hne V V' cols cols' c h.pair
  refine ⟨W, W', h1, h1', h2, ?_, ?_, ?_⟩
  · intro y v v' hv hv'
    obtain ⟨f, x, a, b, c, d, e, g⟩ := h3 y v v' hv hv'
    exact d (g h.low)
  · intro y v hv
    obtain ⟨f', b', hv'⟩ := col_val h2.right y ((allowed_same hs _ _).mp (allowed_of_get h2.left y v hv))
    obtain ⟨f, x, a, b, c, d, e, g⟩ := h3 y v _ hv hv'
    exact ⟨f, a, g h.low⟩
  · intro y hy
    obtain ⟨f0, b0, hv⟩ := col_val h2.left y hy
    obtain ⟨f', b', hv'⟩ := col_val h2.right y ((allowed_same hs _ _).mp hy)
    obtain ⟨f, x, a, b, c, d, e, g⟩ := h3 y _ _ hv hv'
    have heq := d (g h.low)
    obtain ⟨ys, ys', tl, e1, e2, e3⟩ := h.tail x c
    refine ⟨ys, ys', tl ++ [y], ?_, ?_, by simp [e3]⟩
    · rw [← List.append_assoc]; exact backtrace_cons hv b e1
    · rw [← List.append_assoc]; exact backtrace_cons hv' (by rw [← heq]; exact b) e2

/-- The first unknown character after known ones. -/
theorem merged_first (hT : PosModerate T) (hT' : PosModerate T') (hs : SameShape T T') (ok : TablesOK T) (ok' : TablesOK T')
    (σ σ' : List PState → List PState) (hσ : ∀ l, (σ l).Perm l) (hσ' : ∀ l, (σ' l).Perm l) (k : ℕ) (hk : k + 2 ≤ 2 ^ 53)
    (s : Str) (hne : s ≠ []) (V V' : Col ℚ) (cols cols' : List (Col ℚ)) (c : Ch) (hc : NoEmission T c) (h : Paired log T T' k s V cols V' cols') :
    ∃ W W', stepCol (dblArith log) T σ V c = .ok W ∧ stepCol (dblArith log) T' σ' V' c = .ok W' ∧
      Merged log T T' (k + 2) 2 (s ++ [c]) W (V :: cols) W' (V' :: cols') := by
  obtain ⟨W, W', h1, h1', h2, h3⟩ := paired_step hT hT' hs ok ok' σ σ' hσ hσ' k hk s hne V V' cols cols' c h
  refine ⟨W, W', h1, h1', h2, ?_, ?_, ?_⟩
  · intro y v v' hv hv'
    obtain ⟨f, x, a, b, c, d, e, g⟩ := h3 y v v' hv hv'
    exact d (e hc)
  · intro y v hv
    obtain ⟨f', b', hv'⟩ := col_val h2.right y ((allowed_same hs _ _).mp (allowed_of_get h2.left y v hv))
    obtain ⟨f, x, a, b, c, d, e, g⟩ := h3 y v _ hv hv'
    exact ⟨f, a, e hc⟩
  · intro y hy
    obtain ⟨f0, b0, hv⟩ := col_val h2.left y hy
    obtain ⟨f', b', hv'⟩ := col_val h2.right y ((allowed_same hs _ _).mp hy)
    obtain ⟨f, x, a, b, c, d, e, g⟩ := h3 y _ _ hv hv'
    have heq := d (e hc)
    obtain ⟨fx, bx, hx⟩ := col_val h.left x c
    obtain ⟨fx', bx', hx'⟩ := col_val h.right x ((allowed_same hs _ _).mp c)
    obtain ⟨-, ys, -, e1, -⟩ := h.left.best x _ hx
    obtain ⟨-, ys', -, e2, -⟩ := h.right.best x _ hx'
    refine ⟨ys, ys', [x, y], ?_, ?_, rfl⟩
    · have := backtrace_cons hv b e1
      rw [this]; simp
    · have := backtrace_cons hv' (by rw [← heq]; exact b) e2
      rw [this]; simp

theorem merged_columns (hT : PosModerate T) (hT' : PosModerate T') (hs : SameShape T T') (ok : TablesOK T) (ok' : TablesOK T')
    (σ σ' : Nat → List PState → List PState) (hσ : ∀ t l, (σ t l).Perm l) (hσ' : ∀ t l, (σ' t l).Perm l) (b : Str) (t t' k n : ℕ) (hk : k + 2 * b.length ≤ 2 ^ 53)
    (s : Str) (hne : s ≠ []) (V V' : Col ℚ) (cols cols' : List (Col ℚ)) (h : Merged log T T' k n s V cols V' cols') :
    ∃ W r W' r', columns (dblArith log) T σ t b (V :: cols) = .ok (W :: r) ∧ columns (dblArith log) T' σ' t' b (V' :: cols') = .ok (W' :: r') ∧
      Merged log T T' (k + 2 * b.length) (n + b.length) (s ++ b) W r W' r' := by
  induction b generalizing t t' k n s V V' cols cols' with
  | nil => exact ⟨V, cols, V', cols', by simp [columns], by simp [columns], by simpa using h⟩
  | cons c b ih =>
    rw [List.length_cons] at hk
    obtain ⟨W, W', h1, h1', h2⟩ := merged_step hT hT' hs ok ok' (σ t) (σ' t') (hσ t) (hσ' t') k n (by omega) s hne V V' cols cols' c h
    obtain ⟨X, r, X', r', h3, h3', h4⟩ := ih (t + 1) (t' + 1) (k + 2) (n + 1) (by omega) (s ++ [c]) (by simp) W W' (V :: cols) (V' :: cols') h2
    refine ⟨X, r, X', r', ?_, ?_, ?_⟩
    · unfold columns; rw [h1]; exact h3
    · unfold columns; rw [h1']; exact h3'
    · have e1 : k + 2 * (c :: b).length = k + 2 + 2 * b.length := by simp; omega
      have e2 : n + (c :: b).length = n + 1 + b.length := by simp; omega
      rw [e1, e2]; simpa using h4

theorem paired_columns (hT : PosModerate T) (hT' : PosModerate T') (hs : SameShape T T') (ok : TablesOK T) (ok' : TablesOK T')
    (σ σ' : Nat → List PState → List PState) (hσ : ∀ t l, (σ t l).Perm l) (hσ' : ∀ t l, (σ' t l).Perm l) (a : Str) (c : Ch) (hc : NoEmission T c) (b : Str)
    (t t' k : ℕ) (hk : k + 2 * (a.length + 1 + b.length) ≤ 2 ^ 53)
    (s : Str) (hne : s ≠ []) (V V' : Col ℚ) (cols cols' : List (Col ℚ)) (h : Paired log T T' k s V cols V' cols') :
    ∃ W r W' r' k, columns (dblArith log) T σ t (a ++ c :: b) (V :: cols) = .ok (W :: r) ∧
      columns (dblArith log) T' σ' t' (a ++ c :: b) (V' :: cols') = .ok (W' :: r') ∧
      Merged log T T' k (2 + b.length) (s ++ (a ++ c :: b)) W r W' r' := by
  induction a generalizing t t' k s V V' cols cols' with
  | nil =>
    simp only [List.length_nil] at hk
    obtain ⟨W, W', h1, h1', h2⟩ := merged_first hT hT' hs ok ok' (σ t) (σ' t') (hσ t) (hσ' t') k (by omega) s hne V V' cols cols' c hc h
    obtain ⟨X, r, X', r', h3, h3', h4⟩ := merged_columns hT hT' hs ok ok' σ σ' hσ hσ' b (t + 1) (t' + 1) (k + 2) 2 (by omega) (s ++ [c]) (by simp) W W'
      (V :: cols) (V' :: cols') h2
    refine ⟨X, r, X', r', _, ?_, ?_, by simpa using h4⟩
    · show columns _ _ _ _ (c :: b) _ = _
      unfold columns; rw [h1]; exact h3
    · show columns _ _ _ _ (c :: b) _ = _
      unfold columns; rw [h1']; exact h3'
  | cons d a ih =>
    rw [List.length_cons] at hk
    obtain ⟨W, W', h1, h1', h2, -⟩ := paired_step hT hT' hs ok ok' (σ t) (σ' t') (hσ t) (hσ' t') k (by omega) s hne V V' cols cols' d h
    obtain ⟨X, r, X', r', k', h3, h3', h4⟩ := ih (t + 1) (t' + 1) (k + 2) (by omega) (s ++ [d]) (by simp) W W' (V :: cols) (V' :: cols') h2
    refine ⟨X, r, X', r', k', ?_, ?_, by simpa using h4⟩
    · show columns _ _ _ _ (d :: (a ++ c :: b)) _ = _
      unfold columns; rw [h1]; exact h3
    · show columns _ _ _ _ (d :: (a ++ c :: b)) _ = _
      unfold columns; rw [h1']; exact h3'

/-- The last step: the best state of equal columns. -/
theorem merged_best {k n : ℕ} {s : Str} {V V' : Col ℚ} {cols cols' : List (Col ℚ)} (hs : SameShape T T') (h : Merged log T T' k n s V cols V' cols')
    (b b' : WithBot ℚ × PState) (hb : maxState (V.map (fun kv => (kv.2.1, kv.1))) = .ok b)
    (hb' : maxState (V'.map (fun kv => (kv.2.1, kv.1))) = .ok b') : b = b' ∧ Allowed T s b.2 := by
  obtain ⟨m1, m2⟩ := maxState_spec _ _ hb
  obtain ⟨m1', m2'⟩ := maxState_spec _ _ hb'
  have get : ∀ {V : Col ℚ} (hn : (PyDict.keys V).Nodup) {q : WithBot ℚ × PState}, q ∈ V.map (fun kv => (kv.2.1, kv.1)) ↔ ∃ v, V.get? q.2 = some v ∧ q.1 = v.1 := by
    intro V hn q
    rw [List.mem_map]
    constructor
    · rintro ⟨kv, h1, rfl⟩
      exact ⟨kv.2, (PyDict.get?_eq_some_iff_mem _ hn _ _).mpr h1, rfl⟩
    · rintro ⟨v, h1, h2⟩
      exact ⟨(q.2, v), (PyDict.get?_eq_some_iff_mem _ hn _ _).mp h1, by simp [← h2]⟩
  have hmem : ∀ q, q ∈ V.map (fun kv => (kv.2.1, kv.1)) ↔ q ∈ V'.map (fun kv => (kv.2.1, kv.1)) := by
    intro q
    rw [get h.pair.left.ok.nodup, get h.pair.right.ok.nodup]
    constructor
    · rintro ⟨v, h1, h2⟩
      obtain ⟨f', b', hv'⟩ := col_val h.pair.right q.2 ((allowed_same hs _ _).mp (allowed_of_get h.pair.left _ v h1))
      exact ⟨_, hv', by rw [h2, h.same _ _ _ h1 hv']⟩
    · rintro ⟨v, h1, h2⟩
      obtain ⟨f', b', hv'⟩ := col_val h.pair.left q.2 ((allowed_same hs _ _).mpr (allowed_of_get h.pair.right _ v h1))
      exact ⟨_, hv', by rw [h2, h.same _ _ _ hv' h1]⟩
  obtain ⟨l1, l2⟩ := tupLt_false (m2 b' ((hmem _).mpr m1'))
  obtain ⟨l1', l2'⟩ := tupLt_false (m2' b ((hmem _).mp m1))
  have e : b'.1 = b.1 := le_antisymm l1 l1'
  constructor
  · refine Prod.ext e.symm ?_
    rcases l2 e with h3 | h3
    · exact h3.symm
    · rcases l2' e.symm with h4 | h4
      · exact h4
      · rw [stateLt_iff] at h3 h4
        exact absurd h4 (smaller_asymm h3)
  · obtain ⟨v, h1, -⟩ := (get h.pair.left.ok.nodup).mp m1
    exact allowed_of_get h.pair.left _ v h1

theorem viterbi_merged (hT : PosModerate T) (hT' : PosModerate T') (hs : SameShape T T') (ok : TablesOK T) (ok' : TablesOK T')
    (σ σ' : Nat → List PState → List PState) (hσ : ∀ t l, (σ t l).Perm l) (hσ' : ∀ t l, (σ' t l).Perm l) (a : Str) (c : Ch) (hc : NoEmission T c) (b : Str)
    (hlen : (a ++ c :: b).length ≤ 2 ^ 50) :
    ∃ v ys ys' tl, viterbi (dblArith log) T σ (a ++ c :: b) = .ok (v, ys ++ tl) ∧ viterbi (dblArith log) T' σ' (a ++ c :: b) = .ok (v, ys' ++ tl) ∧
      tl.length = min 1 a.length + 1 + b.length := by
  have fin : ∀ (x : Ch) (xs : Str) (V V' : Col ℚ) (W r W' r' k n), initCol (dblArith log) T x = .ok V → initCol (dblArith log) T' x = .ok V' →
      columns (dblArith log) T σ 1 xs [V] = .ok (W :: r) → columns (dblArith log) T' σ' 1 xs [V'] = .ok (W' :: r') →
      Merged log T T' k n (x :: xs) W r W' r' →
      ∃ v ys ys' tl, viterbi (dblArith log) T σ (x :: xs) = .ok (v, ys ++ tl) ∧ viterbi (dblArith log) T' σ' (x :: xs) = .ok (v, ys' ++ tl) ∧
        tl.length = n := by
    intro x xs V V' W r W' r' k n h1 h1' h2 h2' h3
    have ne : ∀ {T : Tables ℚ} {W : Col ℚ} {r}, ColFor (dblArith log) T (x :: xs) W r → W.map (fun kv => (kv.2.1, kv.1)) ≠ [] := by
      intro T W r hc e
      obtain ⟨y, hy, -⟩ := hc.ok.live
      rw [List.map_eq_nil_iff] at e; rw [e] at hy; simp [PyDict.keys] at hy
    obtain ⟨best, hb⟩ := maxState_exists _ (ne h3.pair.left)
    obtain ⟨best', hb'⟩ := maxState_exists _ (ne h3.pair.right)
    obtain ⟨rfl, hal⟩ := merged_best hs h3 best best' hb hb'
    obtain ⟨ys, ys', tl, e1, e2, e3⟩ := h3.tail best.2 hal
    refine ⟨best.1, ys, ys', tl, ?_, ?_, e3⟩
    · simp only [viterbi, h1, bind, Except.bind, h2, List.headD_cons, hb, e1, pure, Except.pure]
    · simp only [viterbi, h1', bind, Except.bind, h2', List.headD_cons, hb', e2, pure, Except.pure]
  cases a with
  | nil =>
    obtain ⟨V, V', h1, h1', h2, h3⟩ := paired_init (log := log) hT hT' hs ok ok' c
    have hm : Merged log T T' 3 1 [c] V [] V' [] := by
      refine ⟨h2, ?_, h3 hc, ?_⟩
      · intro y v v' hv hv'
        obtain ⟨f, f', e1, e2, e3⟩ := h2.agree y v v' hv hv'
        obtain ⟨f2, e4, e5⟩ := h3 hc y v hv
        have : f2 = f := by rw [e1] at e4; exact (WithBot.coe_injective e4).symm
        subst this
        refine Prod.ext ?_ ?_
        · rcases e3 with ⟨hh, -⟩ | ⟨hh, -⟩
          · exact absurd (low_lt_high e5 hh (by norm_num)) (lt_irrefl _)
          · rw [e1, e2, hh]
        · rw [initCol_none h1 y v hv, initCol_none h1' y v' hv']
      · intro y hy
        obtain ⟨f, b, hv⟩ := col_val h2.left y hy
        obtain ⟨f', b', hv'⟩ := col_val h2.right y ((allowed_same hs _ _).mp hy)
        refine ⟨[], [], [y], ?_, ?_, rfl⟩
        · unfold backtrace; rw [(look_ok _ _ _).mpr hv]; rfl
        · unfold backtrace; rw [(look_ok _ _ _).mpr hv']; rfl
    simp only [List.nil_append, List.length_cons] at hlen
    obtain ⟨W, r, W', r', g1, g2, g3⟩ := merged_columns hT hT' hs ok ok' σ σ' hσ hσ' b 1 1 3 1 (by omega) [c] (by simp) V V' [] [] hm
    have := fin c b V V' W r W' r' _ _ h1 h1' g1 g2 (by simpa using g3)
    simpa using this
  | cons d a =>
    obtain ⟨V, V', h1, h1', h2, h3⟩ := paired_init (log := log) hT hT' hs ok ok' d
    simp only [List.cons_append, List.length_append, List.length_cons] at hlen
    obtain ⟨W, r, W', r', k, g1, g2, g3⟩ := paired_columns hT hT' hs ok ok' σ σ' hσ hσ' a c hc b 1 1 3 (by omega) [d] (by simp) V V' [] [] h2
    have := fin d (a ++ c :: b) V V' W r W' r' _ _ h1 h1' g1 g2 (by simpa using g3)
    simpa using this

end Jieba.Pos
