import Verif.Data.PosStart
import Verif.Proofs.PosData
import Verif.Proofs.PosUnknown
import Verif.Proofs.PosWords
/-!
# Helper lemmas: texts of which the POS tagger knows no character, in doubles
-/

set_option linter.unusedSectionVars false

namespace Jieba.Pos
open Jieba.Spec Jieba.PosData
open Jieba.FinalSeg (minFloat_dbl minFloat_large absorb_low)

variable {log : Nat → ℚ} {T : Tables ℚ}

/-- The sum of `j + 1` times -3.14e100. -/
def pen : ℕ → ℚ
  | 0 => minFloat
  | j + 1 => rnd (pen j + minFloat)

theorem pen_low (j : ℕ) : Low (pen j) := by
  induction j with
  | zero => exact low_minFloat
  | succ j ih => exact low_min ih

theorem minFloat_bounds : -2 ^ 334 ≤ minFloat ∧ minFloat ≤ -2 ^ 333 := by decide +kernel

theorem pen_bound (j : ℕ) (hj : j + 1 ≤ 2 ^ 53) : -(((j + 1 : ℕ) : ℚ) * 2 ^ 334) ≤ pen j := by
  induction j with
  | zero => rw [Nat.zero_add, Nat.cast_one, one_mul]; exact minFloat_bounds.1
  | succ j ih =>
    have h := ih (by omega)
    have hd : rnd ((((j + 1 + 1 : ℕ) : ℤ) : ℚ) * 2 ^ (334 : ℤ)) = (((j + 1 + 1 : ℕ) : ℤ) : ℚ) * 2 ^ (334 : ℤ) :=
      isDbl_of ((j + 1 + 1 : ℕ) : ℤ) 334 (by rw [abs_of_nonneg (by positivity)]; exact_mod_cast hj)
    rw [zpow_ofNat, Int.cast_natCast] at hd
    rw [← hd, ← rnd_neg]
    refine rnd_mono ?_
    have := minFloat_bounds.1
    generalize (2 : ℚ) ^ 334 = u at *
    push_cast at h ⊢
    linarith

theorem pen_lt (j : ℕ) (hj : j ≤ 2 ^ 51) : pen (j + 1) < pen j := by
  have h1 := pen_bound j (by omega)
  have h2 := (pen_low j).2
  have h3 := (abs_le.mp (rnd_err (pen j + minFloat))).2
  have h4 := minFloat_bounds
  have hu : (0 : ℚ) < 2 ^ 333 := pow_pos (by norm_num) _
  have e : (2 : ℚ) ^ 334 = 2 * 2 ^ 333 := by rw [pow_succ']
  rw [e] at h1 h4
  clear e
  generalize (2 : ℚ) ^ 333 = u at *
  have hm : minFloat < 0 := by linarith [h4.2]
  rw [abs_of_nonpos (by linarith)] at h3
  have h5 : ((j + 1 : ℕ) : ℚ) ≤ 2 ^ 51 + 1 := by exact_mod_cast Nat.succ_le_succ hj
  have h6 : ((j + 1 : ℕ) : ℚ) * (2 * u) ≤ (2 ^ 51 + 1) * (2 * u) := mul_le_mul_of_nonneg_right h5 (by linarith)
  have h7 : -(pen j + minFloat) / 2 ^ 53 ≤ (3 / 4) * u := by
    rw [div_le_iff₀ (by norm_num)]
    linarith [h4.1]
  show rnd (pen j + minFloat) < pen j
  linarith [h4.2]

/-- States that can be reached in `t` steps from a state that may begin a text. -/
def Reach (T : Tables ℚ) : ℕ → PState → Prop
  | 0, y => T.trans.has y = true ∧ ∃ p, T.start.get? y = some p ∧ p ≠ minFloat
  | t + 1, y => ∃ x, Reach T t x ∧ Edge T x y

theorem reach_has (ok : TablesOK T) (t : ℕ) (y : PState) (h : Reach T t y) : T.trans.has y = true := by
  cases t with
  | zero => exact h.1
  | succ t => obtain ⟨x, -, he⟩ := h; exact Live.has (ok.next x y he)

/-- The greatest of the states with the property. -/
def Greatest (P : PState → Prop) (y : PState) : Prop := P y ∧ ∀ x, P x → x = y ∨ Smaller x y

theorem Greatest.unique {P : PState → Prop} {x y : PState} (hx : Greatest P x) (hy : Greatest P y) : x = y := by
  rcases hx.2 y hy.1 with h | h
  · exact h.symm
  · rcases hy.2 x hx.1 with h' | h'
    · exact h'
    · exact absurd h' (smaller_asymm h)

/-- Back from a state, always to the greatest reachable predecessor. -/
inductive Back (T : Tables ℚ) : ℕ → PState → List PState → Prop
  | zero (y) : Back T 0 y [y]
  | succ (t x y r) : Greatest (fun x => Reach T t x ∧ Edge T x y) x → Back T t x r → Back T (t + 1) y (r ++ [y])

theorem Back.unique {t : ℕ} {y : PState} {r r' : List PState} (h : Back T t y r) (h' : Back T t y r') : r = r' := by
  induction h generalizing r' with
  | zero y => cases h'; rfl
  | succ t x y r hg _ ih =>
    cases h' with
    | succ _ x' _ r2 hg' hb' =>
      have := hg.unique hg'
      subst this
      rw [ih hb']

/-- Columns for strange characters. -/
structure Lev (log : Nat → ℚ) (T : Tables ℚ) (t : ℕ) (s : Str) (V : Col ℚ) (cols : List (Col ℚ)) : Prop where
  col : ColFor (dblArith log) T s V cols
  keys : ∀ y, Reach T t y → Allowed T s y
  val : ∀ y v, V.get? y = some v → ∃ f : ℚ, v.1 = (f : WithBot ℚ) ∧ (Reach T t y → f = pen t) ∧ (¬ Reach T t y → f ≤ pen (t + 1))
  back : ∀ y, Reach T t y → ∃ r, backtrace (V :: cols) y = .ok r ∧ Back T t y r

theorem strange_emits (hT : PosModerate T) {c : Ch} (hc : Strange T c) {y : PState} {e : ℚ} (h : Emits T y c e) : e = minFloat := by
  obtain ⟨em, h1, rfl⟩ := h
  rw [hc.1 y em h1]
  exact hT.min

theorem lev_init (hT : PosModerate T) (ok : TablesOK T) (c : Ch) (hc : Strange T c) :
    ∃ V, initCol (dblArith log) T c = .ok V ∧ Lev log T 0 [c] V [] := by
  obtain ⟨V, h1, h2⟩ := colFor_init (dblArith log) T ok c
  have hk : ∀ y, Reach T 0 y → Allowed T [c] y := fun y hy => Or.inr ⟨hc.2, hy.1⟩
  refine ⟨V, h1, h2, hk, ?_, ?_⟩
  · intro y v hv
    obtain ⟨p, e, g1, g2, g3⟩ := (initCol_val _ T c V h1).2 y v hv
    have he := strange_emits hT hc g2
    subst he
    refine ⟨_, g3, ?_, ?_⟩
    · rintro ⟨-, p', h3, h4⟩
      rw [g1] at h3
      injection h3 with h3
      subst h3
      have hp := (hT.start y p g1).resolve_left h4
      exact high_min (k := 1) (by unfold High; push_cast; linarith) (by norm_num)
    · intro hn
      have hal := allowed_of_get h2 y v hv
      have hh : T.trans.has y = true := by
        rcases hal with ⟨l, h3, -⟩ | ⟨-, h3⟩
        · rw [hc.2] at h3; cases h3
        · exact h3
      have : p = minFloat := by
        by_contra hp
        exact hn ⟨hh, p, g1, hp⟩
      subst this
      exact le_refl _
  · intro y hy
    obtain ⟨f, b, hv⟩ := col_val h2 y (hk y hy)
    refine ⟨[y], ?_, .zero y⟩
    unfold backtrace; rw [(look_ok _ _ _).mpr hv]; rfl

theorem lev_step (hT : PosModerate T) (ok : TablesOK T) (σ : List PState → List PState) (hσ : ∀ l, (σ l).Perm l) (t : ℕ) (ht : t + 1 ≤ 2 ^ 51)
    (s : Str) (hne : s ≠ []) (V : Col ℚ) (cols : List (Col ℚ)) (c : Ch) (hc : Strange T c) (h : Lev log T t s V cols) :
    ∃ W, stepCol (dblArith log) T σ V c = .ok W ∧ Lev log T (t + 1) (s ++ [c]) W (V :: cols) := by
  obtain ⟨W, h1, h2⟩ := colFor_step (dblArith log) (dbl_mono log) T ok σ hσ s hne V cols c h.col
  have hk : ∀ y, Reach T (t + 1) y → Allowed T (s ++ [c]) y := by
    intro y hy
    rw [allowed_snoc T s hne]
    have hh := reach_has ok _ _ hy
    obtain ⟨x, hx, he⟩ := hy
    exact ⟨⟨x, h.keys x hx, he⟩, Or.inl (Or.inr ⟨hc.2, hh⟩)⟩
  -- a candidate
  have cand : ∀ (x y : PState) vx (f : ℚ) tx p e, V.get? x = some vx → vx.1 = (f : WithBot ℚ) → T.trans.get? x = some tx → tx.get? y = some p →
      Emits T y c e → (Reach T t x → rnd (rnd (f + p) + e) = pen (t + 1)) ∧ (¬ Reach T t x → rnd (rnd (f + p) + e) ≤ pen (t + 2)) := by
    intro x y vx f tx p e a2 a3 a4 a5 a6
    have he := strange_emits hT hc a6
    subst he
    have hp := hT.trans x tx y p a4 a5
    obtain ⟨f', b1, b2, b3⟩ := h.val x vx a2
    have : f' = f := by rw [a3] at b1; exact (WithBot.coe_injective b1).symm
    subst this
    constructor
    · intro hr
      rw [b2 hr, low_add (pen_low t) hp]
      rfl
    · intro hr
      have h5 : rnd (f' + p) ≤ pen (t + 1) := by
        have : rnd (f' + p) ≤ rnd (pen (t + 1) + p) := rnd_mono (by linarith [b3 hr])
        rwa [low_add (pen_low (t + 1)) hp] at this
      exact rnd_mono (by linarith)
  have key : ∀ y w, W.get? y = some w → ∃ (f : ℚ) (x : PState), w.1 = (f : WithBot ℚ) ∧ w.2 = some x ∧
      (Reach T (t + 1) y → f = pen (t + 1) ∧ Greatest (fun x => Reach T t x ∧ Edge T x y) x) ∧ (¬ Reach T (t + 1) y → f ≤ pen (t + 2)) := by
    intro y w hw
    obtain ⟨x, vx, f, tx, p, e, a1, a2, a3, a4, a5, a6, a7, a8⟩ := (stepCol_val _ T ok σ hσ V c h.col.ok W h1).2 y w hw
    change w.1 = ((rnd (rnd (f + p) + e) : ℚ) : WithBot ℚ) at a7
    have hxe : Edge T x y := ⟨tx, a4, by rw [PyDict.has_iff]; exact ⟨p, a5⟩⟩
    obtain ⟨k1, k2⟩ := cand x y vx f tx p e a2 a3 a4 a5 a6
    refine ⟨_, x, a7, a1, ?_, ?_⟩
    · intro hr
      -- another reachable predecessor
      have other : ∀ x', Reach T t x' → Edge T x' y → pen (t + 1) ≤ rnd (rnd (f + p) + e) ∧
          (pen (t + 1) = rnd (rnd (f + p) + e) → x' = x ∨ Smaller x' x) := by
        rintro x' hx' ⟨tx', b4, b5⟩
        rw [PyDict.has_iff] at b5
        obtain ⟨p', b5⟩ := b5
        obtain ⟨f', bb, b2⟩ := col_val h.col x' (h.keys x' hx')
        obtain ⟨l1, l2⟩ := a8 x' _ f' tx' p' e b2 rfl b4 b5 a6
        change rnd (rnd (f' + p') + e) ≤ rnd (rnd (f + p) + e) at l1
        change rnd (rnd (f' + p') + e) = rnd (rnd (f + p) + e) → _ at l2
        rw [(cand x' y _ f' tx' p' e b2 rfl b4 b5 a6).1 hx'] at l1 l2
        exact ⟨l1, fun hh => (l2 hh).imp_right (stateLt_iff _ _).mp⟩
      have hxr : Reach T t x := by
        by_contra hn
        obtain ⟨x', hx', he'⟩ := hr
        have := (other x' hx' he').1
        have := k2 hn
        have := pen_lt (t + 1) ht
        have e2 : pen (t + 1 + 1) = pen (t + 2) := rfl
        linarith
      refine ⟨k1 hxr, ⟨hxr, hxe⟩, ?_⟩
      rintro x' ⟨hx', he'⟩
      exact (other x' hx' he').2 (k1 hxr).symm
    · intro hn
      exact k2 (fun hx => hn ⟨x, hx, hxe⟩)
  refine ⟨W, h1, h2, hk, ?_, ?_⟩
  · intro y w hw
    obtain ⟨f, x, a, b, c, d⟩ := key y w hw
    exact ⟨f, a, fun hr => (c hr).1, d⟩
  · intro y hy
    obtain ⟨f0, b0, hv⟩ := col_val h2 y (hk y hy)
    obtain ⟨f, x, a, b, c, -⟩ := key y _ hv
    obtain ⟨-, hg⟩ := c hy
    obtain ⟨r, e1, e2⟩ := h.back x hg.1.1
    exact ⟨r ++ [y], backtrace_cons hv b e1, .succ t x y r hg e2⟩

theorem lev_columns (hT : PosModerate T) (ok : TablesOK T) (σ : Nat → List PState → List PState) (hσ : ∀ t l, (σ t l).Perm l) (b : Str) (u t : ℕ)
    (ht : t + b.length ≤ 2 ^ 51) (s : Str) (hne : s ≠ []) (V : Col ℚ) (cols : List (Col ℚ)) (hb : ∀ c ∈ b, Strange T c) (h : Lev log T t s V cols) :
    ∃ W r, columns (dblArith log) T σ u b (V :: cols) = .ok (W :: r) ∧ Lev log T (t + b.length) (s ++ b) W r := by
  induction b generalizing u t s V cols with
  | nil => exact ⟨V, cols, by simp [columns], by simpa using h⟩
  | cons c b ih =>
    rw [List.length_cons] at ht
    obtain ⟨W, h1, h2⟩ := lev_step hT ok (σ u) (hσ u) t (by omega) s hne V cols c (hb c (by simp)) h
    obtain ⟨X, r, h3, h4⟩ := ih (u + 1) (t + 1) (by omega) (s ++ [c]) (by simp) W (V :: cols) (fun c hc => hb c (by simp [hc])) h2
    refine ⟨X, r, ?_, ?_⟩
    · unfold columns; rw [h1]; exact h3
    · have e : t + (c :: b).length = t + 1 + b.length := by simp; omega
      rw [e]; simpa using h4

/-- The states for a text of strange characters. -/
theorem viterbi_strange (hT : PosModerate T) (ok : TablesOK T) (σ : Nat → List PState → List PState) (hσ : ∀ t l, (σ t l).Perm l) (s : Str) (hne : s ≠ [])
    (hs : ∀ c ∈ s, Strange T c) (hlen : s.length ≤ 2 ^ 50) (y : PState) (r : List PState) (hy : Greatest (Reach T (s.length - 1)) y)
    (hr : Back T (s.length - 1) y r) : ∃ v, viterbi (dblArith log) T σ s = .ok (v, r) := by
  cases s with
  | nil => exact absurd rfl hne
  | cons c b =>
    simp only [List.length_cons, Nat.add_sub_cancel] at hy hr hlen
    obtain ⟨V, h1, h2⟩ := lev_init (log := log) hT ok c (hs c (by simp))
    obtain ⟨W, cols, h3, h4⟩ := lev_columns hT ok σ hσ b 1 0 (by omega) [c] (by simp) V [] (fun c hc => hs c (by simp [hc])) h2
    rw [Nat.zero_add] at h4
    have ne : W.map (fun kv => (kv.2.1, kv.1)) ≠ [] := by
      intro e
      obtain ⟨y, hy, -⟩ := h4.col.ok.live
      rw [List.map_eq_nil_iff] at e; rw [e] at hy; simp [PyDict.keys] at hy
    obtain ⟨best, hb⟩ := maxState_exists _ ne
    obtain ⟨m1, m2⟩ := maxState_spec _ _ hb
    obtain ⟨f, bk, hv⟩ := col_val h4.col y (h4.keys y hy.1)
    obtain ⟨l1, l2⟩ := tupLt_false (m2 ((f : WithBot ℚ), y) (by
      rw [List.mem_map]; exact ⟨(y, ((f : WithBot ℚ), bk)), (PyDict.get?_eq_some_iff_mem _ h4.col.ok.nodup _ _).mp hv, rfl⟩))
    obtain ⟨f', e1, e2, -⟩ := h4.val y _ hv
    have hff : f = f' := WithBot.coe_injective e1
    subst hff
    have hf := e2 hy.1
    rw [List.mem_map] at m1
    obtain ⟨kv, hkv, hbe⟩ := m1
    obtain ⟨g, g1, g2, g3⟩ := h4.val kv.1 kv.2 ((PyDict.get?_eq_some_iff_mem _ h4.col.ok.nodup _ _).mpr hkv)
    have hb1 : best.1 = (g : WithBot ℚ) := by rw [← hbe]; exact g1
    have hb2 : best.2 = kv.1 := by rw [← hbe]
    have hle : f ≤ g := by
      have := l1
      simp only [hb1] at this
      exact_mod_cast this
    have hreach : Reach T b.length kv.1 := by
      by_contra hn
      have := g3 hn
      have := pen_lt b.length (by omega)
      linarith
    have hbest : best.2 = y := by
      have hfg : f = g := by rw [hf, g2 hreach]
      rcases l2 (by rw [hb1, hfg]) with h5 | h5
      · exact h5.symm
      · rcases hy.2 kv.1 hreach with h6 | h6
        · rw [hb2]; exact h6
        · rw [stateLt_iff, hb2] at h5
          exact absurd h6 (smaller_asymm h5)
    obtain ⟨r', k1, k2⟩ := h4.back y hy.1
    have := hr.unique k2
    subst this
    refine ⟨best.1, ?_⟩
    simp only [viterbi, h1, bind, Except.bind, h3, List.headD_cons, hb, hbest, k1, pure, Except.pure]

/-! ## The shipped tables -/

theorem stateAt_lt (i j : ℕ) (hij : i < j) (hj : j < 256) : Smaller (stateAt i) (stateAt j) := by
  have : IsTrans PState (fun a b => stateLt a b = true) := ⟨fun a b c => stateLt_total.trans a b c⟩
  have h := List.isChain_iff_pairwise (R := fun a b => stateLt a b = true) (l := states) |>.mp states_chain
  rw [List.pairwise_iff_getElem] at h
  have h1 : i < states.length := by rw [states_length]; omega
  have h2 : j < states.length := by rw [states_length]; omega
  have := h i j h1 h2 hij
  rw [stateLt_iff] at this
  simpa [stateAt, List.getD_eq_getElem?_getD, h1, h2] using this

theorem stateAt_inj (i j : ℕ) (hi : i < 256) (hj : j < 256) (h : stateAt i = stateAt j) : i = j := by
  by_contra hne
  rcases Nat.lt_or_gt_of_ne hne with hl | hl
  · have := stateAt_lt i j hl hj; rw [h] at this; exact smaller_asymm this this
  · have := stateAt_lt j i hl hi; rw [h] at this; exact smaller_asymm this this

theorem shipped_edge_iff (hS : Shipped T) (i j : ℕ) (hi : i < 256) (hj : j < 256) : Edge T (stateAt i) (stateAt j) ↔ j ∈ row i := by
  constructor
  · intro h
    obtain ⟨i', j', h1, h2, h3, h4⟩ := shipped_edge T hS _ _ h
    have e1 := stateAt_inj _ _ hi h1 h3
    subst e1
    have e2 := stateAt_inj _ _ hj (row_live i h1 j' h2).1 h4
    subst e2
    exact h2
  · intro h
    obtain ⟨tx, h1, h2⟩ := shipped_get T hS i hi
    exact ⟨tx, h1, by rw [← PyDict.mem_keys_iff, h2]; exact List.mem_map_of_mem h⟩

theorem reach_zero_iff (hS : Shipped T) (h0 : ShippedStart T) (i : ℕ) (hi : i < 256) : Reach T 0 (stateAt i) ↔ startMask.testBit i = true := by
  have hst : T.trans.has (stateAt i) = true := by
    rw [PyDict.has_iff]; obtain ⟨tx, h1, -⟩ := shipped_get T hS i hi; exact ⟨tx, h1⟩
  obtain ⟨h1, -⟩ := (shipped_ok T hS).rows _ hst
  rw [PyDict.has_iff] at h1
  obtain ⟨p, hp⟩ := h1
  have := h0 i hi p hp
  constructor
  · rintro ⟨-, q, hq, hne⟩
    rw [hp] at hq; injection hq with hq; subst hq
    cases hb : startMask.testBit i with
    | true => rfl
    | false => exact absurd (this.mpr hb) hne
  · intro hb
    exact ⟨hst, p, hp, fun h => by rw [this.mp h] at hb; cases hb⟩

theorem reach_index (hS : Shipped T) (t : ℕ) (y : PState) (h : Reach T t y) : ∃ i, i < 256 ∧ y = stateAt i := by
  have := reach_has (shipped_ok T hS) t y h
  rw [← PyDict.mem_keys_iff, shipped_keys T hS, List.mem_iff_getElem] at this
  obtain ⟨i, hi, e⟩ := this
  exact ⟨i, by rw [← states_length]; exact hi, by simp [stateAt, List.getD_eq_getElem?_getD, hi, e]⟩

/-- To show that a state is the greatest, look at the states behind it. -/
theorem greatest_of (hS : Shipped T) {P : PState → Prop} {t : ℕ} (hP : ∀ x, P x → Reach T t x) (j : ℕ) (hj : j < 256) (h : P (stateAt j))
    (hi : ∀ i, j < i → i < 256 → ¬ P (stateAt i)) : Greatest P (stateAt j) := by
  refine ⟨h, fun x hx => ?_⟩
  obtain ⟨i, h1, rfl⟩ := reach_index hS t x (hP x hx)
  rcases Nat.lt_trichotomy i j with hl | rfl | hl
  · exact Or.inr (stateAt_lt i j hl hj)
  · exact Or.inl rfl
  · exact absurd hx (hi i hl h1)

theorem rows_end : 255 ∈ row 251 ∧ 251 ∈ row 252 ∧ 251 ∈ row 255 ∧ 255 ∉ row 252 ∧ 255 ∉ row 253 ∧ 255 ∉ row 254 ∧ 255 ∉ row 255 ∧
    251 ∉ row 253 ∧ 251 ∉ row 254 := by decide +kernel

theorem starts_end : startMask.testBit 251 = true ∧ startMask.testBit 252 = true ∧ startMask.testBit 253 = true ∧ startMask.testBit 254 = false ∧
    startMask.testBit 255 = false := by decide +kernel

theorem reach_x (hS : Shipped T) (h0 : ShippedStart T) (t : ℕ) : Reach T t (stateAt 251) ∧ Reach T (t + 1) (stateAt 255) := by
  have e1 : Edge T (stateAt 251) (stateAt 255) := (shipped_edge_iff hS 251 255 (by norm_num) (by norm_num)).mpr rows_end.1
  have e2 : Edge T (stateAt 252) (stateAt 251) := (shipped_edge_iff hS 252 251 (by norm_num) (by norm_num)).mpr rows_end.2.1
  have e3 : Edge T (stateAt 255) (stateAt 251) := (shipped_edge_iff hS 255 251 (by norm_num) (by norm_num)).mpr rows_end.2.2.1
  have key : ∀ t, Reach T t (stateAt 251) ∧ Reach T (t + 1) (stateAt 251) := by
    intro t
    induction t with
    | zero => exact ⟨(reach_zero_iff hS h0 251 (by norm_num)).mpr starts_end.1, stateAt 252,
        (reach_zero_iff hS h0 252 (by norm_num)).mpr starts_end.2.1, e2⟩
    | succ t ih => exact ⟨ih.2, stateAt 255, ⟨stateAt 251, ih.1, e1⟩, e3⟩
  exact ⟨(key t).1, stateAt 251, (key t).1, e1⟩

theorem last_one (hS : Shipped T) (h0 : ShippedStart T) : Greatest (Reach T 0) (stateAt 253) := by
  refine greatest_of hS (fun x hx => hx) 253 (by norm_num) ((reach_zero_iff hS h0 253 (by norm_num)).mpr starts_end.2.2.1) ?_
  intro i h1 h2 h
  rw [reach_zero_iff hS h0 i h2] at h
  have h3 : i = 254 ∨ i = 255 := by omega
  rcases h3 with rfl | rfl
  · rw [starts_end.2.2.2.1] at h; cases h
  · rw [starts_end.2.2.2.2] at h; cases h

theorem last_more (hS : Shipped T) (h0 : ShippedStart T) (t : ℕ) : Greatest (Reach T (t + 1)) (stateAt 255) :=
  greatest_of hS (fun x hx => hx) 255 (by norm_num) (reach_x hS h0 t).2 (by intro i h1 h2; omega)

theorem before_zg (hS : Shipped T) (h0 : ShippedStart T) (t : ℕ) : Greatest (fun x => Reach T t x ∧ Edge T x (stateAt 255)) (stateAt 251) := by
  refine greatest_of hS (fun x hx => hx.1) 251 (by norm_num) ⟨(reach_x hS h0 t).1, (shipped_edge_iff hS 251 255 (by norm_num) (by norm_num)).mpr rows_end.1⟩ ?_
  rintro i h1 h2 ⟨-, h⟩
  rw [shipped_edge_iff hS i 255 h2 (by norm_num)] at h
  obtain ⟨-, -, -, n1, n2, n3, n4, -, -⟩ := rows_end
  have h3 : i = 252 ∨ i = 253 ∨ i = 254 ∨ i = 255 := by omega
  rcases h3 with rfl | rfl | rfl | rfl
  · exact n1 h
  · exact n2 h
  · exact n3 h
  · exact n4 h

theorem before_x (hS : Shipped T) (h0 : ShippedStart T) (t : ℕ) : Greatest (fun x => Reach T (t + 1) x ∧ Edge T x (stateAt 251)) (stateAt 255) :=
  greatest_of hS (fun x hx => hx.1) 255 (by norm_num)
    ⟨(reach_x hS h0 t).2, (shipped_edge_iff hS 255 251 (by norm_num) (by norm_num)).mpr rows_end.2.2.1⟩ (by intro i h1 h2; omega)

theorem before_x_first (hS : Shipped T) (h0 : ShippedStart T) : Greatest (fun x => Reach T 0 x ∧ Edge T x (stateAt 251)) (stateAt 252) := by
  refine greatest_of hS (fun x hx => hx.1) 252 (by norm_num) ⟨(reach_zero_iff hS h0 252 (by norm_num)).mpr starts_end.2.1,
    (shipped_edge_iff hS 252 251 (by norm_num) (by norm_num)).mpr rows_end.2.1⟩ ?_
  rintro i h1 h2 ⟨h4, h⟩
  rw [shipped_edge_iff hS i 251 h2 (by norm_num)] at h
  obtain ⟨-, -, -, -, -, -, -, n1, n2⟩ := rows_end
  have h3 : i = 253 ∨ i = 254 ∨ i = 255 := by omega
  rcases h3 with rfl | rfl | rfl
  · exact n1 h
  · exact n2 h
  · rw [reach_zero_iff hS h0 255 h2, starts_end.2.2.2.2] at h4; cases h4

theorem stateAt_end : stateAt 251 = (chS, lit ['x']) ∧ stateAt 252 = (chS, lit ['y']) ∧ stateAt 253 = (chS, lit ['y', 'g']) ∧
    stateAt 255 = (chS, lit ['z', 'g']) := by decide +kernel

theorem back_turns (hS : Shipped T) (h0 : ShippedStart T) (n : ℕ) : Back T (n + 1) (stateAt 255) ((turns (n + 2)).map (fun g => (chS, g))) := by
  obtain ⟨s1, s2, s3, s4⟩ := stateAt_end
  induction n using Nat.twoStepInduction with
  | zero =>
    have := Back.succ 0 _ _ _ (before_zg hS h0 0) (.zero (T := T) _)
    simpa [turns, s1, s4] using this
  | one =>
    have := Back.succ 1 _ _ _ (before_zg hS h0 1) (Back.succ 0 _ _ _ (before_x_first hS h0) (.zero (T := T) _))
    simpa [turns, s1, s2, s4] using this
  | more n ih _ =>
    have := Back.succ _ _ _ _ (before_zg hS h0 (n + 2)) (Back.succ _ _ _ _ (before_x hS h0 n) ih)
    simpa [turns, s1, s4] using this

theorem turns_length (n : ℕ) : (turns n).length = n := by
  induction n using turns.induct <;> simp_all [turns]

/-- The states for a text of strange characters, with the shipped tables. -/
theorem viterbi_turns (hT : PosModerate T) (hS : Shipped T) (h0 : ShippedStart T) (σ : Nat → List PState → List PState) (hσ : ∀ t l, (σ t l).Perm l) (s : Str)
    (hne : s ≠ []) (hs : ∀ c ∈ s, Strange T c) (hlen : s.length ≤ 2 ^ 50) :
    ∃ v, viterbi (dblArith log) T σ s = .ok (v, (turns s.length).map (fun g => (chS, g))) := by
  have hp := List.length_pos_iff.mpr hne
  obtain ⟨n, hn⟩ : ∃ n, s.length = n + 1 := ⟨s.length - 1, by omega⟩
  cases n with
  | zero =>
    refine viterbi_strange hT (shipped_ok T hS) σ hσ s hne hs hlen (stateAt 253) _ (by rw [hn]; exact last_one hS h0) ?_
    rw [hn]
    have := Back.zero (T := T) (stateAt 253)
    rw [stateAt_end.2.2.1] at this ⊢
    exact this
  | succ n =>
    refine viterbi_strange hT (shipped_ok T hS) σ hσ s hne hs hlen (stateAt 255) _ (by rw [hn]; exact last_more hS h0 n) ?_
    rw [hn]
    exact back_turns hS h0 n

theorem wordsByStates_singles (s : Str) (g : List Str) (h : g.length = s.length) :
    wordsByStates (s.zip (g.map (fun t => (chS, t)))) [] = (s.map (fun c => [c])).zip g := by
  induction s generalizing g with
  | nil => simp [wordsByStates]
  | cons c s ih =>
    cases g with
    | nil => simp at h
    | cons t g =>
      simp only [List.map_cons, List.zip_cons_cons, wordsByStates]
      rw [if_pos (show chS = 'E'.toNat ∨ chS = 'S'.toNat from Or.inr rfl), ih g (by simpa using h)]
      rfl

end Jieba.Pos
