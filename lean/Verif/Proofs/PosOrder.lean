import Mathlib.Data.List.Nodup
import Mathlib.Data.List.Perm.Basic
import Mathlib.Order.WithBot
import Verif.Model.PosViterbi
import Verif.Proofs.Basic
import Verif.Proofs.Dag
/-!
# Helper lemmas: maxima of (score, state) pairs and independence of the iteration order of sets
-/

namespace Jieba.Pos

/-! ## Strict total orders given as Boolean functions -/

structure StrictTotal {α : Type _} (lt : α → α → Bool) : Prop where
  irrefl : ∀ a, lt a a = false
  trans : ∀ a b c, lt a b = true → lt b c = true → lt a c = true
  tri : ∀ a b, lt a b = true ∨ a = b ∨ lt b a = true

theorem strLt_total : StrictTotal strLt := by
  refine ⟨?_, ?_, ?_⟩
  · intro a
    induction a with
    | nil => rfl
    | cons x a ih => simp [strLt, ih]
  · intro a
    induction a with
    | nil =>
      intro b c h1 h2
      cases b with
      | nil => simp [strLt] at h1
      | cons y b => cases c with
        | nil => simp [strLt] at h2
        | cons z c => rfl
    | cons x a ih =>
      intro b c h1 h2
      cases b with
      | nil => simp [strLt] at h1
      | cons y b => cases c with
        | nil => simp [strLt] at h2
        | cons z c =>
          simp only [strLt, Bool.or_eq_true, decide_eq_true_eq, Bool.and_eq_true] at h1 h2 ⊢
          rcases h1 with h1 | ⟨rfl, h1⟩ <;> rcases h2 with h2 | ⟨rfl, h2⟩
          · left; unfold Ch at *; omega
          · left; exact h1
          · left; exact h2
          · right; exact ⟨rfl, ih _ _ h1 h2⟩
  · intro a
    induction a with
    | nil => intro b; cases b <;> simp [strLt]
    | cons x a ih =>
      intro b
      cases b with
      | nil => simp [strLt]
      | cons y b =>
        simp only [strLt, Bool.or_eq_true, decide_eq_true_eq, Bool.and_eq_true, List.cons.injEq]
        rcases Nat.lt_trichotomy x y with h | rfl | h
        · left; left; exact h
        · rcases ih b with h | rfl | h
          · left; right; exact ⟨rfl, h⟩
          · right; left; exact ⟨rfl, rfl⟩
          · right; right; right; exact ⟨rfl, h⟩
        · right; right; left; exact h

theorem lex_total {α β : Type _} [LinearOrder α] {lt : β → β → Bool} (h : StrictTotal lt) :
    StrictTotal (fun a b : α × β => decide (a.1 < b.1) || (decide (a.1 = b.1) && lt a.2 b.2)) := by
  refine ⟨?_, ?_, ?_⟩
  · intro a; simp [h.irrefl]
  · intro a b c h1 h2
    simp only [Bool.or_eq_true, decide_eq_true_eq, Bool.and_eq_true] at h1 h2 ⊢
    rcases h1 with h1 | ⟨e1, h1⟩ <;> rcases h2 with h2 | ⟨e2, h2⟩
    · left; exact lt_trans h1 h2
    · left; rw [← e2]; exact h1
    · left; rw [e1]; exact h2
    · right; exact ⟨e1.trans e2, h.trans _ _ _ h1 h2⟩
  · intro a b
    simp only [Bool.or_eq_true, decide_eq_true_eq, Bool.and_eq_true]
    rcases lt_trichotomy a.1 b.1 with h1 | h1 | h1
    · left; left; exact h1
    · rcases h.tri a.2 b.2 with h2 | h2 | h2
      · left; right; exact ⟨h1, h2⟩
      · right; left; exact Prod.ext h1 h2
      · right; right; right; exact ⟨h1.symm, h2⟩
    · right; right; left; exact h1

theorem stateLt_total : StrictTotal stateLt := lex_total (α := Nat) strLt_total

variable {F : Type _} [LinearOrder F]

theorem tupLt_total : StrictTotal (tupLt (F := WithBot F) stateLt) := lex_total stateLt_total

/-! ## `max` -/

theorem pyMax_spec {α : Type _} {lt : α → α → Bool} (h : StrictTotal lt) (xs : List α) (x : α) :
    pyMax lt x xs ∈ x :: xs ∧ ∀ y ∈ x :: xs, lt (pyMax lt x xs) y = false := by
  unfold pyMax
  induction xs generalizing x with
  | nil => simp [h.irrefl]
  | cons z xs ih =>
    rw [List.foldl_cons]
    obtain ⟨h1, h2⟩ := ih (if lt x z = true then z else x)
    generalize hm : xs.foldl (fun m y => if lt m y = true then y else m) (if lt x z = true then z else x) = m at *
    have hstep : ∀ y, (y = x ∨ y = z) → lt m y = false := by
      intro y hy
      have hk := h2 _ List.mem_cons_self
      by_cases hxz : lt x z = true
      · rw [if_pos hxz] at hk
        rcases hy with rfl | rfl
        · cases hmy : lt m y with
          | false => rfl
          | true => rw [h.trans _ _ _ hmy hxz] at hk; cases hk
        · exact hk
      · rw [if_neg hxz] at hk
        rcases hy with rfl | rfl
        · exact hk
        · cases hmy : lt m y with
          | false => rfl
          | true =>
            exfalso
            rcases h.tri x y with h3 | rfl | h3
            · exact hxz h3
            · rw [hk] at hmy; cases hmy
            · rw [h.trans _ _ _ hmy h3] at hk; cases hk
    constructor
    · rcases List.mem_cons.mp h1 with h1 | h1
      · rw [h1]; split <;> simp
      · simp [h1]
    · intro y hy
      rcases List.mem_cons.mp hy with rfl | hy
      · exact hstep _ (Or.inl rfl)
      · rcases List.mem_cons.mp hy with rfl | hy
        · exact hstep _ (Or.inr rfl)
        · exact h2 y (by simp [hy])

theorem maxState_spec (l : List (WithBot F × PState)) (b : WithBot F × PState) (h : maxState l = .ok b) :
    b ∈ l ∧ ∀ y ∈ l, tupLt stateLt b y = false := by
  cases l with
  | nil => simp [maxState] at h
  | cons x xs =>
    simp only [maxState, Except.ok.injEq] at h
    subst h
    exact pyMax_spec tupLt_total xs x

theorem maxState_perm {l m : List (WithBot F × PState)} (h : l.Perm m) : maxState l = maxState m := by
  cases hl : maxState l with
  | error e =>
    cases l with
    | nil => rw [List.nil_perm.mp h, ← hl]
    | cons x xs => simp [maxState] at hl
  | ok b =>
    cases hm : maxState m with
    | error e =>
      cases m with
      | nil => rw [List.perm_nil.mp h] at hl; simp [maxState] at hl
      | cons x xs => simp [maxState] at hm
    | ok c =>
      obtain ⟨h1, h2⟩ := maxState_spec l b hl
      obtain ⟨h3, h4⟩ := maxState_spec m c hm
      have a1 := h2 c (h.mem_iff.mpr h3)
      have a2 := h4 b (h.mem_iff.mp h1)
      rcases tupLt_total.tri b c with h5 | rfl | h5
      · rw [a1] at h5; cases h5
      · rfl
      · rw [a2] at h5; cases h5

theorem maxState_exists (l : List (WithBot F × PState)) (h : l ≠ []) : ∃ b, maxState l = .ok b := by
  cases l with
  | nil => exact absurd rfl h
  | cons x xs => exact ⟨_, rfl⟩

/-! ## Sets -/

theorem mem_dedup {α : Type _} [DecidableEq α] (l : List α) (a : α) : a ∈ dedup l ↔ a ∈ l := by
  induction l with
  | nil => simp [dedup]
  | cons b l ih =>
    unfold dedup
    split
    · next h =>
      rw [ih, List.mem_cons]
      constructor
      · exact Or.inr
      · rintro (rfl | h')
        · exact h
        · exact h'
    · rw [List.mem_cons, List.mem_cons, ih]

theorem nodup_dedup {α : Type _} [DecidableEq α] (l : List α) : (dedup l).Nodup := by
  induction l with
  | nil => simp [dedup]
  | cons b l ih =>
    unfold dedup
    split
    · exact ih
    · next h => exact List.nodup_cons.mpr ⟨by rw [mem_dedup]; exact h, ih⟩

theorem dedup_perm {α : Type _} [DecidableEq α] {l m : List α} (h : ∀ a, a ∈ l ↔ a ∈ m) : (dedup l).Perm (dedup m) := by
  rw [List.perm_ext_iff_of_nodup (nodup_dedup l) (nodup_dedup m)]
  intro a
  rw [mem_dedup, mem_dedup]
  exact h a

/-! ## Dict updates in a loop -/

theorem mapM_error {α β : Type _} (e : PyErr) (f : α → Except PyErr β) (l : List α) (he : ∀ a ∈ l, ∀ e', f a = .error e' → e' = e)
    (hex : ∃ a ∈ l, ∃ e', f a = .error e') : l.mapM f = .error e := by
  induction l with
  | nil => simp at hex
  | cons a l ih =>
    rw [List.mapM_cons]
    cases hfa : f a with
    | error e' => rw [he a (by simp) e' hfa]; rfl
    | ok b =>
      have : l.mapM f = .error e := by
        refine ih (fun a ha => he a (by simp [ha])) ?_
        obtain ⟨x, hx, e', hfx⟩ := hex
        rcases List.mem_cons.mp hx with rfl | hx
        · rw [hfa] at hfx; cases hfx
        · exact ⟨x, hx, e', hfx⟩
      rw [this]; rfl

/-- `mapM` over a permuted list, when all possible exceptions are the same. -/
theorem mapM_perm {α β : Type _} (e : PyErr) (f : α → Except PyErr β) {l m : List α} (h : l.Perm m)
    (he : ∀ a ∈ l, ∀ e', f a = .error e' → e' = e) :
    (∃ r r', l.mapM f = .ok r ∧ m.mapM f = .ok r' ∧ r.Perm r') ∨ (l.mapM f = .error e ∧ m.mapM f = .error e) := by
  by_cases hex : ∃ a ∈ l, ∃ e', f a = .error e'
  · right
    refine ⟨mapM_error e f l he hex, mapM_error e f m (fun a ha => he a (h.mem_iff.mpr ha)) ?_⟩
    obtain ⟨a, ha, h'⟩ := hex
    exact ⟨a, h.mem_iff.mp ha, h'⟩
  · left
    have hall : ∀ a ∈ l, ∃ b, f a = .ok b := by
      intro a ha
      cases hfa : f a with
      | ok b => exact ⟨b, rfl⟩
      | error e' => exact absurd ⟨a, ha, e', hfa⟩ hex
    clear hex he
    induction h with
    | nil => exact ⟨[], [], rfl, rfl, List.Perm.nil⟩
    | cons x _ ih =>
      obtain ⟨b, hb⟩ := hall x (by simp)
      obtain ⟨r, r', h1, h2, h3⟩ := ih (fun a ha => hall a (by simp [ha]))
      exact ⟨b :: r, b :: r', by rw [List.mapM_cons, hb, h1]; rfl, by rw [List.mapM_cons, hb, h2]; rfl, h3.cons b⟩
    | swap x y l =>
      obtain ⟨b, hb⟩ := hall x (by simp)
      obtain ⟨c, hc⟩ := hall y (by simp)
      obtain ⟨r, hr⟩ := mapM_except_total l f (fun a ha => hall a (by simp [ha]))
      exact ⟨c :: b :: r, b :: c :: r, by rw [List.mapM_cons, List.mapM_cons, hb, hc, hr]; rfl,
        by rw [List.mapM_cons, List.mapM_cons, hb, hc, hr]; rfl, List.Perm.swap _ _ _⟩
    | trans p _ ih1 ih2 =>
      obtain ⟨r1, r2, h1, h2, h3⟩ := ih1 hall
      obtain ⟨r3, r4, h4, h5, h6⟩ := ih2 (fun a ha => hall a (p.mem_iff.mpr ha))
      rw [h2] at h4
      injection h4 with h4
      subst h4
      exact ⟨r1, r4, h1, h5, h3.trans h6⟩

theorem set_append {K V : Type _} [DecidableEq K] (d : PyDict K V) (k : K) (v : V) (h : k ∉ PyDict.keys d) :
    PyDict.set d k v = d ++ [(k, v)] := by
  induction d with
  | nil => rfl
  | cons p d ih =>
    obtain ⟨k', v'⟩ := p
    simp only [PyDict.keys, List.map_cons, List.mem_cons, not_or] at h
    simp only [PyDict.set, if_neg (Ne.symm h.1), List.cons_append]
    rw [ih h.2]

/-- A loop that sets fresh keys one after the other. -/
theorem foldlM_set {K V : Type _} [DecidableEq K] (f : K → Except PyErr V) (g : PyDict K V → K → Except PyErr (PyDict K V))
    (hg : ∀ d k, g d k = (f k).map (fun v => PyDict.set d k v)) (ys : List K) (d : PyDict K V) (hn : ys.Nodup)
    (hd : ∀ y ∈ ys, y ∉ PyDict.keys d) :
    ys.foldlM g d = (ys.mapM (fun y => (f y).map (fun v => (y, v)))).map (fun r => d ++ r) := by
  induction ys generalizing d with
  | nil => simp [pure, Except.pure, Except.map]
  | cons y ys ih =>
    rw [List.foldlM_cons, List.mapM_cons, hg]
    cases hf : f y with
    | error e => rfl
    | ok v =>
      have := ih (PyDict.set d y v) hn.of_cons (by
        intro z hz
        rw [PyDict.mem_keys_iff, PyDict.has_set]
        have h1 : y ≠ z := by rintro rfl; exact (List.nodup_cons.mp hn).1 hz
        have h2 := hd z (by simp [hz])
        rw [PyDict.mem_keys_iff] at h2
        simp [h1, h2])
      show (ys.foldlM g (PyDict.set d y v)) = _
      rw [this, set_append _ _ _ (hd y (by simp))]
      cases ys.mapM (fun y => (f y).map (fun v => (y, v))) with
      | error e => rfl
      | ok r => simp [pure, Except.pure, bind, Except.bind, Except.map]

theorem get?_perm {K V : Type _} [DecidableEq K] {d e : PyDict K V} (h : d.Perm e) (hd : (PyDict.keys d).Nodup) (k : K) :
    PyDict.get? d k = PyDict.get? e k := by
  have he : (PyDict.keys e).Nodup := (h.map Prod.fst).nodup_iff.mp hd
  cases h1 : PyDict.get? d k with
  | some v =>
    rw [PyDict.get?_eq_some_iff_mem d hd] at h1
    exact ((PyDict.get?_eq_some_iff_mem e he k v).mpr (h.mem_iff.mp h1)).symm
  | none =>
    cases h2 : PyDict.get? e k with
    | none => rfl
    | some v =>
      rw [PyDict.get?_eq_some_iff_mem e he] at h2
      rw [(PyDict.get?_eq_some_iff_mem d hd k v).mpr (h.mem_iff.mpr h2)] at h1
      cases h1

end Jieba.Pos
