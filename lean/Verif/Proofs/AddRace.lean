import Verif.Model.AddRace
import Verif.Proofs.LazyRely
import Verif.Proofs.World
/-!
# Lemmas about threads inside `add_word`
-/

namespace Jieba.Threads
open Jieba Jieba.Spec Jieba.Lazy

variable {F : Type _}

/-- Only calls of `add_word` with arguments satisfying `P` are started, and only steps of threads inside `add_word` happen. -/
def AEv.adds (P : AddArg → Prop) : AEv → Prop
  | .ev _ => False
  | .add _ x => P x
  | .step _ => True

@[simp] theorem agoto_self (a : ASt) (i : Nat) (pc : AddPC) : (a.goto i pc).ad i = pc := by simp [ASt.goto]
theorem agoto_ne (a : ASt) (i j : Nat) (pc : AddPC) (h : j ≠ i) : (a.goto i pc).ad j = a.ad j := by simp [ASt.goto, h]
@[simp] theorem agoto_s (a : ASt) (i : Nat) (pc : AddPC) : (a.goto i pc).s = a.s := rfl

/-- Moves of a thread that leave the tokenizers alone: starting, and the steps up to the end of `check_initialized()`. -/
inductive Quiet (P : AddArg → Prop) (w : World) : AddPC → AddPC → Prop
  | start (r x) : P x → Quiet P w (.idle r) (.chk x)
  | ready (x) : Quiet P w (.chk x) (.setF x)
  | init (x) : (w.tok x.t).initialized ≠ true → Quiet P w (.chk x) (.wait x)
  | done (x) : Quiet P w (.wait x) (.setF x)
  | fail (x e) : Quiet P w (.wait x) (.idle (some (some e)))

theorem arun_cases (S : Sys F) (P : AddArg → Prop) (a a' : ASt) (e : AEv) (he : e.adds P) (h : e.run S a = some a') :
    ∃ i, (∀ j, j ≠ i → a'.ad j = a.ad j) ∧
      ((a'.s.w = a.s.w ∧ Quiet P a.s.w (a.ad i) (a'.ad i)) ∨ addStep a.s.w (a.ad i) = some (a'.s.w, a'.ad i)) := by
  cases e with
  | ev e => exact absurd he id
  | add i x =>
    simp only [AEv.run] at h
    split at h
    · next r q h1 h2 =>
      cases h
      exact ⟨i, fun j hj => agoto_ne _ _ _ _ hj, Or.inl ⟨rfl, by rw [h1, agoto_self]; exact .start _ _ he⟩⟩
    · exact absurd h (by simp)
  | step i =>
    refine ⟨i, ?_⟩
    simp only [AEv.run] at h
    split at h
    · next x hx =>
      split at h
      · cases h
        exact ⟨fun j hj => agoto_ne _ _ _ _ hj, Or.inl ⟨rfl, by rw [hx, agoto_self]; exact .ready _⟩⟩
      · next hu =>
        cases h
        exact ⟨fun j hj => agoto_ne _ _ _ _ hj, Or.inl ⟨rfl, by rw [hx, agoto_self]; exact .init _ hu⟩⟩
    · next x hx =>
      split at h
      · cases h
        exact ⟨fun j hj => agoto_ne _ _ _ _ hj, Or.inl ⟨rfl, by rw [hx, agoto_self]; exact .done _⟩⟩
      · cases h
        exact ⟨fun j hj => agoto_ne _ _ _ _ hj, Or.inl ⟨rfl, by rw [hx, agoto_self]; exact .fail _ _⟩⟩
      · exact absurd h (by simp)
    · obtain ⟨r, h1, rfl⟩ := Option.map_eq_some_iff.mp h
      exact ⟨fun j hj => agoto_ne _ _ _ _ hj, Or.inr (by rw [h1]; simp)⟩

/-- Induction over executions. -/
theorem runA_inv (S : Sys F) (P : AddArg → Prop) (I : ASt → Prop)
    (hstep : ∀ (a a' : ASt) (e : AEv), e.adds P → e.run S a = some a' → I a → I a') (es : List AEv) (a a' : ASt)
    (he : ∀ e ∈ es, e.adds P) (h : runA S a es = some a') (h0 : I a) : I a' := by
  induction es generalizing a with
  | nil => simp only [runA, Option.some.injEq] at h; exact h ▸ h0
  | cons e es ih =>
    simp only [runA] at h
    split at h
    · exact absurd h (by simp)
    · next b hb =>
      exact ih b (fun e' h' => he e' (List.mem_cons_of_mem _ h')) h (hstep a b e (he e (by simp)) hb h0)

/-! ## What a thread has still to do -/

/-- The call a thread is in. -/
def AddPC.arg : AddPC → Option AddArg
  | .idle _ => none
  | .chk x => some x
  | .wait x => some x
  | .setF x => some x
  | .readT x => some x
  | .setT x _ => some x
  | .tag x => some x
  | .look x _ => some x
  | .put x _ => some x
  | .force x => some x

/-- After line 428: the call and the number of prefixes that have been seen to. -/
def AddPC.stored : AddPC → Option (AddArg × Nat)
  | .readT x => some (x, 0)
  | .setT x _ => some (x, 0)
  | .tag x => some (x, 0)
  | .look x k => some (x, k)
  | .put x k => some (x, k)
  | .force x => some (x, x.word.length)
  | _ => none

theorem stored_arg (pc : AddPC) (x : AddArg) (k : Nat) (h : pc.stored = some (x, k)) : pc.arg = some x := by
  cases pc <;> simp_all [AddPC.stored, AddPC.arg]

/-- All that steps do to a tokenizer: they set one entry of `FREQ`, or leave `FREQ` alone. -/
theorem addStep_freq (w : World) (pc : AddPC) (r : World × AddPC) (h : addStep w pc = some r) (t : Nat) :
    (r.1.tok t).freq = (w.tok t).freq ∨
    (∃ x, pc = .setF x ∧ r.2 = .readT x ∧ x.t = t ∧ (r.1.tok t).freq = (w.tok t).freq.set x.word x.f) ∨
    (∃ x k, pc = .put x k ∧ r.2 = .look x (k + 1) ∧ x.t = t ∧ (r.1.tok t).freq = (w.tok t).freq.set (x.word.take (k + 1)) 0) := by
  have upd : ∀ (u : Nat) (f : Tok → Tok), ((World.modTok w u f).tok t) = if t = u then f (w.tok t) else w.tok t := by
    intro u f; unfold World.modTok World.setTok
    by_cases htu : t = u
    · subst htu; simp
    · simp [htu]
  cases pc with
  | setF x =>
    simp only [addStep, Option.some.injEq] at h; subst h
    by_cases ht : t = x.t
    · exact Or.inr (Or.inl ⟨x, rfl, rfl, ht.symm, by rw [upd, if_pos ht]⟩)
    · exact Or.inl (by rw [upd, if_neg ht])
  | readT x => simp only [addStep, Option.some.injEq] at h; subst h; exact Or.inl rfl
  | setT x n =>
    simp only [addStep, Option.some.injEq] at h; subst h
    refine Or.inl ?_; rw [upd]; split <;> rfl
  | tag x =>
    simp only [addStep, Option.some.injEq] at h; subst h
    refine Or.inl ?_; rw [upd]; split <;> rfl
  | look x k =>
    simp only [addStep] at h
    split at h <;> (cases h; exact Or.inl rfl)
  | put x k =>
    simp only [addStep, Option.some.injEq] at h; subst h
    by_cases ht : t = x.t
    · exact Or.inr (Or.inr ⟨x, k, rfl, rfl, ht.symm, by rw [upd, if_pos ht]⟩)
    · exact Or.inl (by rw [upd, if_neg ht])
  | force x =>
    simp only [addStep, Option.some.injEq] at h; subst h
    refine Or.inl ?_
    dsimp only
    split <;> rfl
  | idle r => exact absurd h (by simp [addStep])
  | chk x => exact absurd h (by simp [addStep])
  | wait x => exact absurd h (by simp [addStep])

/-- No step loses a key. -/
theorem addStep_has (w : World) (pc : AddPC) (r : World × AddPC) (h : addStep w pc = some r) (t : Nat) (p : Str)
    (hp : PyDict.has (w.tok t).freq p = true) : PyDict.has (r.1.tok t).freq p = true := by
  rcases addStep_freq w pc r h t with e | ⟨x, -, -, -, e⟩ | ⟨x, k, -, -, -, e⟩ <;> rw [e]
  · exact hp
  · rw [PyDict.has_set, hp, Bool.or_true]
  · rw [PyDict.has_set, hp, Bool.or_true]

/-- How a thread that has stored its word goes on. -/
theorem addStep_stored (w : World) (pc : AddPC) (r : World × AddPC) (h : addStep w pc = some r) (x : AddArg) (k : Nat)
    (hs : pc.stored = some (x, k)) :
    r.2.stored = some (x, k) ∨
    (r.2.stored = some (x, k + 1) ∧ PyDict.has (r.1.tok x.t).freq (x.word.take (k + 1)) = true) ∨
    (x.word.length ≤ k) := by
  cases pc with
  | setF y => simp [AddPC.stored] at hs
  | idle _ => simp [AddPC.stored] at hs
  | chk _ => simp [AddPC.stored] at hs
  | wait _ => simp [AddPC.stored] at hs
  | readT y => simp only [addStep, Option.some.injEq] at h; subst h; exact Or.inl (by simpa [AddPC.stored] using hs)
  | setT y n => simp only [addStep, Option.some.injEq] at h; subst h; exact Or.inl (by simpa [AddPC.stored] using hs)
  | tag y => simp only [addStep, Option.some.injEq] at h; subst h; exact Or.inl (by simpa [AddPC.stored] using hs)
  | look y m =>
    simp only [AddPC.stored, Option.some.injEq, Prod.mk.injEq] at hs
    obtain ⟨rfl, rfl⟩ := hs
    simp only [addStep] at h
    split at h
    · cases h
      by_cases hh : PyDict.has (w.tok y.t).freq (y.word.take (m + 1)) = true
      · exact Or.inr (Or.inl ⟨by rw [if_pos hh]; rfl, hh⟩)
      · exact Or.inl (by rw [if_neg hh]; rfl)
    · next hk => exact Or.inr (Or.inr (by omega))
  | put y m =>
    simp only [AddPC.stored, Option.some.injEq, Prod.mk.injEq] at hs
    obtain ⟨rfl, rfl⟩ := hs
    simp only [addStep, Option.some.injEq] at h; subst h
    refine Or.inr (Or.inl ⟨rfl, ?_⟩)
    simp only [World.modTok, World.setTok, if_true]
    rw [PyDict.has_set]; simp
  | force y =>
    simp only [AddPC.stored, Option.some.injEq, Prod.mk.injEq] at hs
    obtain ⟨rfl, rfl⟩ := hs
    exact Or.inr (Or.inr (le_refl _))

/-- A thread that has stored its word has just done so or had done so before. -/
theorem addStep_stored_back (w : World) (pc : AddPC) (r : World × AddPC) (h : addStep w pc = some r) (x : AddArg) (k : Nat)
    (hj : r.2.stored = some (x, k)) : pc = .setF x ∨ ∃ m, pc.stored = some (x, m) := by
  cases pc with
  | idle _ => simp [addStep] at h
  | chk _ => simp [addStep] at h
  | wait _ => simp [addStep] at h
  | look y m =>
    simp only [addStep] at h
    right
    split at h
    · cases h
      split at hj <;> simp only [AddPC.stored, Option.some.injEq, Prod.mk.injEq] at hj ⊢ <;> exact ⟨m, hj.1, rfl⟩
    · cases h
      simp only [AddPC.stored, Option.some.injEq, Prod.mk.injEq] at hj ⊢
      exact ⟨m, hj.1, rfl⟩
  | _ =>
    simp only [addStep, Option.some.injEq] at h; subst h
    simp_all [AddPC.stored]

/-! ## Prefixes -/

/-- Every prefix of a key is a key, or some thread still has to see to it; and threads have stored their words. -/
def PInv (t : Nat) (a : ASt) : Prop :=
  (∀ u, PyDict.has (a.s.w.tok t).freq u = true → ∀ p, p ≠ [] → p <+: u →
    PyDict.has (a.s.w.tok t).freq p = true ∨ ∃ i x k, (a.ad i).stored = some (x, k) ∧ x.t = t ∧ p <+: x.word ∧ k < p.length) ∧
  (∀ i x k, (a.ad i).stored = some (x, k) → x.t = t → PyDict.has (a.s.w.tok t).freq x.word = true)

theorem quiet_stored (P : AddArg → Prop) (w : World) (pc pc' : AddPC) (h : Quiet P w pc pc') : pc.stored = none ∧ pc'.stored = none := by
  cases h <;> exact ⟨rfl, rfl⟩

theorem pinv_step (S : Sys F) (P : AddArg → Prop) (t : Nat) (a a' : ASt) (e : AEv) (he : e.adds P) (h : e.run S a = some a')
    (hI : PInv t a) : PInv t a' := by
  obtain ⟨i, hne, ⟨hw, hq⟩ | hst⟩ := arun_cases S P a a' e he h
  · obtain ⟨q1, q2⟩ := quiet_stored P _ _ _ hq
    have hst : ∀ j, (a'.ad j).stored = (a.ad j).stored := by
      intro j
      by_cases hj : j = i
      · subst hj; rw [q1, q2]
      · rw [hne j hj]
    unfold PInv
    simp only [hw, hst]
    exact hI
  obtain ⟨h1, h2⟩ := hI
  have hmono := addStep_has _ _ _ hst t
  -- what was still to be done is done now or still to be done
  have keep : ∀ p, (∃ j x k, (a.ad j).stored = some (x, k) ∧ x.t = t ∧ p <+: x.word ∧ k < p.length) →
      PyDict.has (a'.s.w.tok t).freq p = true ∨ ∃ j x k, (a'.ad j).stored = some (x, k) ∧ x.t = t ∧ p <+: x.word ∧ k < p.length := by
    rintro p ⟨j, x, k, k1, k2, k3, k4⟩
    by_cases hj : j = i
    · subst hj
      rcases addStep_stored _ _ _ hst x k k1 with g | ⟨g1, g2⟩ | g
      · exact Or.inr ⟨j, x, k, g, k2, k3, k4⟩
      · by_cases hk : k + 1 < p.length
        · exact Or.inr ⟨j, x, k + 1, g1, k2, k3, hk⟩
        · left
          have : p = x.word.take (k + 1) := by
            rw [List.prefix_iff_eq_take.mp k3]; congr 1; omega
          rw [this, ← k2]; exact g2
      · have := k3.length_le
        omega
    · exact Or.inr ⟨j, x, k, by rw [hne j hj]; exact k1, k2, k3, k4⟩
  constructor
  · intro u hu p hp hpu
    rcases addStep_freq _ _ _ hst t with e | ⟨x, e1, e2, e3, e4⟩ | ⟨x, k, e1, e2, e3, e4⟩
    · rw [e] at hu
      rcases h1 u hu p hp hpu with g | g
      · exact Or.inl (hmono p g)
      · exact keep p g
    · rw [e4, PyDict.has_set, Bool.or_eq_true, decide_eq_true_eq] at hu
      rcases hu with rfl | hu
      · refine Or.inr ⟨i, x, 0, ?_, e3, hpu, ?_⟩
        · simp only at e2; rw [e2]; rfl
        · exact List.length_pos_iff.mpr hp
      · rcases h1 u hu p hp hpu with g | g
        · exact Or.inl (hmono p g)
        · exact keep p g
    · rw [e4, PyDict.has_set, Bool.or_eq_true, decide_eq_true_eq] at hu
      rcases hu with rfl | hu
      · have hword := h2 i x k (by rw [e1]; rfl) e3
        rcases h1 x.word hword p hp (hpu.trans (List.take_prefix _ _)) with g | g
        · exact Or.inl (hmono p g)
        · exact keep p g
      · rcases h1 u hu p hp hpu with g | g
        · exact Or.inl (hmono p g)
        · exact keep p g
  · intro j x k hj ht
    by_cases hji : j = i
    · subst hji
      by_cases hs : ∃ m, (a.ad j).stored = some (x, m)
      · obtain ⟨m, hm⟩ := hs
        exact hmono _ (h2 j x m hm ht)
      · -- just stored
        have := (addStep_stored_back _ _ _ hst x k hj).resolve_right hs
        rw [this] at hst
        simp only [addStep, Option.some.injEq, Prod.mk.injEq] at hst
        rw [← hst.1]
        simp only [World.modTok, World.setTok, ht, if_true]
        rw [PyDict.has_set]; simp
    · rw [hne j hji] at hj
      exact hmono _ (h2 j x k hj ht)

/-! ## Beside `cut` -/

/-- Frequencies are non-negative and totals that have been read are positive. -/
def NInv (t : Nat) (ad : Nat → AddPC) : Prop :=
  (∀ i x, (ad i).arg = some x → x.t = t → 0 ≤ x.f) ∧ ∀ i x n, ad i = .setT x n → x.t = t → 0 < n

theorem quiet_arg (P : AddArg → Prop) (w : World) (pc pc' : AddPC) (h : Quiet P w pc pc') (x : AddArg) (hx : pc'.arg = some x) :
    pc.arg = some x ∨ P x := by
  cases h with
  | start r y hy => simp only [AddPC.arg, Option.some.injEq] at hx; subst hx; exact Or.inr hy
  | ready y => exact Or.inl hx
  | init y _ => exact Or.inl hx
  | done y => exact Or.inl hx
  | fail y e => simp [AddPC.arg] at hx

theorem addStep_arg (w : World) (pc : AddPC) (r : World × AddPC) (h : addStep w pc = some r) (x : AddArg)
    (hx : r.2.arg = some x) : pc.arg = some x := by
  cases pc with
  | idle _ => simp [addStep] at h
  | chk _ => simp [addStep] at h
  | wait _ => simp [addStep] at h
  | look y m =>
    simp only [addStep] at h
    split at h
    · cases h
      dsimp only at hx
      split at hx <;> exact hx
    · cases h; exact hx
  | _ =>
    simp only [addStep, Option.some.injEq] at h; subst h
    simp_all [AddPC.arg]

theorem addStep_initialized (w : World) (pc : AddPC) (r : World × AddPC) (h : addStep w pc = some r) (t : Nat) :
    (r.1.tok t).initialized = (w.tok t).initialized := by
  have upd : ∀ (u : Nat) (f : Tok → Tok), (∀ y, (f y).initialized = y.initialized) →
      ((World.modTok w u f).tok t).initialized = (w.tok t).initialized := by
    intro u f hf; unfold World.modTok World.setTok
    by_cases htu : t = u
    · subst htu; simp [hf]
    · simp [htu]
  cases pc with
  | idle _ => simp [addStep] at h
  | chk _ => simp [addStep] at h
  | wait _ => simp [addStep] at h
  | look y m => simp only [addStep] at h; split at h <;> (cases h; rfl)
  | force y => simp only [addStep, Option.some.injEq] at h; subst h; dsimp only; split <;> rfl
  | readT y => simp only [addStep, Option.some.injEq] at h; subst h; rfl
  | _ => simp only [addStep, Option.some.injEq] at h; subst h; dsimp only; apply upd; intro _; rfl

/-- A step leaves `total` alone or is the second half of line 429. -/
theorem addStep_total (w : World) (pc : AddPC) (r : World × AddPC) (h : addStep w pc = some r) (t : Nat) :
    (r.1.tok t).total = (w.tok t).total ∨ ∃ x n, pc = .setT x n ∧ x.t = t ∧ (r.1.tok t).total = n + x.f := by
  have upd : ∀ (u : Nat) (f : Tok → Tok), (∀ y, (f y).total = y.total) →
      ((World.modTok w u f).tok t).total = (w.tok t).total := by
    intro u f hf; unfold World.modTok World.setTok
    by_cases htu : t = u
    · subst htu; simp [hf]
    · simp [htu]
  cases pc with
  | idle _ => simp [addStep] at h
  | chk _ => simp [addStep] at h
  | wait _ => simp [addStep] at h
  | look y m => simp only [addStep] at h; split at h <;> (cases h; exact Or.inl rfl)
  | force y => simp only [addStep, Option.some.injEq] at h; subst h; left; dsimp only; split <;> rfl
  | readT y => simp only [addStep, Option.some.injEq] at h; subst h; exact Or.inl rfl
  | setT y n =>
    simp only [addStep, Option.some.injEq] at h; subst h
    by_cases ht : y.t = t
    · right; exact ⟨y, n, rfl, ht, by unfold World.modTok World.setTok; simp [ht]⟩
    · left
      unfold World.modTok World.setTok
      simp only [if_neg (fun h => ht (Eq.symm h))]
  | _ => simp only [addStep, Option.some.injEq] at h; subst h; left; dsimp only; apply upd; intro _; rfl

theorem addStep_setT (w : World) (pc : AddPC) (r : World × AddPC) (h : addStep w pc = some r) (x : AddArg) (n : Int)
    (hr : r.2 = .setT x n) : n = (w.tok x.t).total := by
  cases pc with
  | idle _ => simp [addStep] at h
  | chk _ => simp [addStep] at h
  | wait _ => simp [addStep] at h
  | look y m =>
    simp only [addStep] at h
    split at h <;> cases h
    · dsimp only at hr; split at hr <;> simp at hr
    · simp at hr
  | readT y => simp only [addStep, Option.some.injEq] at h; subst h; simp only [AddPC.setT.injEq] at hr; rw [← hr.2, hr.1]
  | _ => simp only [addStep, Option.some.injEq] at h; subst h; simp at hr

theorem ninv_step (S : Sys F) (t : Nat) (a a' : ASt) (e : AEv) (he : e.adds (fun x => x.t = t → 0 ≤ x.f)) (h : e.run S a = some a')
    (hI : NInv t a.ad) (hH : Healthy t a.s.w) :
    NInv t a'.ad ∧ Healthy t a'.s.w ∧
      ∀ k, PyDict.has (a.s.w.tok t).freq k = true → PyDict.has (a'.s.w.tok t).freq k = true := by
  obtain ⟨i, hne, ⟨hw, hq⟩ | hst⟩ := arun_cases S _ a a' e he h
  · refine ⟨⟨?_, ?_⟩, hw ▸ hH, fun k hk => hw ▸ hk⟩
    · intro j x hx ht
      by_cases hj : j = i
      · subst hj
        rcases quiet_arg _ _ _ _ hq x hx with g | g
        · exact hI.1 j x g ht
        · exact g ht
      · rw [hne j hj] at hx; exact hI.1 j x hx ht
    · intro j x n hx ht
      by_cases hj : j = i
      · subst hj; rw [hx] at hq; generalize a.ad j = pc at hq; cases hq
      · rw [hne j hj] at hx; exact hI.2 j x n hx ht
  · refine ⟨⟨?_, ?_⟩, ⟨?_, ?_, ?_⟩, fun k hk => addStep_has _ _ _ hst t k hk⟩
    · intro j x hx ht
      by_cases hj : j = i
      · subst hj; exact hI.1 j x (addStep_arg _ _ _ hst x hx) ht
      · rw [hne j hj] at hx; exact hI.1 j x hx ht
    · intro j x n hx ht
      by_cases hj : j = i
      · subst hj
        rw [addStep_setT _ _ _ hst x n hx, ht]; exact hH.total
      · rw [hne j hj] at hx; exact hI.2 j x n hx ht
    · exact (addStep_initialized _ _ _ hst t).trans hH.init
    · rcases addStep_freq _ _ _ hst t with e | ⟨x, e1, -, e3, e4⟩ | ⟨x, k, -, -, -, e4⟩
      · rw [e]; exact hH.nonneg
      · rw [e4]; intro u v hv
        rw [PyDict.get?_set] at hv
        split at hv
        · cases hv; exact hI.1 i x (by rw [e1]; rfl) e3
        · exact hH.nonneg u v hv
      · rw [e4]; intro u v hv
        rw [PyDict.get?_set] at hv
        split at hv
        · cases hv; exact le_refl _
        · exact hH.nonneg u v hv
    · rcases addStep_total _ _ _ hst t with e | ⟨x, n, e1, e2, e3⟩
      · rw [e]; exact hH.total
      · rw [e3]
        have := hI.2 i x n e1 e2
        have := hI.1 i x (by rw [e1]; rfl) e2
        omega

theorem ninv_run (S : Sys F) (t : Nat) (es : List AEv) (a a' : ASt) (he : ∀ e ∈ es, e.adds (fun x => x.t = t → 0 ≤ x.f))
    (h : runA S a es = some a') (hI : NInv t a.ad) (hH : Healthy t a.s.w) :
    NInv t a'.ad ∧ Healthy t a'.s.w ∧
      ∀ k, PyDict.has (a.s.w.tok t).freq k = true → PyDict.has (a'.s.w.tok t).freq k = true := by
  refine runA_inv S _ (fun b => NInv t b.ad ∧ Healthy t b.s.w ∧
      ∀ k, PyDict.has (a.s.w.tok t).freq k = true → PyDict.has (b.s.w.tok t).freq k = true) ?_ es a a' he h ⟨hI, hH, fun _ h => h⟩
  rintro b b' e he hr ⟨h1, h2, h3⟩
  obtain ⟨g1, g2, g3⟩ := ninv_step S t b b' e he hr h1 h2
  exact ⟨g1, g2, fun k hk => g3 k (h3 k hk)⟩

/-! ## The frequency a thread has stored -/

/-- Thread `i` is in, or has made, the call `x`; all other calls satisfy `P`. -/
def KInv (P : AddArg → Prop) (i : Nat) (x : AddArg) (a : ASt) : Prop :=
  (a.s.w.tok x.t).initialized = true ∧
  (∀ j y, (a.ad j).arg = some y → (j = i ∧ y = x) ∨ P y) ∧
  (a.ad i = .chk x ∨ a.ad i = .setF x ∨ PyDict.get? (a.s.w.tok x.t).freq x.word = some x.f) ∧
  (∀ k, a.ad i = .put x k → x.word.take (k + 1) ≠ x.word)

theorem addStep_put (w : World) (pc : AddPC) (r : World × AddPC) (h : addStep w pc = some r) (x : AddArg) (k : Nat)
    (hr : r.2 = .put x k) : pc = .look x k ∧ r.1 = w ∧ PyDict.has (w.tok x.t).freq (x.word.take (k + 1)) ≠ true := by
  cases pc with
  | idle _ => simp [addStep] at h
  | chk _ => simp [addStep] at h
  | wait _ => simp [addStep] at h
  | look y m =>
    simp only [addStep] at h
    split at h <;> cases h
    · dsimp only at hr
      split at hr
      · simp at hr
      · next hh =>
        simp only [AddPC.put.injEq] at hr
        obtain ⟨rfl, rfl⟩ := hr
        exact ⟨rfl, rfl, hh⟩
    · simp at hr
  | _ => simp only [addStep, Option.some.injEq] at h; subst h; simp at hr

theorem kinv_step (S : Sys F) (P : AddArg → Prop) (i : Nat) (x : AddArg) (hP : ∀ y, P y → y.t = x.t → ¬ x.word <+: y.word)
    (a a' : ASt) (e : AEv) (he : e.adds P) (h : e.run S a = some a') (hI : KInv P i x a) : KInv P i x a' := by
  obtain ⟨h0, h1, h2, h3⟩ := hI
  obtain ⟨m, hne, ⟨hw, hq⟩ | hst⟩ := arun_cases S P a a' e he h
  · refine ⟨by rw [hw]; exact h0, ?_, ?_, ?_⟩
    · intro j y hy
      by_cases hj : j = m
      · subst hj
        rcases quiet_arg _ _ _ _ hq y hy with g | g
        · exact h1 j y g
        · exact Or.inr g
      · rw [hne j hj] at hy; exact h1 j y hy
    · by_cases hj : i = m
      · subst hj
        rw [hw]
        rcases h2 with g | g | g
        · rw [g] at hq
          generalize a'.ad i = pc at hq
          cases hq with
          | ready => exact Or.inr (Or.inl rfl)
          | init _ hu => exact absurd h0 hu
        · rw [g] at hq; generalize a'.ad i = pc at hq; cases hq
        · exact Or.inr (Or.inr g)
      · rw [hne i hj, hw]; exact h2
    · intro k hk
      by_cases hj : i = m
      · subst hj; rw [hk] at hq; generalize a.ad i = pc at hq; cases hq
      · rw [hne i hj] at hk; exact h3 k hk
  · refine ⟨(addStep_initialized _ _ _ hst _).trans h0, ?_, ?_, ?_⟩
    · intro j y hy
      by_cases hj : j = m
      · subst hj; exact h1 j y (addStep_arg _ _ _ hst y hy)
      · rw [hne j hj] at hy; exact h1 j y hy
    · by_cases hs : a.ad i = .setF x ∧ i = m
      · obtain ⟨hs, rfl⟩ := hs
        rw [hs] at hst
        simp only [addStep, Option.some.injEq, Prod.mk.injEq] at hst
        right; right
        rw [← hst.1]
        unfold World.modTok World.setTok
        simp
      by_cases him : i = m
      · subst him
        have hget : PyDict.get? (a.s.w.tok x.t).freq x.word = some x.f := by
          rcases h2 with g | g | g
          · rw [g] at hst; simp [addStep] at hst
          · exact absurd ⟨g, rfl⟩ hs
          · exact g
        right; right
        rcases addStep_freq _ _ _ hst x.t with e | ⟨y, e1, -, e3, e4⟩ | ⟨y, k, e1, -, e3, e4⟩
        · rw [e]; exact hget
        · rw [e4, PyDict.get?_set]
          rw [if_neg ?_]
          · exact hget
          · intro e
            rcases h1 i y (by rw [e1]; rfl) with ⟨-, rfl⟩ | g
            · exact hs ⟨e1, rfl⟩
            · exact hP y g e3 (by rw [e]; exact List.prefix_refl _)
        · rw [e4, PyDict.get?_set]
          rw [if_neg ?_]
          · exact hget
          · intro e
            rcases h1 i y (by rw [e1]; rfl) with ⟨-, rfl⟩ | g
            · exact h3 k e1 e
            · exact hP y g e3 (by rw [← e]; exact List.take_prefix _ _)
      · rw [hne i him]
        rcases h2 with g | g | g
        · exact Or.inl g
        · exact Or.inr (Or.inl g)
        · right; right
          rcases addStep_freq _ _ _ hst x.t with e | ⟨y, e1, -, e3, e4⟩ | ⟨y, k, e1, -, e3, e4⟩
          · rw [e]; exact g
          · have hy := (h1 m y (by rw [e1]; rfl)).resolve_left (fun h => him h.1.symm)
            rw [e4, PyDict.get?_set, if_neg (fun e => hP y hy e3 (by rw [e]; exact List.prefix_refl _))]
            exact g
          · have hy := (h1 m y (by rw [e1]; rfl)).resolve_left (fun h => him h.1.symm)
            rw [e4, PyDict.get?_set, if_neg (fun e => hP y hy e3 (by rw [← e]; exact List.take_prefix _ _))]
            exact g
    · intro k hk
      by_cases hj : i = m
      · subst hj
        obtain ⟨e1, e2, e3⟩ := addStep_put _ _ _ hst x k hk
        have hget : PyDict.get? (a.s.w.tok x.t).freq x.word = some x.f := by
          rcases h2 with g | g | g
          · rw [g] at e1; simp at e1
          · rw [g] at e1; simp at e1
          · exact g
        intro e
        rw [e] at e3
        exact e3 ((PyDict.has_iff _ _).mpr ⟨_, hget⟩)
      · rw [hne i hj] at hk; exact h3 k hk

/-! ## Alone -/

theorem setTok_setTok (w : World) (t : Nat) (x y : Tok) : (w.setTok t x).setTok t y = w.setTok t y := by
  unfold World.setTok
  congr 1
  funext u
  dsimp only
  split <;> rfl

theorem setTok_tok (w : World) (t : Nat) (x : Tok) : (w.setTok t x).tok t = x := by simp [World.setTok]

/-- `n` steps of thread `i`. -/
def stepsOf (i n : Nat) : List AEv := List.replicate n (.step i)

theorem runA_append (S : Sys F) (a : ASt) (es es' : List AEv) :
    runA S a (es ++ es') = (runA S a es).bind (fun b => runA S b es') := by
  induction es generalizing a with
  | nil => rfl
  | cons e es ih =>
    simp only [List.cons_append, runA]
    split
    · rfl
    · exact ih _

/-- One step of a thread after `check_initialized()`. -/
theorem run_step (S : Sys F) (a : ASt) (i : Nat) (r : World × AddPC) (h : addStep a.s.w (a.ad i) = some r) :
    (AEv.step i).run S a = some ({ a with s := { a.s with w := r.1 } }.goto i r.2) := by
  simp only [AEv.run]
  cases hpc : a.ad i with
  | chk x => rw [hpc] at h; simp [addStep] at h
  | wait x => rw [hpc] at h; simp [addStep] at h
  | _ => simp only []; rw [← hpc, h]; rfl

/-- The state with the process in state `w` and thread `i` at `pc`. -/
def ASt.at (a : ASt) (i : Nat) (w : World) (pc : AddPC) : ASt := { a with s := { a.s with w := w } }.goto i pc

theorem at_step (S : Sys F) (a : ASt) (i : Nat) (w : World) (pc : AddPC) (r : World × AddPC) (h : addStep w pc = some r) :
    (AEv.step i).run S (a.at i w pc) = some (a.at i r.1 r.2) := by
  have := run_step S (a.at i w pc) i r (by simpa [ASt.at] using h)
  rw [this]
  simp only [ASt.at, ASt.goto, Option.some.injEq, ASt.mk.injEq]
  refine ⟨trivial, ?_⟩
  funext j
  split <;> rfl

theorem at_steps (S : Sys F) (a : ASt) (i : Nat) (w : World) (pc : AddPC) (r : World × AddPC) (h : addStep w pc = some r) (n : Nat)
    (b : ASt) (hb : runA S (a.at i r.1 r.2) (stepsOf i n) = some b) : runA S (a.at i w pc) (stepsOf i (n + 1)) = some b := by
  simp only [stepsOf, List.replicate_succ, runA]
  rw [at_step S a i w pc r h]
  exact hb

theorem at_look (S : Sys F) (a : ASt) (i : Nat) (w : World) (x : AddArg) (m k : Nat) (d : Freq) (hk : k + m = x.word.length)
    (hd : (w.tok x.t).freq = addPrefixes x.word k d) :
    ∃ n, ∀ n' b, runA S (a.at i (w.setTok x.t { w.tok x.t with freq := addPrefixes x.word x.word.length d }) (.force x))
        (stepsOf i n') = some b → runA S (a.at i w (.look x k)) (stepsOf i (n + n')) = some b := by
  induction m generalizing k w with
  | zero =>
    refine ⟨1, fun n' b hb => ?_⟩
    rw [Nat.add_comm 1 n']
    refine at_steps S a i w _ (w, .force x) (by simp [addStep, show ¬ k < x.word.length by omega]) n' b ?_
    have hk' : x.word.length = k := by omega
    have : w.setTok x.t { w.tok x.t with freq := addPrefixes x.word x.word.length d } = w := by
      rw [hk', ← hd]
      unfold World.setTok
      cases w
      simp only [World.mk.injEq, true_and]
      funext u
      split
      · next h => subst h; rfl
      · rfl
    rw [this] at hb
    exact hb
  | succ m ih =>
    by_cases hh : PyDict.has (w.tok x.t).freq (x.word.take (k + 1)) = true
    · obtain ⟨n, hn⟩ := ih w (k + 1) (by omega) (by
        rw [addPrefixes, ← hd, if_pos hh])
      refine ⟨n + 1, fun n' b hb => ?_⟩
      rw [show n + 1 + n' = (n + n') + 1 by omega]
      exact at_steps S a i w _ (w, .look x (k + 1)) (by simp [addStep, show k < x.word.length by omega, hh]) _ b (hn n' b hb)
    · obtain ⟨n, hn⟩ := ih (World.modTok w x.t (fun y => { y with freq := y.freq.set (x.word.take (k + 1)) 0 })) (k + 1) (by omega) (by
        rw [addPrefixes, ← hd, if_neg hh, World.modTok, setTok_tok])
      refine ⟨n + 2, fun n' b hb => ?_⟩
      rw [show n + 2 + n' = (n + n' + 1) + 1 by omega]
      refine at_steps S a i w _ (w, .put x k) (by simp [addStep, show k < x.word.length by omega, hh]) _ b ?_
      refine at_steps S a i w _ (_, .look x (k + 1)) rfl _ b (hn n' b ?_)
      rw [World.modTok, setTok_tok, setTok_setTok]
      exact hb

/-- From line 428 to the end without interruption. -/
theorem addWord_rest (S : Sys F) (a : ASt) (i : Nat) (x : AddArg) :
    ∃ n, runA S (a.at i a.s.w (.setF x)) (stepsOf i n) = some (a.at i (addFreq a.s.w x.t x.word x.f x.tag) (.idle (some none))) := by
  obtain ⟨n, hn⟩ := at_look S a i (a.s.w.setTok x.t { a.s.w.tok x.t with
    freq := (a.s.w.tok x.t).freq.set x.word x.f, total := (a.s.w.tok x.t).total + x.f
    tags := if truthyStr x.tag then (a.s.w.tok x.t).tags.set x.word (x.tag.getD []) else (a.s.w.tok x.t).tags }) x x.word.length 0
    ((a.s.w.tok x.t).freq.set x.word x.f) (by omega) (by rw [setTok_tok]; rfl)
  refine ⟨n + 1 + 4, ?_⟩
  refine at_steps S a i _ _ (_, .readT x) rfl _ _ ?_
  refine at_steps S a i _ _ (_, .setT x _) rfl _ _ ?_
  refine at_steps S a i _ _ (_, .tag x) rfl _ _ ?_
  refine at_steps S a i _ _ (_, .look x 0) rfl _ _ ?_
  simp only [World.modTok, setTok_tok, setTok_setTok]
  refine hn 1 _ ?_
  refine at_steps S a i _ _ (_, .idle (some none)) rfl 0 _ ?_
  simp only [setTok_setTok, setTok_tok, stepsOf, List.replicate_zero, runA]
  rfl

/-- A thread that runs `add_word` on an initialised tokenizer without being interrupted does what the sequential model says. -/
theorem addWord_alone (S : Sys F) (a : ASt) (i : Nat) (x : AddArg) (hi : (a.s.w.tok x.t).initialized = true)
    (r q : Option (Option PyErr)) (ha : a.ad i = .idle r) (hs : a.s.th i = .idle q) :
    ∃ n, runA S a (.add i x :: stepsOf i n) = some (a.at i (addFreq a.s.w x.t x.word x.f x.tag) (.idle (some none))) := by
  obtain ⟨n, hn⟩ := addWord_rest S a i x
  refine ⟨n + 1, ?_⟩
  rw [← hn]
  simp only [runA, AEv.run, ha, hs]
  rw [stepsOf, List.replicate_succ]
  simp only [runA, AEv.run, agoto_self, agoto_s, hi, if_true]
  congr 1
  simp only [ASt.at, ASt.goto, ASt.mk.injEq]
  refine ⟨trivial, ?_⟩
  funext j
  split <;> rfl

/-- Steps of the threads of `Model/Threads` only. -/
theorem runA_evs (S : Sys F) (i : Nat) (chs : List Choice) (a : ASt) :
    runA S a (chs.map (fun ch => .ev (.step i ch))) = (runEvs S a.s (chs.map (fun ch => .step i ch))).map (fun s => { a with s := s }) := by
  induction chs generalizing a with
  | nil => rfl
  | cons ch chs ih =>
    simp only [List.map_cons, runA, runEvs, AEv.run]
    cases h : (Ev.step i ch).run S a.s with
    | none => rfl
    | some s => exact ih { a with s := s }

end Jieba.Threads

namespace Jieba.Lazy
open Jieba Jieba.Spec Jieba.Co Jieba.Threads

variable {F : Type} [LinearOrder F] {α β γ : Type}

/-- `c` does not change a process in which tokenizer `t` is healthy. -/
def Reads (t : Nat) : Co World α β → Prop
  | .ret _ => True
  | .raise _ => True
  | .yield _ k => Reads t k
  | .act f k => (∀ w, Healthy t w → f w = w) ∧ ∀ w, Reads t (k w)

theorem Reads.bind {t : Nat} {c : Co World α β} {g : β → Co World α γ} (hc : Reads t c) (hg : ∀ b, Reads t (g b)) : Reads t (c >>= g) := by
  rw [bind_def]
  induction c with
  | ret b => exact hg b
  | raise e => trivial
  | yield a k ih => exact ih hc
  | act f k ih => exact ⟨hc.1, fun w => ih w (hc.2 w)⟩

theorem Reads.get {t : Nat} {f : World → β} : Reads t (Co.get f : Co World α β) := ⟨fun _ _ => rfl, fun _ => trivial⟩

theorem Reads.lift {t : Nat} (x : Except PyErr β) : Reads t (Co.lift x : Co World α β) := by cases x <;> trivial

theorem Reads.yieldAll {t : Nat} (l : List α) : Reads t (Co.yieldAll l : Co World α Unit) := by
  induction l with
  | nil => trivial
  | cons a l ih => exact ih

theorem dagLoopL_reads (t : Nat) (s : Str) (k fuel i : Nat) (frag : Str) (acc : List Nat) :
    Reads t (dagLoopL t s k fuel i frag acc : Co World α _) := by
  induction fuel generalizing i frag acc with
  | zero => trivial
  | succ fuel ih =>
    unfold dagLoopL
    split
    · refine Reads.get.bind (fun b => ?_)
      split
      · refine Reads.get.bind (fun o => ?_)
        split
        · trivial
        · exact ih _ _ _
      · trivial
    · trivial

theorem dagRowsL_reads (t : Nat) (s : Str) (ks : List Nat) : Reads t (dagRowsL t s ks : Co World α _) := by
  induction ks with
  | nil => trivial
  | cons k ks ih =>
    unfold dagRowsL dagRowL
    refine Reads.bind (Reads.bind (dagLoopL_reads _ _ _ _ _ _ _) (fun _ => ?_)) (fun _ => ih.bind (fun _ => ?_)) <;> trivial

theorem getDAGL_reads (S : Sys F) (t : Nat) (io : Bool) (s : Str) : Reads t (getDAGL S t io s : Co World α _) := by
  unfold getDAGL
  refine ⟨fun w hw => by dsimp only; rw [checkInit_of_init S w t io hw.init], fun w => ?_⟩
  dsimp only
  split
  · trivial
  · exact dagRowsL_reads t s _

omit [LinearOrder F] in
theorem edgesL_reads (S : Sys F) (t : Nat) (lt : F) (s : Str) (tail : List (F × Nat)) (idx : Nat) (L : List Nat) :
    Reads t (edgesL S t lt s tail idx L : Co World α _) := by
  induction L with
  | nil => trivial
  | cons x L ih =>
    unfold edgesL
    exact Reads.get.bind (fun _ => (Reads.lift _).bind (fun _ => ih.bind (fun _ => trivial)))

theorem calcLoopL_reads (S : Sys F) (t : Nat) (lt : F) (s : Str) (dag : List (List Nat)) (n : Nat) (tail : List (F × Nat)) :
    Reads t (calcLoopL S t lt s dag n tail : Co World α _) := by
  induction n generalizing tail with
  | zero => trivial
  | succ n ih =>
    unfold calcLoopL
    split
    · trivial
    · exact (edgesL_reads _ _ _ _ _ _ _).bind (fun _ => (Reads.lift _).bind (fun _ => ih _))

theorem calcRouteL_reads (S : Sys F) (t : Nat) (s : Str) (dag : List (List Nat)) : Reads t (calcRouteL S t s dag : Co World α _) := by
  unfold calcRouteL
  exact Reads.get.bind (fun _ => (Reads.lift _).bind (fun _ => calcLoopL_reads _ _ _ _ _ _ _))

theorem forceLoopL_reads (t : Nat) (ws : List Str) : Reads t (forceLoopL ws) := by
  induction ws with
  | nil => trivial
  | cons word ws ih =>
    unfold forceLoopL
    refine Reads.get.bind (fun force => ?_)
    split <;> exact (Reads.yieldAll _).bind (fun _ => ih)

theorem finalsegBlocksL_reads (t : Nat) (S : Sys F) (blks : List Str) : Reads t (finalsegBlocksL S blks) := by
  induction blks with
  | nil => trivial
  | cons blk blks ih =>
    unfold finalsegBlocksL
    split
    · refine Reads.bind (forceLoopL_reads t _) (fun _ => ?_)
      split
      · exact Reads.bind (by trivial) (fun _ => ih)
      · exact Reads.bind (by trivial) (fun _ => ih)
    · exact (Reads.yieldAll _).bind (fun _ => ih)

theorem flushBufL_reads (S : Sys F) (t : Nat) (buf : Str) : Reads t (flushBufL S t buf) := by
  unfold flushBufL
  split
  · trivial
  · split
    · exact Reads.yieldAll _
    · refine Reads.get.bind (fun freq => ?_)
      split
      · exact finalsegBlocksL_reads t S _
      · exact Reads.yieldAll _

theorem dagCutLoopL_reads (S : Sys F) (t : Nat) (s : Str) (route : List (F × Nat)) (fuel x : Nat) (buf : Str) :
    Reads t (dagCutLoopL S t s route fuel x buf) := by
  induction fuel generalizing x buf with
  | zero => exact flushBufL_reads S t buf
  | succ fuel ih =>
    unfold dagCutLoopL
    split
    · split
      · trivial
      · dsimp only
        split
        · exact ih _ _
        · exact (flushBufL_reads S t buf).bind (fun _ => (Reads.yieldAll _).bind (fun _ => ih _ _))
    · exact flushBufL_reads S t buf

theorem cutBlockL_reads (S : Sys F) (t : Nat) (ca hm io : Bool) (blk : Str) : Reads t (cutBlockL S t ca hm io blk) := by
  unfold cutBlockL
  split
  · exact (getDAGL_reads S t io blk).bind (fun _ => Reads.yieldAll _)
  · split
    · exact (getDAGL_reads S t io blk).bind (fun _ => (calcRouteL_reads S t blk _).bind (fun _ => dagCutLoopL_reads _ _ _ _ _ _ _))
    · refine (getDAGL_reads S t io blk).bind (fun _ => (calcRouteL_reads S t blk _).bind (fun _ => ?_))
      unfold ofGen
      refine (Reads.yieldAll _).bind (fun _ => ?_)
      split <;> trivial

theorem cutL_reads (S : Sys F) (t : Nat) (ca hm : Bool) (s : PyText) (io : Bool) : Reads t (cutL S t ca hm s io) := by
  unfold cutL
  generalize reHanDefault.split (strdecode S.gbk s) = blks
  induction blks with
  | nil => trivial
  | cons blk blks ih =>
    unfold cutBlocksL
    split
    · exact ih
    · split
      · exact (cutBlockL_reads _ _ _ _ _ _).bind (fun _ => ih)
      · exact (Reads.yieldAll _).bind (fun _ => ih)

omit [LinearOrder F] in
/-- Threads inside `add_word` are a special case of what C65 allows. -/
theorem Beside.under {S : Sys F} {t : Nat} {a : ASt} {c : Co World α β} {l : List α} {r : Except PyErr β}
    (h : Beside S (AEv.adds (fun x => x.t = t → 0 ≤ x.f)) a c l r) (hI : NInv t a.ad) (hH : Healthy t a.s.w) (hc : Reads t c) :
    RunsUnder (Grows t) a.s.w c l r := by
  induction h with
  | ret a b => exact .ret _ b
  | raise a e => exact .raise _ e
  | yield a x k l r _ ih => exact .yield _ _ _ _ _ (ih hI hH hc)
  | act a a' es f k l r he hr _ ih =>
    obtain ⟨g1, g2, g3⟩ := ninv_run S t es a a' he hr hI hH
    have hf := hc.1 _ g2
    refine .act _ a'.s.w _ _ _ _ (fun _ => ⟨g2, g3⟩) ?_
    have := ih g1 (by dsimp only; rw [hf]; exact g2) (hc.2 _)
    exact this

end Jieba.Lazy
