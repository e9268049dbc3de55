import Verif.Model.Threads
/-!
# Lemmas about the thread machine
-/

set_option linter.unusedSectionVars false

namespace Jieba.Threads
open Jieba

variable {F : Type _} [LinearOrder F]

/-- The tokenizer whose lock a thread holds. -/
def inCS : PC → Option Nat
  | .cs t _ => some t
  | _ => none

/-- The lock object a thread holds. -/
def inW : PC → Option Nat
  | .cs _ (.bld L _) => some L
  | .cs _ (.passW _ L) => some L
  | _ => none

/-- Who holds what agrees with where the threads are. -/
def LockInv (s : St) : Prop :=
  (∀ t i, s.lock t = some i ↔ inCS (s.th i) = some t) ∧ (∀ L i, s.wl L = some i ↔ inW (s.th i) = some L)

@[simp] theorem goto_th_self (s : St) (i : Nat) (pc : PC) : (s.goto i pc).th i = pc := by simp [St.goto]
theorem goto_th_ne (s : St) (i j : Nat) (pc : PC) (h : j ≠ i) : (s.goto i pc).th j = s.th j := by simp [St.goto, h]
@[simp] theorem goto_w (s : St) (i : Nat) (pc : PC) : (s.goto i pc).w = s.w := rfl
@[simp] theorem goto_lock (s : St) (i : Nat) (pc : PC) : (s.goto i pc).lock = s.lock := rfl
@[simp] theorem goto_wl (s : St) (i : Nat) (pc : PC) : (s.goto i pc).wl = s.wl := rfl
@[simp] theorem goto_dw (s : St) (i : Nat) (pc : PC) : (s.goto i pc).dw = s.dw := rfl
@[simp] theorem goto_built (s : St) (i : Nat) (pc : PC) : (s.goto i pc).built = s.built := rfl
@[simp] theorem goto_fresh (s : St) (i : Nat) (pc : PC) : (s.goto i pc).fresh = s.fresh := rfl
@[simp] theorem setLock_w (s : St) (t : Nat) (o) : (s.setLock t o).w = s.w := rfl
@[simp] theorem setLock_th (s : St) (t : Nat) (o) : (s.setLock t o).th = s.th := rfl
@[simp] theorem setLock_wl (s : St) (t : Nat) (o) : (s.setLock t o).wl = s.wl := rfl
@[simp] theorem setLock_dw (s : St) (t : Nat) (o) : (s.setLock t o).dw = s.dw := rfl
@[simp] theorem setLock_built (s : St) (t : Nat) (o) : (s.setLock t o).built = s.built := rfl
@[simp] theorem setWl_w (s : St) (t : Nat) (o) : (s.setWl t o).w = s.w := rfl
@[simp] theorem setWl_th (s : St) (t : Nat) (o) : (s.setWl t o).th = s.th := rfl
@[simp] theorem setWl_lock (s : St) (t : Nat) (o) : (s.setWl t o).lock = s.lock := rfl
@[simp] theorem setWl_dw (s : St) (t : Nat) (o) : (s.setWl t o).dw = s.dw := rfl
@[simp] theorem setWl_built (s : St) (t : Nat) (o) : (s.setWl t o).built = s.built := rfl

/-- Is this program point handled by `csStep`? -/
def CS.isLocal : CS → Bool
  | .look _ | .waitW _ _ | .passW _ _ | .getW _ _ | .putW _ _ _ | .acqW _ _ _ | .del _ | .rel _ => false
  | .bld _ (.relW _ _) => false
  | _ => true

theorem csStep_inW (S : Sys F) (t : Nat) (w : World) (ch : Choice) (k : CS) (r : World × CS) (hl : k.isLocal = true)
    (h : csStep S t w ch k = some r) : inW (.cs t r.2) = inW (.cs t k) := by
  cases k with
  | bld L b =>
    simp only [csStep, Option.map_eq_some_iff] at h
    obtain ⟨x, -, rfl⟩ := h
    rfl
  | _ =>
    first
      | (simp only [csStep, reduceCtorEq] at h; done)
      | (simp only [csStep, Option.some.injEq] at h; subst h; first | rfl | (dsimp only; split <;> rfl))
      | (simp only [csStep] at h
         repeat' split at h
         all_goals (simp only [Option.some.injEq] at h; subst h; first | rfl | (dsimp only; split <;> rfl)))

/-- What a step of a thread can be. -/
inductive Shape (S : Sys F) (i : Nat) (ch : Choice) (s : St) : PC → St → Prop
  | chk (t) : Shape S i ch s (.chk t) (s.goto i (if (s.w.tok t).initialized then .idle (some none) else .readD t))
  | argD (t p) : Shape S i ch s (.argD t p) (s.goto i (if (s.w.tok t).dictionary = some p then .argI t p else .setD t p))
  | argI (t p) : Shape S i ch s (.argI t p) (s.goto i (if (s.w.tok t).initialized then .idle (some none) else .setD t p))
  | setD (t p) : Shape S i ch s (.setD t p)
      ({ s with w := World.modTok s.w t (fun y => { y with dictionary := some p }) }.goto i (.clrI t p))
  | clrI (t p) : Shape S i ch s (.clrI t p)
      ({ s with w := World.modTok s.w t (fun y => { y with initialized := false }) }.goto i (.acq t (some p)))
  | readD (t) : Shape S i ch s (.readD t) (s.goto i (.acq t (s.w.tok t).dictionary))
  | acq (t a) : s.lock t = none → Shape S i ch s (.acq t a) ((s.setLock t (some i)).goto i (.cs t (.look a)))
  | sdAcq (t p) : s.lock t = none → Shape S i ch s (.sdAcq t p) ((s.setLock t (some i)).goto i (.cs t (.sdFile p)))
  | lookNone (t a) : s.dw.get? a = none → Shape S i ch s (.cs t (.look a)) (s.goto i (.cs t (.ifInit a)))
  | lookSome (t a L) : s.dw.get? a = some L → Shape S i ch s (.cs t (.look a)) (s.goto i (.cs t (.waitW a L)))
  | waitW (t a L) : s.wl L = none → Shape S i ch s (.cs t (.waitW a L)) ((s.setWl L (some i)).goto i (.cs t (.passW a L)))
  | passW (t a L) : Shape S i ch s (.cs t (.passW a L)) ((s.setWl L none).goto i (.cs t (.ifInit a)))
  | getW (t a c L) : (s.dw.get? a = some L ∨ s.dw.get? a = none ∧ L = s.fresh) →
      Shape S i ch s (.cs t (.getW a c)) ({ s with fresh := s.fresh + 1 }.goto i (.cs t (.putW a c L)))
  | putW (t a c L) : Shape S i ch s (.cs t (.putW a c L)) ({ s with dw := s.dw.set a L }.goto i (.cs t (.acqW a c L)))
  | acqW (t a c L) : s.wl L = none →
      Shape S i ch s (.cs t (.acqW a c L)) ((s.setWl L (some i)).goto i (.cs t (.bld L (.dictF a c))))
  | relW (t L a) : Shape S i ch s (.cs t (.bld L (.relW a none))) ((s.setWl L none).goto i (.cs t (.del a)))
  | relWE (t L a e) : Shape S i ch s (.cs t (.bld L (.relW a (some e)))) ((s.setWl L none).goto i (.cs t (.rel (some e))))
  | del (t a) : Shape S i ch s (.cs t (.del a)) ({ s with dw := dwDel s.dw a }.goto i (.cs t .setI))
  | rel (t r) : Shape S i ch s (.cs t (.rel r)) ((s.setLock t none).goto i (.idle (some r)))
  | loc (t k w' k') : k.isLocal = true → csStep S t s.w ch k = some (w', k') → Shape S i ch s (.cs t k)
      ({ s with
          w := w'
          built := fun u => if u = t ∧ k.writesFreq = true then s.built u + 1 else s.built u }.goto i (.cs t k'))

theorem step_shape (S : Sys F) (i : Nat) (ch : Choice) (s s' : St) (h : step S i ch s = some s') :
    Shape S i ch s (s.th i) s' := by
  cases hpc : s.th i with
  | idle r => simp [step, hpc] at h
  | cs t k =>
    cases k with
    | look a =>
      simp only [step, hpc] at h
      split at h <;> (simp only [Option.some.injEq] at h; subst h)
      · exact .lookNone _ _ (by assumption)
      · exact .lookSome _ _ _ (by assumption)
    | waitW a L =>
      simp only [step, hpc] at h
      split at h
      · simp at h
      · simp only [Option.some.injEq] at h; subst h
        exact .waitW _ _ _ (by assumption)
    | acqW a c L =>
      simp only [step, hpc] at h
      split at h
      · simp at h
      · simp only [Option.some.injEq] at h; subst h
        exact .acqW _ _ _ _ (by assumption)
    | getW a c =>
      simp only [step, hpc] at h
      split at h <;> (simp only [Option.some.injEq] at h; subst h)
      · exact .getW _ _ _ _ (Or.inl (by assumption))
      · exact .getW _ _ _ _ (Or.inr ⟨by assumption, rfl⟩)
    | passW a L => simp only [step, hpc, Option.some.injEq] at h; subst h; constructor
    | putW a c L => simp only [step, hpc, Option.some.injEq] at h; subst h; constructor
    | del a => simp only [step, hpc, Option.some.injEq] at h; subst h; constructor
    | rel r => simp only [step, hpc, Option.some.injEq] at h; subst h; constructor
    | bld L b =>
      cases b with
      | relW a e =>
        simp only [step, hpc, Option.some.injEq] at h; subst h
        cases e <;> constructor
      | _ =>
        simp only [step, hpc, Option.map_eq_some_iff] at h
        obtain ⟨⟨w', k'⟩, h1, rfl⟩ := h
        exact .loc _ _ _ _ rfl h1
    | _ =>
      simp only [step, hpc, Option.map_eq_some_iff] at h
      obtain ⟨⟨w', k'⟩, h1, rfl⟩ := h
      exact .loc _ _ _ _ rfl h1
  | acq t a =>
    simp only [step, hpc] at h
    split at h
    · simp at h
    · simp only [Option.some.injEq] at h; subst h
      exact .acq _ _ (by assumption)
  | sdAcq t a =>
    simp only [step, hpc] at h
    split at h
    · simp at h
    · simp only [Option.some.injEq] at h; subst h
      exact .sdAcq _ _ (by assumption)
  | _ => simp only [step, hpc, Option.some.injEq] at h; subst h; constructor

/-- The states that can be reached by events allowed by `Q`. -/
inductive Run (S : Sys F) (Q : St → Ev → Prop) (s0 : St) : St → Prop
  | refl : Run S Q s0 s0
  | step {s s' : St} (e : Ev) : Run S Q s0 s → Q s e → e.run S s = some s' → Run S Q s0 s'

theorem run_inv (S : Sys F) (Q : St → Ev → Prop) (I : St → Prop) (s0 s : St) (h : Run S Q s0 s) (h0 : I s0)
    (hs : ∀ s s' e, I s → Q s e → e.run S s = some s' → I s') : I s := by
  induction h with
  | refl => exact h0
  | step e _ hq he ih => exact hs _ _ e ih hq he

theorem Run.mono {S : Sys F} {Q Q' : St → Ev → Prop} {s0 s : St} (h : Run S Q s0 s) (hq : ∀ s e, Q s e → Q' s e) :
    Run S Q' s0 s := by
  induction h with
  | refl => exact .refl
  | step e _ h1 h2 ih => exact .step e ih (hq _ _ h1) h2

theorem run_of_evs (S : Sys F) (s s' : St) (es : List Ev) (h : runEvs S s es = some s') : Run S (fun _ _ => True) s s' := by
  have gen : ∀ s0, Run S (fun _ _ => True) s0 s → Run S (fun _ _ => True) s0 s' := by
    induction es generalizing s with
    | nil => intro s0 h0; simp [runEvs] at h; subst h; exact h0
    | cons e es ih =>
      intro s0 h0
      unfold runEvs at h
      split at h
      · simp at h
      · next s1 h1 => exact ih s1 h s0 (.step e h0 trivial h1)
  exact gen s .refl

/-! ## Locks -/

theorem lockInv_goto (s : St) (i : Nat) (pc : PC) (h : LockInv s) (h1 : inCS pc = inCS (s.th i)) (h2 : inW pc = inW (s.th i)) :
    LockInv (s.goto i pc) := by
  refine ⟨fun t j => ?_, fun L j => ?_⟩ <;> by_cases hj : j = i
  · subst hj; rw [goto_lock, goto_th_self, h1]; exact h.1 t j
  · rw [goto_lock, goto_th_ne _ _ _ _ hj]; exact h.1 t j
  · subst hj; rw [goto_wl, goto_th_self, h2]; exact h.2 L j
  · rw [goto_wl, goto_th_ne _ _ _ _ hj]; exact h.2 L j

theorem lockInv_acquire (s : St) (i t : Nat) (pc : PC) (h : LockInv s) (hl : s.lock t = none) (h0 : inCS (s.th i) = none)
    (h1 : inCS pc = some t) (h2 : inW pc = inW (s.th i)) : LockInv ((s.setLock t (some i)).goto i pc) := by
  refine ⟨fun u j => ?_, fun L j => ?_⟩ <;> by_cases hj : j = i
  · subst hj
    rw [goto_lock, goto_th_self, h1]
    simp only [St.setLock, Option.some.injEq]
    by_cases hu : u = t
    · subst hu; simp
    · rw [if_neg hu]
      constructor
      · intro h'; rw [(h.1 u j).mp h'] at h0; simp at h0
      · intro h'; exact absurd h'.symm hu
  · rw [goto_lock, goto_th_ne _ _ _ _ hj, setLock_th, ← h.1 u j]
    simp only [St.setLock]
    by_cases hu : u = t
    · subst hu; rw [if_pos rfl, hl]; simp; exact fun h' => hj h'.symm
    · rw [if_neg hu]
  · subst hj; rw [goto_wl, goto_th_self, h2, setLock_wl]; exact h.2 L j
  · rw [goto_wl, goto_th_ne _ _ _ _ hj]; exact h.2 L j

theorem lockInv_release (s : St) (i t : Nat) (pc : PC) (h : LockInv s) (h0 : inCS (s.th i) = some t)
    (h1 : inCS pc = none) (h2 : inW pc = inW (s.th i)) : LockInv ((s.setLock t none).goto i pc) := by
  have hl := (h.1 t i).mpr h0
  refine ⟨fun u j => ?_, fun L j => ?_⟩ <;> by_cases hj : j = i
  · subst hj
    rw [goto_lock, goto_th_self, h1]
    simp only [St.setLock]
    by_cases hu : u = t
    · subst hu; simp
    · rw [if_neg hu]
      constructor
      · intro h'; rw [(h.1 u j).mp h'] at h0; exact absurd (Option.some.inj h0) hu
      · intro h'; simp at h'
  · rw [goto_lock, goto_th_ne _ _ _ _ hj, setLock_th, ← h.1 u j]
    simp only [St.setLock]
    by_cases hu : u = t
    · subst hu; rw [if_pos rfl, hl]; simp; exact fun h' => hj h'.symm
    · rw [if_neg hu]
  · subst hj; rw [goto_wl, goto_th_self, h2, setLock_wl]; exact h.2 L j
  · rw [goto_wl, goto_th_ne _ _ _ _ hj]; exact h.2 L j

theorem lockInv_acquireW (s : St) (i L : Nat) (pc : PC) (h : LockInv s) (hl : s.wl L = none) (h0 : inW (s.th i) = none)
    (h1 : inW pc = some L) (h2 : inCS pc = inCS (s.th i)) : LockInv ((s.setWl L (some i)).goto i pc) := by
  refine ⟨fun u j => ?_, fun M j => ?_⟩ <;> by_cases hj : j = i
  · subst hj; rw [goto_lock, goto_th_self, h2, setWl_lock]; exact h.1 u j
  · rw [goto_lock, goto_th_ne _ _ _ _ hj]; exact h.1 u j
  · subst hj
    rw [goto_wl, goto_th_self, h1]
    simp only [St.setWl, Option.some.injEq]
    by_cases hu : M = L
    · subst hu; simp
    · rw [if_neg hu]
      constructor
      · intro h'; rw [(h.2 M j).mp h'] at h0; simp at h0
      · intro h'; exact absurd h'.symm hu
  · rw [goto_wl, goto_th_ne _ _ _ _ hj, setWl_th, ← h.2 M j]
    simp only [St.setWl]
    by_cases hu : M = L
    · subst hu; rw [if_pos rfl, hl]; simp; exact fun h' => hj h'.symm
    · rw [if_neg hu]

theorem lockInv_releaseW (s : St) (i L : Nat) (pc : PC) (h : LockInv s) (h0 : inW (s.th i) = some L)
    (h1 : inW pc = none) (h2 : inCS pc = inCS (s.th i)) : LockInv ((s.setWl L none).goto i pc) := by
  have hl := (h.2 L i).mpr h0
  refine ⟨fun u j => ?_, fun M j => ?_⟩ <;> by_cases hj : j = i
  · subst hj; rw [goto_lock, goto_th_self, h2, setWl_lock]; exact h.1 u j
  · rw [goto_lock, goto_th_ne _ _ _ _ hj]; exact h.1 u j
  · subst hj
    rw [goto_wl, goto_th_self, h1]
    simp only [St.setWl]
    by_cases hu : M = L
    · subst hu; simp
    · rw [if_neg hu]
      constructor
      · intro h'; rw [(h.2 M j).mp h'] at h0; exact absurd (Option.some.inj h0) hu
      · intro h'; simp at h'
  · rw [goto_wl, goto_th_ne _ _ _ _ hj, setWl_th, ← h.2 M j]
    simp only [St.setWl]
    by_cases hu : M = L
    · subst hu; rw [if_pos rfl, hl]; simp; exact fun h' => hj h'.symm
    · rw [if_neg hu]

theorem lockInv_step (S : Sys F) (i : Nat) (ch : Choice) (s s' : St) (h : LockInv s) (hs : step S i ch s = some s') : LockInv s' := by
  have sh := step_shape S i ch s s' hs
  generalize hpc : s.th i = pc at sh
  cases sh with
  | chk t => exact lockInv_goto _ _ _ h (by rw [hpc]; split <;> rfl) (by rw [hpc]; split <;> rfl)
  | argD t p => exact lockInv_goto _ _ _ h (by rw [hpc]; split <;> rfl) (by rw [hpc]; split <;> rfl)
  | argI t p => exact lockInv_goto _ _ _ h (by rw [hpc]; split <;> rfl) (by rw [hpc]; split <;> rfl)
  | setD t p => exact lockInv_goto { s with w := _ } _ _ h (by simp only [hpc]; rfl) (by simp only [hpc]; rfl)
  | clrI t p => exact lockInv_goto { s with w := _ } _ _ h (by simp only [hpc]; rfl) (by simp only [hpc]; rfl)
  | readD t => exact lockInv_goto _ _ _ h (by rw [hpc]; rfl) (by rw [hpc]; rfl)
  | acq t a hl => exact lockInv_acquire _ _ _ _ h hl (by rw [hpc]; rfl) rfl (by rw [hpc]; rfl)
  | sdAcq t a hl => exact lockInv_acquire _ _ _ _ h hl (by rw [hpc]; rfl) rfl (by rw [hpc]; rfl)
  | lookNone t a _ => exact lockInv_goto _ _ _ h (by rw [hpc]; rfl) (by rw [hpc]; rfl)
  | lookSome t a L _ => exact lockInv_goto _ _ _ h (by rw [hpc]; rfl) (by rw [hpc]; rfl)
  | waitW t a L hl => exact lockInv_acquireW _ _ _ _ h hl (by rw [hpc]; rfl) rfl (by rw [hpc]; rfl)
  | passW t a L => exact lockInv_releaseW _ _ _ _ h (by rw [hpc]; rfl) rfl (by rw [hpc]; rfl)
  | getW t a c L _ => exact lockInv_goto { s with fresh := _ } _ _ h (by simp only [hpc]; rfl) (by simp only [hpc]; rfl)
  | putW t a c L => exact lockInv_goto { s with dw := _ } _ _ h (by simp only [hpc]; rfl) (by simp only [hpc]; rfl)
  | acqW t a c L hl => exact lockInv_acquireW _ _ _ _ h hl (by rw [hpc]; rfl) rfl (by rw [hpc]; rfl)
  | relW t L a => exact lockInv_releaseW _ _ _ _ h (by rw [hpc]; rfl) rfl (by rw [hpc]; rfl)
  | relWE t L a e => exact lockInv_releaseW _ _ _ _ h (by rw [hpc]; rfl) rfl (by rw [hpc]; rfl)
  | del t a => exact lockInv_goto { s with dw := _ } _ _ h (by simp only [hpc]; rfl) (by simp only [hpc]; rfl)
  | rel t r => exact lockInv_release _ _ _ _ h (by rw [hpc]; rfl) rfl (by rw [hpc]; rfl)
  | loc t k w' k' hk h1 =>
    exact lockInv_goto { s with w := w', built := _ } _ _ h (by simp only [hpc]; rfl)
      (by simp only [hpc]; exact csStep_inW S t s.w ch k _ hk h1)

theorem start_inCS (S : Sys F) (c : Call) : inCS (c.start S) = none ∧ inW (c.start S) = none := by
  unfold Call.start; split <;> exact ⟨rfl, rfl⟩

theorem lockInv_ev (S : Sys F) (e : Ev) (s s' : St) (h : LockInv s) (hs : e.run S s = some s') : LockInv s' := by
  cases e with
  | start i c =>
    simp only [Ev.run] at hs
    split at hs
    · next r hpc =>
      simp only [Option.some.injEq] at hs; subst hs
      exact lockInv_goto _ _ _ h (by rw [hpc, (start_inCS S c).1]; rfl) (by rw [hpc, (start_inCS S c).2]; rfl)
    · simp at hs
  | step i ch => exact lockInv_step S i ch s s' h hs
  | write p data => simp only [Ev.run, Option.some.injEq] at hs; subst hs; exact h
  | remove p => simp only [Ev.run, Option.some.injEq] at hs; subst hs; exact h
  | tick => simp only [Ev.run, Option.some.injEq] at hs; subst hs; exact h

theorem lockInv_init (w : World) : LockInv (St.init w) := by
  refine ⟨fun t i => ?_, fun L i => ?_⟩ <;> simp [St.init, inCS, inW]

theorem lockInv_run (S : Sys F) (Q : St → Ev → Prop) (w : World) (s : St) (h : Run S Q (St.init w) s) : LockInv s :=
  run_inv S Q LockInv _ s h (lockInv_init w) (fun s s' e hI _ he => lockInv_ev S e s s' hI he)

/-! ## Progress -/

def PC.active : PC → Bool
  | .idle _ => false
  | _ => true

/-- Thread `i` can make a step. -/
def Enabled (S : Sys F) (s : St) (i : Nat) : Prop := ∃ ch s', step S i ch s = some s'

theorem bldStep_some (S : Sys F) (t : Nat) (w : World) (b : Bld) (h : ∀ a e, b ≠ .relW a e) :
    ∃ ch r, bldStep S t w ch b = some r := by
  cases b with
  | relW a e => exact absurd rfl (h a e)
  | mk a c => exact ⟨.fail, _, rfl⟩
  | part a c q => exact ⟨.fail, _, rfl⟩
  | full a c q x => exact ⟨.fail, _, rfl⟩
  | ren a c q => exact ⟨.fail, _, rfl⟩
  | openD a c d =>
    refine ⟨.go, ?_⟩
    simp only [bldStep]
    split
    · exact ⟨_, rfl⟩
    · split <;> exact ⟨_, rfl⟩
  | _ => exact ⟨.go, _, rfl⟩

theorem csStep_some (S : Sys F) (t : Nat) (w : World) (k : CS) (h : k.isLocal = true) : ∃ ch r, csStep S t w ch k = some r := by
  cases k with
  | bld L b =>
    have : ∀ a e, b ≠ .relW a e := by rintro a e rfl; simp [CS.isLocal] at h
    obtain ⟨ch, r, hr⟩ := bldStep_some S t w b this
    exact ⟨ch, (r.1, .bld L r.2), by simp [csStep, hr]⟩
  | isFile a c => refine ⟨.go, ?_⟩; simp only [csStep]; split; exact ⟨_, rfl⟩; split <;> exact ⟨_, rfl⟩
  | mtC p c => refine ⟨.go, ?_⟩; simp only [csStep]; split <;> exact ⟨_, rfl⟩
  | mtD p c m => refine ⟨.go, ?_⟩; simp only [csStep]; split <;> exact ⟨_, rfl⟩
  | openC a c => refine ⟨.go, ?_⟩; simp only [csStep]; split <;> exact ⟨_, rfl⟩
  | sdFile p => refine ⟨.go, ?_⟩; simp only [csStep]; split <;> exact ⟨_, rfl⟩
  | _ => first | (exact ⟨.go, _, rfl⟩) | (simp [CS.isLocal] at h)

theorem step_local (S : Sys F) (i : Nat) (ch : Choice) (s : St) (t : Nat) (k : CS) (hpc : s.th i = .cs t k) (h : k.isLocal = true) :
    step S i ch s = (csStep S t s.w ch k).map (fun r =>
      { s with
        w := r.1
        built := fun u => if u = t ∧ k.writesFreq = true then s.built u + 1 else s.built u }.goto i (.cs t r.2)) := by
  cases k with
  | bld L b => cases b <;> first | (simp [CS.isLocal] at h; done) | (simp only [step, hpc])
  | _ => first | (simp [CS.isLocal] at h; done) | (simp only [step, hpc])

/-- A thread that cannot move waits for a lock that some thread holds. -/
theorem blocked (S : Sys F) (s : St) (i : Nat) (ha : (s.th i).active = true) :
    Enabled S s i ∨ (∃ t j, inCS (s.th i) = none ∧ s.lock t = some j) ∨ (∃ L j, inW (s.th i) = none ∧ s.wl L = some j) := by
  cases hpc : s.th i with
  | idle r => rw [hpc] at ha; simp [PC.active] at ha
  | acq t a =>
    cases hl : s.lock t with
    | some j => exact Or.inr (Or.inl ⟨t, j, rfl, hl⟩)
    | none => exact Or.inl ⟨.go, by simp only [step, hpc, hl]; exact ⟨_, rfl⟩⟩
  | sdAcq t a =>
    cases hl : s.lock t with
    | some j => exact Or.inr (Or.inl ⟨t, j, rfl, hl⟩)
    | none => exact Or.inl ⟨.go, by simp only [step, hpc, hl]; exact ⟨_, rfl⟩⟩
  | cs t k =>
    by_cases hk : k.isLocal = true
    · left
      obtain ⟨ch, r, hr⟩ := csStep_some S t s.w k hk
      exact ⟨ch, _, by rw [step_local S i ch s t k hpc hk, hr]; rfl⟩
    · cases k with
      | look a =>
        left
        refine ⟨.go, ?_⟩
        simp only [step, hpc]
        split <;> exact ⟨_, rfl⟩
      | getW a c =>
        left
        refine ⟨.go, ?_⟩
        simp only [step, hpc]
        split <;> exact ⟨_, rfl⟩
      | waitW a L =>
        cases hl : s.wl L with
        | some j => exact Or.inr (Or.inr ⟨L, j, rfl, hl⟩)
        | none => exact Or.inl ⟨.go, by simp only [step, hpc, hl]; exact ⟨_, rfl⟩⟩
      | acqW a c L =>
        cases hl : s.wl L with
        | some j => exact Or.inr (Or.inr ⟨L, j, rfl, hl⟩)
        | none => exact Or.inl ⟨.go, by simp only [step, hpc, hl]; exact ⟨_, rfl⟩⟩
      | bld L b =>
        cases b with
        | relW a e => exact Or.inl ⟨.go, by simp only [step, hpc]; exact ⟨_, rfl⟩⟩
        | _ => simp [CS.isLocal] at hk
      | _ => first | (exact Or.inl ⟨.go, by simp only [step, hpc]; exact ⟨_, rfl⟩⟩) | (simp [CS.isLocal] at hk)
  | _ => exact Or.inl ⟨.go, by simp only [step, hpc]; exact ⟨_, rfl⟩⟩

theorem enabled_of_inW (S : Sys F) (s : St) (i L : Nat) (h : inW (s.th i) = some L) : Enabled S s i := by
  have ha : (s.th i).active = true := by
    cases hpc : s.th i <;> first | rfl | (rw [hpc] at h; simp [inW] at h)
  have hc : inCS (s.th i) ≠ none := by
    cases hpc : s.th i <;> first | (simp [inCS]; done) | (rw [hpc] at h; simp [inW] at h)
  rcases blocked S s i ha with h' | ⟨t, j, h', -⟩ | ⟨M, j, h', -⟩
  · exact h'
  · exact absurd h' hc
  · rw [h] at h'; simp at h'

theorem progress (S : Sys F) (s : St) (hL : LockInv s) (i : Nat) (ha : (s.th i).active = true) :
    ∃ j, (s.th j).active = true ∧ Enabled S s j := by
  have act : ∀ j L, inW (s.th j) = some L → (s.th j).active = true := by
    intro j L h
    cases hpc : s.th j <;> first | rfl | (rw [hpc] at h; simp [inW] at h)
  have viaW : ∀ L j, s.wl L = some j → ∃ j, (s.th j).active = true ∧ Enabled S s j := by
    intro L j h
    have := (hL.2 L j).mp h
    exact ⟨j, act j L this, enabled_of_inW S s j L this⟩
  rcases blocked S s i ha with h | ⟨t, j, -, h⟩ | ⟨L, j, -, h⟩
  · exact ⟨i, ha, h⟩
  · have hj := (hL.1 t j).mp h
    have haj : (s.th j).active = true := by
      cases hpc : s.th j <;> first | rfl | (rw [hpc] at hj; simp [inCS] at hj)
    rcases blocked S s j haj with h' | ⟨u, l, h', -⟩ | ⟨L, l, -, h'⟩
    · exact ⟨j, haj, h'⟩
    · rw [hj] at h'; simp at h'
    · exact viaW L l h'
  · exact viaW L j h

/-! ## Every call takes a bounded number of steps -/

def Bld.rank : Bld → Nat
  | .dictF _ _ => 12 | .openD _ _ _ => 11 | .setF _ _ _ => 10 | .setT _ _ _ => 9 | .mk _ _ => 8
  | .part _ _ _ => 7 | .full _ _ _ _ => 6 | .ren _ _ _ => 5 | .relW _ _ => 4

def CS.rank : CS → Nat
  | .look _ => 24 | .waitW _ _ => 23 | .passW _ _ => 22 | .ifInit _ => 21 | .cname _ => 20 | .isFile _ _ => 19
  | .mtC _ _ => 18 | .mtD _ _ _ => 17 | .openC _ _ => 16 | .setF _ => 4 | .setT _ => 3 | .getW _ _ => 15 | .putW _ _ _ => 14
  | .acqW _ _ _ => 13 | .bld _ b => b.rank | .del _ => 3 | .setI => 2 | .rel _ => 1 | .sdFile _ => 4 | .sdD _ => 3 | .sdI => 2

/-- An upper bound on the number of steps up to the end of the call. -/
def PC.rank : PC → Nat
  | .idle _ => 0 | .chk _ => 27 | .argD _ _ => 29 | .argI _ _ => 28 | .setD _ _ => 27 | .clrI _ _ => 26 | .readD _ => 26
  | .acq _ _ => 25 | .sdAcq _ _ => 25 | .cs _ k => k.rank

theorem bldStep_rank (S : Sys F) (t : Nat) (w : World) (ch : Choice) (b : Bld) (r : World × Bld) (h : bldStep S t w ch b = some r) :
    r.2.rank < b.rank := by
  cases b <;> simp only [bldStep] at h <;> (repeat' split at h) <;> simp only [Option.some.injEq, reduceCtorEq] at h <;>
    subst h <;> simp [Bld.rank]

theorem csStep_rank (S : Sys F) (t : Nat) (w : World) (ch : Choice) (k : CS) (r : World × CS) (h : csStep S t w ch k = some r) :
    r.2.rank < k.rank := by
  cases k with
  | bld L b =>
    simp only [csStep, Option.map_eq_some_iff] at h
    obtain ⟨x, hx, rfl⟩ := h
    exact bldStep_rank S t w ch b x hx
  | _ =>
    simp only [csStep] at h <;> (repeat' split at h) <;> simp only [Option.some.injEq, reduceCtorEq] at h <;>
      subst h <;> (repeat' split) <;> simp [CS.rank]

theorem step_rank (S : Sys F) (i : Nat) (ch : Choice) (s s' : St) (h : step S i ch s = some s') :
    (s'.th i).rank < (s.th i).rank ∧ ∀ j, j ≠ i → s'.th j = s.th j := by
  have sh := step_shape S i ch s s' h
  generalize hpc : s.th i = pc at sh
  cases sh with
  | loc t k w' k' hk h1 =>
    refine ⟨?_, fun j hj => goto_th_ne _ _ _ _ hj⟩
    rw [goto_th_self]
    exact csStep_rank S t s.w ch k _ h1
  | _ =>
    refine ⟨?_, fun j hj => goto_th_ne _ _ _ _ hj⟩
    rw [goto_th_self]
    first | (simp [PC.rank, CS.rank, Bld.rank]; done) | (split <;> simp [PC.rank])

/-- The number of steps left of threads `0 .. n-1`. -/
def work (n : Nat) (s : St) : Nat := ((List.range n).map (fun i => (s.th i).rank)).sum

theorem sum_lt (l : List Nat) (f g : Nat → Nat) (hle : ∀ x ∈ l, f x ≤ g x) (i : Nat) (hi : i ∈ l) (hlt : f i < g i) :
    (l.map f).sum < (l.map g).sum := by
  have hle' : ∀ l : List Nat, (∀ x ∈ l, f x ≤ g x) → (l.map f).sum ≤ (l.map g).sum := by
    intro l
    induction l with
    | nil => intro _; simp
    | cons a l ih =>
      intro h
      simp only [List.map_cons, List.sum_cons]
      have h1 := h a List.mem_cons_self
      have h2 := ih (fun x hx => h x (List.mem_cons_of_mem _ hx))
      omega
  induction l with
  | nil => simp at hi
  | cons a l ih =>
    simp only [List.map_cons, List.sum_cons]
    have h1 := hle a List.mem_cons_self
    have h3 := hle' l (fun x hx => hle x (List.mem_cons_of_mem _ hx))
    rcases List.mem_cons.mp hi with rfl | hi
    · omega
    · have h2 := ih (fun x hx => hle x (List.mem_cons_of_mem _ hx)) hi
      omega

theorem work_step (S : Sys F) (n i : Nat) (ch : Choice) (s s' : St) (h : step S i ch s = some s') (hi : i < n) :
    work n s' < work n s := by
  obtain ⟨h1, h2⟩ := step_rank S i ch s s' h
  unfold work
  refine sum_lt _ _ _ ?_ i (List.mem_range.mpr hi) h1
  intro j _
  by_cases hj : j = i
  · subst hj; exact Nat.le_of_lt h1
  · rw [h2 j hj]; exact Nat.le_refl _

end Jieba.Threads
