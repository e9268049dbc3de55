import Verif.Proofs.Threads
/-!
# Initialisation of one tokenizer that keeps its dictionary
-/

set_option linter.unusedSectionVars false

namespace Jieba.Threads
open Jieba

variable {F : Type _} [LinearOrder F]

@[simp] theorem tok_setFile (w : World) (p : Path) (f : Option File) : (w.setFile p f).tok = w.tok := rfl

/-- The events considered: no call gives tokenizer `t` another dictionary; every dictionary or cache that is read for it holds a
value allowed by `P`. -/
def onlyInit (S : Sys F) (t : Nat) (D0 : Option Path) (c0 : Path) (P : Freq × Int → Prop) (s : St) (e : Ev) : Prop :=
  ((∀ data x, dictFile s.w D0 = .ok data → genPfdict data = .ok x → P x) ∧
    (∀ f x, s.w.files c0 = some f → S.load f.data = some x → P x)) ∧
  match e with
  | .start _ (.init u (some (_ :: _))) => u ≠ t
  | .start _ (.setDict u _) => u ≠ t
  | _ => True

section
variable (t : Nat) (D0 : Option Path) (c0 : Path) (P : Freq × Int → Prop)

/-- Nothing built yet, or everything done. -/
def Base (x : Tok) (n : Nat) : Prop :=
  x.initialized = false ∧ n = 0 ∨ x.initialized = true ∧ n = 1 ∧ P (x.freq, x.total)

def Before (x : Tok) (n : Nat) : Prop := x.initialized = false ∧ n = 0

def Built (x : Tok) (n : Nat) : Prop := x.initialized = false ∧ n = 1 ∧ P (x.freq, x.total)

def JB (x : Tok) (n : Nat) : Bld → Prop
  | .dictF _ _ => Before x n
  | .openD _ _ d => d = D0 ∧ Before x n
  | .setF _ _ v => P v ∧ Before x n
  | .setT _ _ m => x.initialized = false ∧ n = 1 ∧ P (x.freq, m)
  | .mk _ _ | .part _ _ _ | .full _ _ _ _ | .ren _ _ _ | .relW _ none => Built P x n
  | .relW _ (some _) => Before x n

def J (x : Tok) (n : Nat) : CS → Prop
  | .look a | .waitW a _ | .passW a _ | .ifInit a => a = D0 ∧ Base P x n
  | .cname a => a = D0 ∧ Before x n
  | .isFile a c | .openC a c => a = D0 ∧ c = c0 ∧ Before x n
  | .mtC p c | .mtD p c _ => some p = D0 ∧ c = c0 ∧ Before x n
  | .getW _ _ | .putW _ _ _ | .acqW _ _ _ => Before x n
  | .setF v => P v ∧ Before x n
  | .setT m => x.initialized = false ∧ n = 1 ∧ P (x.freq, m)
  | .bld _ b => JB D0 P x n b
  | .del _ | .setI => Built P x n
  | .rel r => Base P x n ∧ (r = none → x.initialized = true)
  | .sdFile _ | .sdD _ | .sdI => False

def JP (x : Tok) (n : Nat) : PC → Prop
  | .argD u _ | .argI u _ | .setD u _ | .clrI u _ | .sdAcq u _ => u ≠ t
  | .acq u a => u = t → a = D0
  | .cs u k => u = t → J D0 c0 P x n k
  | _ => True

structure OInv (w0 : World) (s : St) : Prop where
  locks : LockInv s
  const : (s.w.tok t).tmpDir = (w0.tok t).tmpDir ∧ (s.w.tok t).cacheFile = (w0.tok t).cacheFile ∧ (s.w.tok t).dictionary = D0
  pcs : ∀ i, JP t D0 c0 P (s.w.tok t) (s.built t) (s.th i)
  base : (∀ i, inCS (s.th i) ≠ some t) → Base P (s.w.tok t) (s.built t)

/-- A step of a thread outside the lock of `t`. -/
theorem oinv_other (w0 : World) (s s' : St) (i : Nat) (hG : OInv t D0 c0 P w0 s) (hl : LockInv s')
    (hth : ∀ j, j ≠ i → s'.th j = s.th j) (htok : s'.w.tok t = s.w.tok t) (hb : s'.built t = s.built t)
    (hi : inCS (s.th i) ≠ some t) (hpc : JP t D0 c0 P (s.w.tok t) (s.built t) (s'.th i)) : OInv t D0 c0 P w0 s' := by
  refine ⟨hl, by rw [htok]; exact hG.const, fun j => ?_, fun h => ?_⟩
  · rw [htok, hb]
    by_cases hj : j = i
    · subst hj; exact hpc
    · rw [hth j hj]; exact hG.pcs j
  · rw [htok, hb]
    apply hG.base
    intro j
    by_cases hj : j = i
    · subst hj; exact hi
    · rw [← hth j hj]; exact h j

/-- A step inside the lock of `t`. -/
theorem oinv_cs (w0 : World) (s s' : St) (i : Nat) (k' : CS) (hG : OInv t D0 c0 P w0 s) (hl : LockInv s')
    (hth : ∀ j, j ≠ i → s'.th j = s.th j) (hi : inCS (s.th i) = some t) (hi' : s'.th i = .cs t k')
    (hc : (s'.w.tok t).tmpDir = (s.w.tok t).tmpDir ∧ (s'.w.tok t).cacheFile = (s.w.tok t).cacheFile ∧
      (s'.w.tok t).dictionary = (s.w.tok t).dictionary)
    (hpc : J D0 c0 P (s'.w.tok t) (s'.built t) k') : OInv t D0 c0 P w0 s' := by
  refine ⟨hl, by rw [hc.1, hc.2.1, hc.2.2]; exact hG.const, fun j => ?_, fun h => ?_⟩
  · by_cases hj : j = i
    · subst hj; rw [hi']; exact fun _ => hpc
    · have hne : inCS (s.th j) ≠ some t := by
        intro h
        have e1 := (hG.locks.1 t j).mpr h
        have e2 := (hG.locks.1 t i).mpr hi
        rw [e1] at e2; exact hj (Option.some.inj e2)
      have := hG.pcs j
      rw [hth j hj]
      generalize s.th j = pc at this hne
      cases pc with
      | cs u k => intro hu; subst hu; exact absurd rfl hne
      | _ => exact this
  · exact absurd (by rw [hi']; rfl) (h i)

theorem csStep_tok_ne (S : Sys F) (u : Nat) (w : World) (ch : Choice) (k : CS) (r : World × CS) (h : csStep S u w ch k = some r)
    (v : Nat) (hv : v ≠ u) : r.1.tok v = w.tok v := by
  have hm : ∀ f, (World.modTok w u f).tok v = w.tok v := by
    intro f; simp [World.modTok, World.setTok, hv]
  cases k with
  | bld L b =>
    simp only [csStep, Option.map_eq_some_iff] at h
    obtain ⟨x, hx, rfl⟩ := h
    cases b <;> simp only [bldStep] at hx <;> (repeat' split at hx) <;> simp only [Option.some.injEq, reduceCtorEq] at hx <;>
      subst hx <;> first | rfl | (dsimp only; exact hm _)
  | _ =>
    simp only [csStep] at h
    repeat' split at h
    all_goals first
      | (simp only [reduceCtorEq] at h; done)
      | (simp only [Option.some.injEq] at h; subst h; first | rfl | (dsimp only; exact hm _))

theorem oinv_step (S : Sys F) (w0 : World)
    (hc0 : ∀ x : Tok, x.tmpDir = (w0.tok t).tmpDir → x.cacheFile = (w0.tok t).cacheFile → cachePath S x D0 = c0)
    (i : Nat) (ch : Choice) (s s' : St) (hG : OInv t D0 c0 P w0 s)
    (hq : onlyInit S t D0 c0 P s (.step i ch)) (hs : step S i ch s = some s') : OInv t D0 c0 P w0 s' := by
  have hl := lockInv_step S i ch s s' hG.locks hs
  obtain ⟨-, hth⟩ := step_rank S i ch s s' hs
  have sh := step_shape S i ch s s' hs
  have hp := hG.pcs i
  have modne : ∀ u f, u ≠ t → (World.modTok s.w u f).tok t = s.w.tok t := by
    intro u f hu; simp [World.modTok, World.setTok, Ne.symm hu]
  have modeq : ∀ f, (World.modTok s.w t f).tok t = f (s.w.tok t) := by
    intro f; simp [World.modTok, World.setTok]
  generalize hpc : s.th i = pc at sh hp
  cases sh with
  | chk u =>
    exact oinv_other t D0 c0 P w0 s _ i hG hl hth rfl rfl (by rw [hpc]; simp [inCS]) (by rw [goto_th_self]; split <;> trivial)
  | argD u p =>
    exact oinv_other t D0 c0 P w0 s _ i hG hl hth rfl rfl (by rw [hpc]; simp [inCS]) (by rw [goto_th_self]; split <;> exact hp)
  | argI u p =>
    exact oinv_other t D0 c0 P w0 s _ i hG hl hth rfl rfl (by rw [hpc]; simp [inCS])
      (by rw [goto_th_self]; split; trivial; exact hp)
  | setD u p =>
    exact oinv_other t D0 c0 P w0 s _ i hG hl hth (by simp only [goto_w]; exact modne _ _ hp) rfl (by rw [hpc]; simp [inCS]) (by rw [goto_th_self]; exact hp)
  | clrI u p =>
    exact oinv_other t D0 c0 P w0 s _ i hG hl hth (by simp only [goto_w]; exact modne _ _ hp) rfl (by rw [hpc]; simp [inCS])
      (by rw [goto_th_self]; exact fun h => absurd h hp)
  | readD u =>
    exact oinv_other t D0 c0 P w0 s _ i hG hl hth rfl rfl (by rw [hpc]; simp [inCS])
      (by rw [goto_th_self]; rintro rfl; exact hG.const.2.2)
  | acq u a hu =>
    refine oinv_other t D0 c0 P w0 s _ i hG hl hth rfl rfl (by rw [hpc]; simp [inCS]) ?_
    rw [goto_th_self]
    rintro rfl
    refine ⟨hp rfl, hG.base ?_⟩
    intro j hj
    rw [(hG.locks.1 u j).mpr hj] at hu; simp at hu
  | sdAcq u p hu =>
    refine oinv_other t D0 c0 P w0 s _ i hG hl hth rfl rfl (by rw [hpc]; simp [inCS]) ?_
    rw [goto_th_self]
    exact fun h => absurd h hp
  | rel u r =>
    by_cases hu : u = t
    · subst hu
      refine ⟨hl, hG.const, fun j => ?_, fun _ => (hp rfl).1⟩
      by_cases hj : j = i
      · subst hj; rw [goto_th_self]; trivial
      · rw [goto_th_ne _ _ _ _ hj]; exact hG.pcs j
    · exact oinv_other t D0 c0 P w0 s _ i hG hl hth rfl rfl (by rw [hpc]; simp [inCS, hu]) (by rw [goto_th_self]; trivial)
  | loc u k w' k' hk h1 =>
    by_cases hu : u = t
    · subst hu
      have hp := hp rfl
      cases k with
      | ifInit a =>
        simp only [csStep, Option.some.injEq, Prod.mk.injEq] at h1
        obtain ⟨rfl, rfl⟩ := h1
        refine oinv_cs u D0 c0 P w0 s _ i _ hG hl hth (by rw [hpc]; rfl) (goto_th_self _ _ _) ⟨rfl, rfl, rfl⟩ ?_
        have hb : (if u = u ∧ (CS.ifInit a).writesFreq = true then s.built u + 1 else s.built u) = s.built u := by
          simp [CS.writesFreq]
        simp only [goto_w, goto_built]
        by_cases hi : (s.w.tok u).initialized = true
        · rw [if_pos hi]; exact ⟨hp.2, fun _ => hi⟩
        · rw [if_neg hi]
          refine ⟨hp.1, ?_⟩
          rcases hp.2 with h | ⟨h, -⟩
          · exact h
          · exact absurd h hi
      | cname a =>
        simp only [csStep, Option.some.injEq, Prod.mk.injEq] at h1
        obtain ⟨rfl, rfl⟩ := h1
        refine oinv_cs u D0 c0 P w0 s _ i _ hG hl hth (by rw [hpc]; rfl) (goto_th_self _ _ _) ⟨rfl, rfl, rfl⟩ ?_
        refine ⟨hp.1, ?_, by simpa [J, JB, Built, Before, CS.writesFreq] using hp.2⟩
        rw [hp.1]; exact hc0 _ hG.const.1 hG.const.2.1
      | setF x =>
        simp only [csStep, Option.some.injEq, Prod.mk.injEq] at h1
        obtain ⟨rfl, rfl⟩ := h1
        refine oinv_cs u D0 c0 P w0 s _ i _ hG hl hth (by rw [hpc]; rfl) (goto_th_self _ _ _) (by simp [modeq]) ?_
        simp only [J, goto_w, goto_built, modeq, CS.writesFreq, hp.2.2]
        exact ⟨hp.2.1, by simp, hp.1⟩
      | setT n =>
        simp only [csStep, Option.some.injEq, Prod.mk.injEq] at h1
        obtain ⟨rfl, rfl⟩ := h1
        refine oinv_cs u D0 c0 P w0 s _ i _ hG hl hth (by rw [hpc]; rfl) (goto_th_self _ _ _) (by simp [modeq]) ?_
        simp only [J, Built, goto_w, goto_built, modeq, CS.writesFreq]
        simpa [J] using hp
      | setI =>
        simp only [csStep, Option.some.injEq, Prod.mk.injEq] at h1
        obtain ⟨rfl, rfl⟩ := h1
        refine oinv_cs u D0 c0 P w0 s _ i _ hG hl hth (by rw [hpc]; rfl) (goto_th_self _ _ _) (by simp [modeq]) ?_
        simp only [J, Base, goto_w, goto_built, modeq, CS.writesFreq]
        obtain ⟨h1, h2, h3⟩ := hp
        simpa using ⟨h2, h3⟩
      | sdD p => exact absurd hp (by simp [J])
      | sdI => exact absurd hp (by simp [J])
      | sdFile p => exact absurd hp (by simp [J])
      | bld L b =>
        simp only [csStep, Option.map_eq_some_iff] at h1
        obtain ⟨⟨w'', b'⟩, h1, h2⟩ := h1
        simp only [Prod.mk.injEq] at h2
        obtain ⟨rfl, rfl⟩ := h2
        cases b with
        | dictF a c =>
          simp only [bldStep, Option.some.injEq, Prod.mk.injEq] at h1
          obtain ⟨rfl, rfl⟩ := h1
          refine oinv_cs u D0 c0 P w0 s _ i _ hG hl hth (by rw [hpc]; rfl) (goto_th_self _ _ _) ⟨rfl, rfl, rfl⟩ ?_
          exact ⟨hG.const.2.2, by simpa [J, JB, Built, Before, CS.writesFreq] using hp⟩
        | openD a c d =>
          obtain ⟨hd0, hB⟩ := hp
          subst hd0
          simp only [bldStep] at h1
          split at h1
          · simp only [Option.some.injEq, Prod.mk.injEq] at h1
            obtain ⟨rfl, rfl⟩ := h1
            exact oinv_cs u d c0 P w0 s _ i _ hG hl hth (by rw [hpc]; rfl) (goto_th_self _ _ _) ⟨rfl, rfl, rfl⟩
              (by simpa [J, JB, Built, Before, CS.writesFreq] using hB)
          · next data hd =>
            split at h1
            · simp only [Option.some.injEq, Prod.mk.injEq] at h1
              obtain ⟨rfl, rfl⟩ := h1
              exact oinv_cs u d c0 P w0 s _ i _ hG hl hth (by rw [hpc]; rfl) (goto_th_self _ _ _) ⟨rfl, rfl, rfl⟩
                (by simpa [J, JB, Built, Before, CS.writesFreq] using hB)
            · next x hx =>
              simp only [Option.some.injEq, Prod.mk.injEq] at h1
              obtain ⟨rfl, rfl⟩ := h1
              exact oinv_cs u d c0 P w0 s _ i _ hG hl hth (by rw [hpc]; rfl) (goto_th_self _ _ _) ⟨rfl, rfl, rfl⟩
                ⟨hq.1.1 data x hd hx, by simpa [J, JB, Built, Before, CS.writesFreq] using hB⟩
        | setF a c x =>
          simp only [bldStep, Option.some.injEq, Prod.mk.injEq] at h1
          obtain ⟨rfl, rfl⟩ := h1
          refine oinv_cs u D0 c0 P w0 s _ i _ hG hl hth (by rw [hpc]; rfl) (goto_th_self _ _ _) (by simp [modeq]) ?_
          simp only [J, JB, goto_w, goto_built, modeq, CS.writesFreq, hp.2.2]
          exact ⟨hp.2.1, by simp, hp.1⟩
        | setT a c n =>
          simp only [bldStep, Option.some.injEq, Prod.mk.injEq] at h1
          obtain ⟨rfl, rfl⟩ := h1
          refine oinv_cs u D0 c0 P w0 s _ i _ hG hl hth (by rw [hpc]; rfl) (goto_th_self _ _ _) (by simp [modeq]) ?_
          simp only [J, JB, Built, goto_w, goto_built, modeq, CS.writesFreq]
          simpa [J, JB] using hp
        | relW a e => simp [CS.isLocal] at hk
        | _ =>
          simp only [bldStep] at h1
          repeat' split at h1
          all_goals first
            | (simp only [reduceCtorEq] at h1; done)
            | (simp only [Option.some.injEq, Prod.mk.injEq] at h1
               obtain ⟨rfl, rfl⟩ := h1
               exact oinv_cs u D0 c0 P w0 s _ i _ hG hl hth (by rw [hpc]; rfl) (goto_th_self _ _ _) ⟨rfl, rfl, rfl⟩
                 (by simpa [J, JB, Built, Before, CS.writesFreq] using hp))
      | isFile a c =>
        simp only [csStep] at h1
        obtain ⟨ha, hc, hB⟩ := hp
        repeat' split at h1
        all_goals
          simp only [Option.some.injEq, Prod.mk.injEq] at h1
          obtain ⟨rfl, rfl⟩ := h1
          refine oinv_cs u D0 c0 P w0 s _ i _ hG hl hth (by rw [hpc]; rfl) (goto_th_self _ _ _) ⟨rfl, rfl, rfl⟩ ?_
          simp only [J, CS.writesFreq, goto_w, goto_built]
          simp [hB, ha, hc]
      | mtC p c =>
        simp only [csStep] at h1
        obtain ⟨ha, hc, hp⟩ := hp
        split at h1 <;>
          (simp only [Option.some.injEq, Prod.mk.injEq] at h1
           obtain ⟨rfl, rfl⟩ := h1
           refine oinv_cs u D0 c0 P w0 s _ i _ hG hl hth (by rw [hpc]; rfl) (goto_th_self _ _ _) ⟨rfl, rfl, rfl⟩ ?_
           simp only [J, CS.writesFreq, goto_w, goto_built])
        · exact ⟨Or.inl (by simpa [Before] using hp), by simp⟩
        · exact ⟨ha, hc, by simpa using hp⟩
      | mtD p c m =>
        simp only [csStep] at h1
        obtain ⟨ha, hc, hp⟩ := hp
        split at h1 <;>
          (simp only [Option.some.injEq, Prod.mk.injEq] at h1
           obtain ⟨rfl, rfl⟩ := h1
           refine oinv_cs u D0 c0 P w0 s _ i _ hG hl hth (by rw [hpc]; rfl) (goto_th_self _ _ _) ⟨rfl, rfl, rfl⟩ ?_
           have hb : (if u = u ∧ (CS.mtD p c m).writesFreq = true then s.built u + 1 else s.built u) = s.built u := by
             simp [CS.writesFreq]
           simp only [goto_w, goto_built])
        · exact ⟨Or.inl hp, by simp⟩
        · next f _ =>
          by_cases hm : f.mtime < m
          · rw [if_pos hm]; exact ⟨ha, hc, hp⟩
          · rw [if_neg hm]; exact hp
      | openC a c =>
        simp only [csStep] at h1
        obtain ⟨ha, hc, hp⟩ := hp
        split at h1
        · simp only [Option.some.injEq, Prod.mk.injEq] at h1
          obtain ⟨rfl, rfl⟩ := h1
          refine oinv_cs u D0 c0 P w0 s _ i _ hG hl hth (by rw [hpc]; rfl) (goto_th_self _ _ _) ⟨rfl, rfl, rfl⟩ ?_
          simpa [J, CS.writesFreq] using hp
        · next x hx =>
          simp only [Option.some.injEq, Prod.mk.injEq] at h1
          obtain ⟨rfl, rfl⟩ := h1
          refine oinv_cs u D0 c0 P w0 s _ i _ hG hl hth (by rw [hpc]; rfl) (goto_th_self _ _ _) ⟨rfl, rfl, rfl⟩ ?_
          refine ⟨?_, by simpa [J, JB, Built, Before, CS.writesFreq] using hp⟩
          rw [Option.bind_eq_some_iff] at hx
          obtain ⟨f, hf, hx⟩ := hx
          rw [hc] at hf
          exact hq.1.2 f x hf hx
      | _ => simp [CS.isLocal] at hk
    · refine oinv_other t D0 c0 P w0 s _ i hG hl hth (csStep_tok_ne S u s.w ch k _ h1 t (Ne.symm hu)) ?_
        (by rw [hpc]; simp [inCS, hu]) (by rw [goto_th_self]; exact fun h => absurd h hu)
      simp [Ne.symm hu]
  | _ u =>
    by_cases hu : u = t
    · subst hu
      exact oinv_cs u D0 c0 P w0 s _ i _ hG hl hth (by rw [hpc]; rfl) (goto_th_self _ _ _) ⟨rfl, rfl, rfl⟩
        (by first | exact hp rfl | exact ⟨Or.inl (hp rfl), by simp⟩)
    · exact oinv_other t D0 c0 P w0 s _ i hG hl hth rfl rfl (by rw [hpc]; simp [inCS, hu])
        (by rw [goto_th_self]; exact fun h => absurd h hu)

theorem oinv_ev (S : Sys F) (w0 : World)
    (hc0 : ∀ x : Tok, x.tmpDir = (w0.tok t).tmpDir → x.cacheFile = (w0.tok t).cacheFile → cachePath S x D0 = c0)
    (e : Ev) (s s' : St) (hG : OInv t D0 c0 P w0 s) (hq : onlyInit S t D0 c0 P s e) (hs : e.run S s = some s') :
    OInv t D0 c0 P w0 s' := by
  have hl := lockInv_ev S e s s' hG.locks hs
  cases e with
  | start i c =>
    simp only [Ev.run] at hs
    split at hs
    · next r hpc =>
      simp only [Option.some.injEq] at hs; subst hs
      refine oinv_other t D0 c0 P w0 s _ i hG hl (fun j hj => goto_th_ne _ _ _ _ hj) rfl rfl (by rw [hpc]; simp [inCS]) ?_
      rw [goto_th_self]
      unfold Call.start
      split
      · trivial
      · exact hq.2
      · trivial
      · exact hq.2
    · simp at hs
  | step i ch => exact oinv_step t D0 c0 P S w0 hc0 i ch s s' hG hq hs
  | write p data => simp only [Ev.run, Option.some.injEq] at hs; subst hs; exact ⟨hG.locks, hG.const, hG.pcs, hG.base⟩
  | remove p => simp only [Ev.run, Option.some.injEq] at hs; subst hs; exact ⟨hG.locks, hG.const, hG.pcs, hG.base⟩
  | tick => simp only [Ev.run, Option.some.injEq] at hs; subst hs; exact ⟨hG.locks, hG.const, hG.pcs, hG.base⟩

theorem oinv_init (w0 : World) (hd : (w0.tok t).dictionary = D0) (hi : (w0.tok t).initialized = false) :
    OInv t D0 c0 P w0 (St.init w0) :=
  ⟨lockInv_init w0, ⟨rfl, rfl, hd⟩, fun _ => trivial, fun _ => Or.inl ⟨hi, rfl⟩⟩

theorem oinv_run (S : Sys F) (w0 : World) (hd : (w0.tok t).dictionary = D0) (hi : (w0.tok t).initialized = false)
    (hc0 : ∀ x : Tok, x.tmpDir = (w0.tok t).tmpDir → x.cacheFile = (w0.tok t).cacheFile → cachePath S x D0 = c0) (s : St)
    (h : Run S (onlyInit S t D0 c0 P) (St.init w0) s) : OInv t D0 c0 P w0 s :=
  run_inv S _ (OInv t D0 c0 P w0) _ s h (oinv_init t D0 c0 P w0 hd hi)
    (fun s s' e hI hq he => oinv_ev t D0 c0 P S w0 hc0 e s s' hI hq he)

/-- At every moment: not marked and at most one assignment to `FREQ`, or marked, built once and complete. -/
theorem oinv_cases (w0 : World) (s : St) (hG : OInv t D0 c0 P w0 s) :
    (s.w.tok t).initialized = false ∧ s.built t ≤ 1 ∨
      (s.w.tok t).initialized = true ∧ s.built t = 1 ∧ P ((s.w.tok t).freq, (s.w.tok t).total) := by
  have hB : ∀ x n, Base P x n → x.initialized = false ∧ n ≤ 1 ∨ x.initialized = true ∧ n = 1 ∧ P (x.freq, x.total) := by
    intro x n h
    rcases h with ⟨h1, h2⟩ | h
    · exact Or.inl ⟨h1, by omega⟩
    · exact Or.inr h
  by_cases h : ∀ i, inCS (s.th i) ≠ some t
  · exact hB _ _ (hG.base h)
  · have ⟨i, hi⟩ : ∃ i, inCS (s.th i) = some t := Classical.byContradiction (fun h' => h (fun i hi => h' ⟨i, hi⟩))
    have hp := hG.pcs i
    generalize s.th i = pc at hi hp
    cases pc with
    | cs u k =>
      simp only [inCS, Option.some.injEq] at hi
      subst hi
      have hp := hp rfl
      cases k with
      | bld L b =>
        cases b with
        | relW a e => cases e with
          | none => left; simp only [J, JB, Built] at hp; simp [hp]
          | some e => left; simp only [J, JB, Before] at hp; simp [hp]
        | _ => left; simp only [J, JB, Before, Built] at hp; simp [hp]
      | look a => exact hB _ _ hp.2
      | waitW a L => exact hB _ _ hp.2
      | passW a L => exact hB _ _ hp.2
      | ifInit a => exact hB _ _ hp.2
      | rel r => exact hB _ _ hp.1
      | sdFile p => exact absurd hp (by simp [J])
      | sdD p => exact absurd hp (by simp [J])
      | sdI => exact absurd hp (by simp [J])
      | _ => left; simp only [J, Before, Built] at hp; simp [hp]
    | _ => simp [inCS] at hi

/-- Once marked, the tokenizer does not change any more. -/
theorem oinv_stable (S : Sys F) (w0 : World) (e : Ev) (s s' : St) (hG : OInv t D0 c0 P w0 s)
    (hs : e.run S s = some s') (hi : (s.w.tok t).initialized = true) : s'.w.tok t = s.w.tok t := by
  cases e with
  | start i c =>
    simp only [Ev.run] at hs
    split at hs
    · simp only [Option.some.injEq] at hs; subst hs; rfl
    · simp at hs
  | write p data => simp only [Ev.run, Option.some.injEq] at hs; subst hs; rfl
  | remove p => simp only [Ev.run, Option.some.injEq] at hs; subst hs; rfl
  | tick => simp only [Ev.run, Option.some.injEq] at hs; subst hs; rfl
  | step i ch =>
    have sh := step_shape S i ch s s' hs
    have hp := hG.pcs i
    generalize hpc : s.th i = pc at sh hp
    cases sh with
    | setD u p => simp only [goto_w]; simp [World.modTok, World.setTok, Ne.symm hp]
    | clrI u p => simp only [goto_w]; simp [World.modTok, World.setTok, Ne.symm hp]
    | loc u k w' k' hk h1 =>
      by_cases hu : u = t
      · subst hu
        have hp := hp rfl
        have hno : ∀ x, x = false → (s.w.tok u).initialized = x → False := by
          rintro x rfl h; rw [hi] at h; exact Bool.noConfusion h
        cases k with
        | ifInit a =>
          simp only [csStep, Option.some.injEq, Prod.mk.injEq] at h1
          obtain ⟨rfl, rfl⟩ := h1
          rfl
        | bld L b =>
          exfalso
          cases b with
          | relW a e => simp [CS.isLocal] at hk
          | _ => simp only [J, JB, Before, Built, hi] at hp; simp at hp
        | sdFile p => exact absurd hp (by simp [J])
        | sdD p => exact absurd hp (by simp [J])
        | sdI => exact absurd hp (by simp [J])
        | _ => first | (simp [CS.isLocal] at hk; done) | (exfalso; simp only [J, Before, Built, hi] at hp; simp at hp)
      · simp only [goto_w]; exact csStep_tok_ne S u s.w ch k _ h1 t (Ne.symm hu)
    | _ => rfl

/-- Which tokenizer a thread is working on. -/
def PC.tok : PC → Option Nat
  | .idle _ => none
  | .chk t | .argD t _ | .argI t _ | .setD t _ | .clrI t _ | .readD t | .acq t _ | .sdAcq t _ | .cs t _ => some t

/-- A call that returns without exception leaves the tokenizer marked. -/
theorem oinv_return (S : Sys F) (w0 : World) (i : Nat) (ch : Choice) (s s' : St) (hG : OInv t D0 c0 P w0 s)
    (hs : step S i ch s = some s') (ht : (s.th i).tok = some t) (hr : s'.th i = .idle (some none)) :
    (s'.w.tok t).initialized = true := by
  have sh := step_shape S i ch s s' hs
  have hp := hG.pcs i
  generalize hpc : s.th i = pc at sh hp ht
  cases sh with
  | chk u =>
    simp only [PC.tok, Option.some.injEq] at ht; subst ht
    rw [goto_th_self] at hr
    split at hr
    · assumption
    · simp at hr
  | argD u p => simp only [PC.tok, Option.some.injEq] at ht; exact absurd ht hp
  | argI u p => simp only [PC.tok, Option.some.injEq] at ht; exact absurd ht hp
  | rel u r =>
    simp only [PC.tok, Option.some.injEq] at ht; subst ht
    rw [goto_th_self] at hr
    simp only [PC.idle.injEq, Option.some.injEq] at hr
    exact (hp rfl).2 hr
  | _ => rw [goto_th_self] at hr; simp at hr

end

end Jieba.Threads
