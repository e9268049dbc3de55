import Verif.Proofs.Threads
/-!
# What the thread machine can write to files
-/

set_option linter.unusedSectionVars false

namespace Jieba.Threads
open Jieba

variable {F : Type _} [LinearOrder F]

/-- Parameters of the invariant: `A t d`: tokenizer `t` may use dictionary `d`; `K t c`: `c` can be the cache file of `t`;
`P t x`: `x` can be the contents of a dictionary read for `t`; `X p f`: what others may put at path `p`; `tmp`: names of
temporary files. -/
structure Ctx where
  A : Nat → Option Path → Prop
  K : Nat → Path → Prop
  P : Nat → Freq × Int → Prop
  X : Path → Option File → Prop
  tmp : Path → Prop

/-- The events considered. -/
def Ctx.allows (C : Ctx) (S : Sys F) (s : St) (e : Ev) : Prop :=
  (∀ t d data x, C.A t d → dictFile s.w d = .ok data → genPfdict data = .ok x → C.P t x) ∧
  match e with
  | .start _ (.init t (some (c :: p))) => C.A t (some (S.abspath (c :: p)))
  | .start _ (.setDict t p) => C.A t (some (S.abspath p))
  | .step _ (.name q _) => C.tmp q
  | .write p data => ¬ C.tmp p ∧ C.X p (some ⟨data, s.w.clock⟩)
  | .remove p => ¬ C.tmp p ∧ C.X p none
  | _ => True

/-- The temporary file of a thread. -/
def tempOf : PC → Option Path
  | .cs _ (.bld _ (.part _ _ q)) => some q
  | .cs _ (.bld _ (.full _ _ q _)) => some q
  | .cs _ (.bld _ (.ren _ _ q)) => some q
  | _ => none

variable (C : Ctx) (S : Sys F)

def Bok (w : World) (t : Nat) : Bld → Prop
  | .dictF _ c => C.K t c
  | .openD _ c d => C.K t c ∧ C.A t d
  | .setF _ c x => C.K t c ∧ C.P t x
  | .setT _ c n => C.K t c ∧ C.P t ((w.tok t).freq, n)
  | .mk _ c => C.K t c ∧ C.P t ((w.tok t).freq, (w.tok t).total)
  | .part _ c q => C.K t c ∧ C.P t ((w.tok t).freq, (w.tok t).total) ∧ C.tmp q ∧ w.files q ≠ none
  | .full _ c q x => C.K t c ∧ C.P t x ∧ C.tmp q ∧ w.files q ≠ none
  | .ren _ c q => C.K t c ∧ C.tmp q ∧ ∃ x m, C.P t x ∧ w.files q = some ⟨S.dump x, m⟩
  | .relW _ _ => True

def CSok (w : World) (t : Nat) : CS → Prop
  | .look a | .waitW a _ | .passW a _ | .ifInit a | .cname a => C.A t a
  | .isFile _ c | .mtC _ c | .mtD _ c _ | .openC _ c | .getW _ c | .putW _ c _ | .acqW _ c _ => C.K t c
  | .bld _ b => Bok C S w t b
  | .sdFile p | .sdD p => C.A t (some p)
  | _ => True

def PCok (w : World) : PC → Prop
  | .argD t p | .argI t p | .setD t p | .clrI t p | .sdAcq t p => C.A t (some p)
  | .acq t a => C.A t a
  | .cs t k => CSok C S w t k
  | _ => True

/-- Files that are not temporary hold what others put there or a complete dump. -/
def FilesOk (w : World) : Prop :=
  ∀ c, ¬ C.tmp c → C.X c (w.files c) ∨ ∃ t x m, C.K t c ∧ C.P t x ∧ w.files c = some ⟨S.dump x, m⟩

structure FInv (w0 : World) (s : St) : Prop where
  locks : LockInv s
  const : ∀ t, (s.w.tok t).tmpDir = (w0.tok t).tmpDir ∧ (s.w.tok t).cacheFile = (w0.tok t).cacheFile
  dict : ∀ t, C.A t (s.w.tok t).dictionary
  pcs : ∀ i, PCok C S s.w (s.th i)
  temps : ∀ i j q, tempOf (s.th i) = some q → tempOf (s.th j) = some q → i = j
  files : FilesOk C S s.w

theorem tempOf_tmp (w : World) (pc : PC) (q : Path) (h : PCok C S w pc) (hq : tempOf pc = some q) : C.tmp q ∧ w.files q ≠ none := by
  unfold tempOf at hq
  split at hq
  · simp at hq; subst hq; exact ⟨h.2.2.1, h.2.2.2⟩
  · simp at hq; subst hq; exact ⟨h.2.2.1, h.2.2.2⟩
  · simp at hq; subst hq
    obtain ⟨-, h1, x, m, -, h2⟩ := h
    exact ⟨h1, by rw [h2]; simp⟩
  · simp at hq

theorem pcok_frame (w w' : World) (pc : PC) (h : PCok C S w pc)
    (h1 : ∀ t, inCS pc = some t → (w'.tok t).freq = (w.tok t).freq ∧ (w'.tok t).total = (w.tok t).total)
    (h2 : ∀ q, tempOf pc = some q → w'.files q = w.files q) : PCok C S w' pc := by
  cases pc with
  | cs t k =>
    obtain ⟨e1, e2⟩ := h1 t rfl
    cases k with
    | bld L b =>
      cases b with
      | setT a c n => simpa [PCok, CSok, Bok, e1] using h
      | mk a c => simpa [PCok, CSok, Bok, e1, e2] using h
      | part a c q => simpa [PCok, CSok, Bok, e1, e2, h2 q rfl] using h
      | full a c q x => simpa [PCok, CSok, Bok, h2 q rfl] using h
      | ren a c q => simpa [PCok, CSok, Bok, h2 q rfl] using h
      | _ => exact h
    | _ => exact h
  | _ => exact h

theorem finv_of (w0 : World) (s s' : St) (i : Nat) (hG : FInv C S w0 s) (hl : LockInv s') (hth : ∀ j, j ≠ i → s'.th j = s.th j)
    (h0 : ∀ t, (s'.w.tok t).tmpDir = (s.w.tok t).tmpDir ∧ (s'.w.tok t).cacheFile = (s.w.tok t).cacheFile)
    (h1 : ∀ t, C.A t (s'.w.tok t).dictionary)
    (hft : ∀ u, inCS (s.th i) ≠ some u → (s'.w.tok u).freq = (s.w.tok u).freq ∧ (s'.w.tok u).total = (s.w.tok u).total)
    (hfl : ∀ j q, j ≠ i → tempOf (s.th j) = some q → s'.w.files q = s.w.files q)
    (hpc : PCok C S s'.w (s'.th i))
    (htmp : ∀ q, tempOf (s'.th i) = some q → ∀ j, j ≠ i → tempOf (s.th j) ≠ some q)
    (h4 : FilesOk C S s'.w) : FInv C S w0 s' := by
  refine ⟨hl, fun t => ?_, h1, fun j => ?_, fun j k q hj hk => ?_, h4⟩
  · rw [(h0 t).1, (h0 t).2]; exact hG.const t
  · by_cases hj : j = i
    · subst hj; exact hpc
    · rw [hth j hj]
      refine pcok_frame C S s.w s'.w _ (hG.pcs j) ?_ (fun q hq => hfl j q hj hq)
      intro t ht
      apply hft
      intro hi
      have e1 := (hG.locks.1 t j).mpr ht
      have e2 := (hG.locks.1 t i).mpr hi
      rw [e1] at e2; exact hj (Option.some.inj e2)
  · by_cases h1 : j = i <;> by_cases h2 : k = i
    · rw [h1, h2]
    · subst h1; rw [hth k h2] at hk; exact absurd hk (htmp q hj k h2)
    · subst h2; rw [hth j h1] at hj; exact absurd hj (htmp q hk j h1)
    · rw [hth j h1] at hj; rw [hth k h2] at hk; exact hG.temps j k q hj hk

/-- Steps that do not change the world. -/
theorem finv_same (w0 : World) (s s' : St) (i : Nat) (hG : FInv C S w0 s) (hl : LockInv s') (hth : ∀ j, j ≠ i → s'.th j = s.th j)
    (hw : s'.w = s.w) (hpc : PCok C S s.w (s'.th i))
    (htmp : ∀ q, tempOf (s'.th i) = some q → tempOf (s.th i) = some q) : FInv C S w0 s' := by
  refine finv_of C S w0 s s' i hG hl hth (fun t => ?_) (fun t => ?_) (fun u _ => ?_) (fun j q _ _ => ?_) ?_ ?_ ?_
  · rw [hw]; exact ⟨rfl, rfl⟩
  · rw [hw]; exact hG.dict t
  · rw [hw]; exact ⟨rfl, rfl⟩
  · rw [hw]
  · rw [hw]; exact hpc
  · intro q hq j hj hj'
    exact hj (hG.temps j i q hj' (htmp q hq))
  · rw [hw]; exact hG.files

/-- Steps that only change attributes of one tokenizer. -/
theorem finv_mod (w0 : World) (s s' : St) (i t : Nat) (f : Tok → Tok) (hG : FInv C S w0 s) (hl : LockInv s')
    (hth : ∀ j, j ≠ i → s'.th j = s.th j)
    (hw : s'.w = World.modTok s.w t f) (h0 : ∀ x, (f x).tmpDir = x.tmpDir ∧ (f x).cacheFile = x.cacheFile)
    (hA : C.A t (f (s.w.tok t)).dictionary)
    (hf : inCS (s.th i) = some t ∨ ((f (s.w.tok t)).freq = (s.w.tok t).freq ∧ (f (s.w.tok t)).total = (s.w.tok t).total))
    (hpc : PCok C S (World.modTok s.w t f) (s'.th i)) (htmp : tempOf (s'.th i) = none) : FInv C S w0 s' := by
  have htok : ∀ u, s'.w.tok u = if u = t then f (s.w.tok t) else s.w.tok u := by
    intro u; rw [hw]; rfl
  refine finv_of C S w0 s s' i hG hl hth (fun u => ?_) (fun u => ?_) (fun u hu => ?_) (fun j q _ _ => ?_) ?_ ?_ ?_
  · rw [htok]; split
    · next h => subst h; exact h0 _
    · exact ⟨rfl, rfl⟩
  · rw [htok]; split
    · next h => subst h; exact hA
    · exact hG.dict u
  · rw [htok]; split
    · next h =>
      subst h
      rcases hf with h | h
      · exact absurd h hu
      · exact h
    · exact ⟨rfl, rfl⟩
  · rw [hw]; rfl
  · rw [hw]; exact hpc
  · intro q hq; rw [htmp] at hq; simp at hq
  · rw [hw]; exact hG.files

theorem setFile_files (w : World) (p q : Path) (f : Option File) : (w.setFile p f).files q = if q = p then f else w.files q := rfl

/-- Steps that write to the temporary file of the thread. -/
theorem finv_temp (w0 : World) (s s' : St) (i : Nat) (q : Path) (f : Option File) (hG : FInv C S w0 s) (hl : LockInv s')
    (hth : ∀ j, j ≠ i → s'.th j = s.th j) (hw : s'.w = s.w.setFile q f) (hq : C.tmp q)
    (hown : ∀ j, j ≠ i → tempOf (s.th j) ≠ some q) (hpc : PCok C S (s.w.setFile q f) (s'.th i))
    (htmp : tempOf (s'.th i) = some q) : FInv C S w0 s' := by
  refine finv_of C S w0 s s' i hG hl hth (fun t => ?_) (fun t => ?_) (fun u _ => ?_) (fun j p hj hp => ?_) ?_ ?_ ?_
  · rw [hw]; exact ⟨rfl, rfl⟩
  · rw [hw]; exact hG.dict t
  · rw [hw]; exact ⟨rfl, rfl⟩
  · rw [hw, setFile_files, if_neg]
    rintro rfl; exact hown j hj hp
  · rw [hw]; exact hpc
  · intro p hp j hj; rw [htmp] at hp; simp at hp; subst hp; exact hown j hj
  · intro c hc
    rw [hw, setFile_files, if_neg (by rintro rfl; exact hc hq)]
    exact hG.files c hc

theorem finv_step (w0 : World)
    (hK : ∀ t a x, C.A t a → x.tmpDir = (w0.tok t).tmpDir → x.cacheFile = (w0.tok t).cacheFile → C.K t (cachePath S x a))
    (hKt : ∀ t c, C.K t c → ¬ C.tmp c) (i : Nat) (ch : Choice) (s s' : St) (hG : FInv C S w0 s)
    (hq : C.allows S s (.step i ch)) (hs : step S i ch s = some s') : FInv C S w0 s' := by
  have hl := lockInv_step S i ch s s' hG.locks hs
  obtain ⟨-, hth⟩ := step_rank S i ch s s' hs
  have sh := step_shape S i ch s s' hs
  have hp := hG.pcs i
  generalize hpc : s.th i = pc at sh hp
  cases sh with
  | chk t => exact finv_same C S w0 s _ i hG hl hth rfl (by rw [goto_th_self]; split <;> trivial) (by
      intro q hq; rw [goto_th_self] at hq; split at hq <;> simp [tempOf] at hq)
  | argD t p => exact finv_same C S w0 s _ i hG hl hth rfl (by rw [goto_th_self]; split <;> exact hp) (by
      intro q hq; rw [goto_th_self] at hq; split at hq <;> simp [tempOf] at hq)
  | argI t p => exact finv_same C S w0 s _ i hG hl hth rfl (by rw [goto_th_self]; split; trivial; exact hp) (by
      intro q hq; rw [goto_th_self] at hq; split at hq <;> simp [tempOf] at hq)
  | setD t p =>
    exact finv_mod C S w0 s _ i t (fun y => { y with dictionary := some p }) hG hl hth rfl (fun _ => ⟨rfl, rfl⟩) hp (Or.inr ⟨rfl, rfl⟩) (by rw [goto_th_self]; exact hp)
      (by rw [goto_th_self]; rfl)
  | clrI t p =>
    exact finv_mod C S w0 s _ i t (fun y => { y with initialized := false }) hG hl hth rfl (fun _ => ⟨rfl, rfl⟩) (hG.dict t) (Or.inr ⟨rfl, rfl⟩)
      (by rw [goto_th_self]; exact hp) (by rw [goto_th_self]; rfl)
  | readD t => exact finv_same C S w0 s _ i hG hl hth rfl (by rw [goto_th_self]; exact hG.dict t) (by
      intro q hq; rw [goto_th_self] at hq; simp [tempOf] at hq)
  | loc t k w' k' hk h1 =>
    cases k with
    | ifInit a =>
      simp only [csStep, Option.some.injEq, Prod.mk.injEq] at h1
      obtain ⟨rfl, rfl⟩ := h1
      exact finv_same C S w0 s _ i hG hl hth rfl (by rw [goto_th_self]; split; trivial; exact hp) (by
        intro q hq; rw [goto_th_self] at hq; split at hq <;> simp [tempOf] at hq)
    | cname a =>
      simp only [csStep, Option.some.injEq, Prod.mk.injEq] at h1
      obtain ⟨rfl, rfl⟩ := h1
      exact finv_same C S w0 s _ i hG hl hth rfl
        (by rw [goto_th_self]; exact hK t a _ hp (hG.const t).1 (hG.const t).2) (by
        intro q hq; rw [goto_th_self] at hq; simp [tempOf] at hq)
    | setF x =>
      simp only [csStep, Option.some.injEq, Prod.mk.injEq] at h1
      obtain ⟨rfl, rfl⟩ := h1
      exact finv_mod C S w0 s _ i t (fun y => { y with freq := x.1 }) hG hl hth rfl (fun _ => ⟨rfl, rfl⟩) (hG.dict t) (Or.inl (by rw [hpc]; rfl))
        (by rw [goto_th_self]; trivial) (by rw [goto_th_self]; rfl)
    | setT n =>
      simp only [csStep, Option.some.injEq, Prod.mk.injEq] at h1
      obtain ⟨rfl, rfl⟩ := h1
      exact finv_mod C S w0 s _ i t (fun y => { y with total := n }) hG hl hth rfl (fun _ => ⟨rfl, rfl⟩) (hG.dict t) (Or.inl (by rw [hpc]; rfl))
        (by rw [goto_th_self]; trivial) (by rw [goto_th_self]; rfl)
    | setI =>
      simp only [csStep, Option.some.injEq, Prod.mk.injEq] at h1
      obtain ⟨rfl, rfl⟩ := h1
      exact finv_mod C S w0 s _ i t (fun y => { y with initialized := true }) hG hl hth rfl (fun _ => ⟨rfl, rfl⟩) (hG.dict t) (Or.inl (by rw [hpc]; rfl))
        (by rw [goto_th_self]; trivial) (by rw [goto_th_self]; rfl)
    | sdD p =>
      simp only [csStep, Option.some.injEq, Prod.mk.injEq] at h1
      obtain ⟨rfl, rfl⟩ := h1
      exact finv_mod C S w0 s _ i t (fun y => { y with dictionary := some p }) hG hl hth rfl (fun _ => ⟨rfl, rfl⟩) hp (Or.inl (by rw [hpc]; rfl))
        (by rw [goto_th_self]; trivial) (by rw [goto_th_self]; rfl)
    | sdI =>
      simp only [csStep, Option.some.injEq, Prod.mk.injEq] at h1
      obtain ⟨rfl, rfl⟩ := h1
      exact finv_mod C S w0 s _ i t (fun y => { y with initialized := false }) hG hl hth rfl (fun _ => ⟨rfl, rfl⟩) (hG.dict t) (Or.inl (by rw [hpc]; rfl))
        (by rw [goto_th_self]; trivial) (by rw [goto_th_self]; rfl)
    | bld L b =>
      simp only [csStep, Option.map_eq_some_iff] at h1
      obtain ⟨⟨w'', b'⟩, h1, h2⟩ := h1
      simp only [Prod.mk.injEq] at h2
      obtain ⟨rfl, rfl⟩ := h2
      cases b with
      | dictF a c =>
        simp only [bldStep, Option.some.injEq, Prod.mk.injEq] at h1
        obtain ⟨rfl, rfl⟩ := h1
        exact finv_same C S w0 s _ i hG hl hth rfl (by rw [goto_th_self]; exact ⟨hp, hG.dict t⟩) (by
          intro q hq; rw [goto_th_self] at hq; simp [tempOf] at hq)
      | openD a c d =>
        simp only [bldStep] at h1
        have hrel : ∀ e w' b', some (s.w, Bld.relW a (some e)) = some (w', b') →
            w' = s.w ∧ b' = Bld.relW a (some e) := by
          intro e w' b' h; simp at h; exact ⟨h.1.symm, h.2.symm⟩
        split at h1
        · obtain ⟨rfl, rfl⟩ := hrel _ _ _ h1
          exact finv_same C S w0 s _ i hG hl hth rfl (by rw [goto_th_self]; trivial) (by
            intro q hq; rw [goto_th_self] at hq; simp [tempOf] at hq)
        · next data hd =>
          split at h1
          · obtain ⟨rfl, rfl⟩ := hrel _ _ _ h1
            exact finv_same C S w0 s _ i hG hl hth rfl (by rw [goto_th_self]; trivial) (by
              intro q hq; rw [goto_th_self] at hq; simp [tempOf] at hq)
          · next x hx =>
            simp only [Option.some.injEq, Prod.mk.injEq] at h1
            obtain ⟨rfl, rfl⟩ := h1
            exact finv_same C S w0 s _ i hG hl hth rfl
              (by rw [goto_th_self]; exact ⟨hp.1, hq.1 t d data x hp.2 hd hx⟩) (by
              intro q hq; rw [goto_th_self] at hq; simp [tempOf] at hq)
      | setF a c x =>
        simp only [bldStep, Option.some.injEq, Prod.mk.injEq] at h1
        obtain ⟨rfl, rfl⟩ := h1
        refine finv_mod C S w0 s _ i t (fun y => { y with freq := x.1 }) hG hl hth rfl (fun _ => ⟨rfl, rfl⟩) (hG.dict t) (Or.inl (by rw [hpc]; rfl)) ?_
          (by rw [goto_th_self]; rfl)
        rw [goto_th_self]
        refine ⟨hp.1, ?_⟩
        simpa [World.modTok, World.setTok] using hp.2
      | setT a c n =>
        simp only [bldStep, Option.some.injEq, Prod.mk.injEq] at h1
        obtain ⟨rfl, rfl⟩ := h1
        refine finv_mod C S w0 s _ i t (fun y => { y with total := n }) hG hl hth rfl (fun _ => ⟨rfl, rfl⟩) (hG.dict t) (Or.inl (by rw [hpc]; rfl)) ?_
          (by rw [goto_th_self]; rfl)
        rw [goto_th_self]
        refine ⟨hp.1, ?_⟩
        simpa [World.modTok, World.setTok] using hp.2
      | mk a c =>
        simp only [bldStep] at h1
        split at h1
        · simp only [Option.some.injEq, Prod.mk.injEq] at h1
          obtain ⟨rfl, rfl⟩ := h1
          exact finv_same C S w0 s _ i hG hl hth rfl (by rw [goto_th_self]; trivial) (by
            intro q hq; rw [goto_th_self] at hq; simp [tempOf] at hq)
        · next q n =>
          split at h1
          · simp at h1
          · next hnone =>
            simp only [Option.some.injEq, Prod.mk.injEq] at h1
            obtain ⟨rfl, rfl⟩ := h1
            have hqt : C.tmp q := hq.2
            refine finv_temp C S w0 s _ i q _ hG hl hth rfl hqt ?_ ?_ (by rw [goto_th_self]; rfl)
            · intro j hj hj'
              exact (tempOf_tmp C S s.w _ q (hG.pcs j) hj').2 hnone
            · rw [goto_th_self]
              exact ⟨hp.1, hp.2, hqt, by rw [setFile_files, if_pos rfl]; simp⟩
        · simp at h1
      | part a c q =>
        simp only [bldStep] at h1
        split at h1
        · simp only [Option.some.injEq, Prod.mk.injEq] at h1
          obtain ⟨rfl, rfl⟩ := h1
          exact finv_same C S w0 s _ i hG hl hth rfl (by rw [goto_th_self]; trivial) (by
            intro q hq; rw [goto_th_self] at hq; simp [tempOf] at hq)
        · simp only [Option.some.injEq, Prod.mk.injEq] at h1
          obtain ⟨rfl, rfl⟩ := h1
          refine finv_temp C S w0 s _ i q _ hG hl hth rfl hp.2.2.1 ?_ ?_ (by rw [goto_th_self]; rfl)
          · intro j hj hj'
            exact hj (hG.temps j i q hj' (by rw [hpc]; rfl))
          · rw [goto_th_self]
            exact ⟨hp.1, hp.2.1, hp.2.2.1, by rw [setFile_files, if_pos rfl]; simp⟩
        · simp at h1
      | full a c q x =>
        simp only [bldStep] at h1
        split at h1
        · simp only [Option.some.injEq, Prod.mk.injEq] at h1
          obtain ⟨rfl, rfl⟩ := h1
          exact finv_same C S w0 s _ i hG hl hth rfl (by rw [goto_th_self]; trivial) (by
            intro q hq; rw [goto_th_self] at hq; simp [tempOf] at hq)
        · simp only [Option.some.injEq, Prod.mk.injEq] at h1
          obtain ⟨rfl, rfl⟩ := h1
          refine finv_temp C S w0 s _ i q _ hG hl hth rfl hp.2.2.1 ?_ ?_ (by rw [goto_th_self]; rfl)
          · intro j hj hj'
            exact hj (hG.temps j i q hj' (by rw [hpc]; rfl))
          · rw [goto_th_self]
            exact ⟨hp.1, hp.2.2.1, x, s.w.clock, hp.2.1, by rw [setFile_files, if_pos rfl]⟩
      | ren a c q =>
        simp only [bldStep] at h1
        split at h1
        · simp only [Option.some.injEq, Prod.mk.injEq] at h1
          obtain ⟨rfl, rfl⟩ := h1
          exact finv_same C S w0 s _ i hG hl hth rfl (by rw [goto_th_self]; trivial) (by
            intro q hq; rw [goto_th_self] at hq; simp [tempOf] at hq)
        · obtain ⟨k1, k2, x, m, k3, k4⟩ := hp
          rw [k4] at h1
          simp only [Option.some.injEq, Prod.mk.injEq] at h1
          obtain ⟨rfl, rfl⟩ := h1
          refine finv_of C S w0 s _ i hG hl hth (fun _ => ⟨rfl, rfl⟩) hG.dict (fun _ _ => ⟨rfl, rfl⟩) ?_
            (by rw [goto_th_self]; trivial) (by intro p hp; rw [goto_th_self] at hp; simp [tempOf] at hp) ?_
          · intro j p hj hjp
            have hpt := (tempOf_tmp C S s.w _ p (hG.pcs j) hjp).1
            simp only [goto_w, setFile_files]
            rw [if_neg (by rintro rfl; exact hKt t _ k1 hpt), if_neg]
            rintro rfl
            exact hj (hG.temps j i p hjp (by rw [hpc]; rfl))
          · intro p hp
            simp only [goto_w, setFile_files]
            by_cases hpc' : p = c
            · subst hpc'
              right
              exact ⟨t, x, m, k1, k3, by simp⟩
            · rw [if_neg hpc', if_neg (by rintro rfl; exact hp k2)]
              exact hG.files p hp
      | relW a e => simp [bldStep] at h1
    | isFile a c =>
      simp only [csStep] at h1
      repeat' split at h1
      all_goals
        simp only [Option.some.injEq, Prod.mk.injEq] at h1
        obtain ⟨rfl, rfl⟩ := h1
        exact finv_same C S w0 s _ i hG hl hth rfl (by rw [goto_th_self]; exact hp) (by
          intro q hq; rw [goto_th_self] at hq; simp [tempOf] at hq)
    | mtC p c =>
      simp only [csStep] at h1
      split at h1 <;>
        (simp only [Option.some.injEq, Prod.mk.injEq] at h1
         obtain ⟨rfl, rfl⟩ := h1
         exact finv_same C S w0 s _ i hG hl hth rfl (by rw [goto_th_self]; first | trivial | exact hp) (by
          intro q hq; rw [goto_th_self] at hq; simp [tempOf] at hq))
    | mtD p c m =>
      simp only [csStep] at h1
      split at h1 <;>
        (simp only [Option.some.injEq, Prod.mk.injEq] at h1
         obtain ⟨rfl, rfl⟩ := h1
         exact finv_same C S w0 s _ i hG hl hth rfl (by rw [goto_th_self]; first | trivial | (split <;> exact hp)) (by
          intro q hq; rw [goto_th_self] at hq; first | (simp [tempOf] at hq; done) | (split at hq <;> simp [tempOf] at hq)))
    | openC a c =>
      simp only [csStep] at h1
      split at h1 <;>
        (simp only [Option.some.injEq, Prod.mk.injEq] at h1
         obtain ⟨rfl, rfl⟩ := h1
         exact finv_same C S w0 s _ i hG hl hth rfl (by rw [goto_th_self]; first | trivial | exact hp) (by
          intro q hq; rw [goto_th_self] at hq; simp [tempOf] at hq))
    | sdFile p =>
      simp only [csStep] at h1
      split at h1 <;>
        (simp only [Option.some.injEq, Prod.mk.injEq] at h1
         obtain ⟨rfl, rfl⟩ := h1
         exact finv_same C S w0 s _ i hG hl hth rfl (by rw [goto_th_self]; first | trivial | exact hp) (by
          intro q hq; rw [goto_th_self] at hq; simp [tempOf] at hq))
    | _ => simp [CS.isLocal] at hk
  | _ => exact finv_same C S w0 s _ i hG hl hth rfl (by rw [goto_th_self]; first | trivial | exact hp) (by
      intro q hq; rw [goto_th_self] at hq; simp [tempOf] at hq)

theorem finv_ev (w0 : World)
    (hK : ∀ t a x, C.A t a → x.tmpDir = (w0.tok t).tmpDir → x.cacheFile = (w0.tok t).cacheFile → C.K t (cachePath S x a))
    (hKt : ∀ t c, C.K t c → ¬ C.tmp c) (e : Ev) (s s' : St) (hG : FInv C S w0 s)
    (hq : C.allows S s e) (hs : e.run S s = some s') : FInv C S w0 s' := by
  have hl := lockInv_ev S e s s' hG.locks hs
  cases e with
  | start i c =>
    simp only [Ev.run] at hs
    split at hs
    · simp only [Option.some.injEq] at hs; subst hs
      refine finv_same C S w0 s _ i hG hl (fun j hj => goto_th_ne _ _ _ _ hj) rfl ?_ ?_
      · rw [goto_th_self]
        unfold Call.start
        split
        · trivial
        · exact hq.2
        · trivial
        · exact hq.2
      · intro q hq'
        rw [goto_th_self] at hq'
        unfold Call.start at hq'
        split at hq' <;> simp [tempOf] at hq'
    · simp at hs
  | step i ch => exact finv_step C S w0 hK hKt i ch s s' hG hq hs
  | write p data =>
    simp only [Ev.run, Option.some.injEq] at hs; subst hs
    obtain ⟨-, h1, h2⟩ := hq
    refine ⟨hG.locks, hG.const, hG.dict, fun j => ?_, hG.temps, fun c hc => ?_⟩
    · refine pcok_frame C S s.w _ _ (hG.pcs j) (fun _ _ => ⟨rfl, rfl⟩) (fun q hq => ?_)
      rw [setFile_files, if_neg]
      rintro rfl; exact h1 (tempOf_tmp C S s.w _ q (hG.pcs j) hq).1
    · rw [setFile_files]
      split
      · next h => subst h; left; exact h2
      · exact hG.files c hc
  | remove p =>
    simp only [Ev.run, Option.some.injEq] at hs; subst hs
    obtain ⟨-, h1, h2⟩ := hq
    refine ⟨hG.locks, hG.const, hG.dict, fun j => ?_, hG.temps, fun c hc => ?_⟩
    · refine pcok_frame C S s.w _ _ (hG.pcs j) (fun _ _ => ⟨rfl, rfl⟩) (fun q hq => ?_)
      rw [setFile_files, if_neg]
      rintro rfl; exact h1 (tempOf_tmp C S s.w _ q (hG.pcs j) hq).1
    · rw [setFile_files]
      split
      · next h => subst h; left; exact h2
      · exact hG.files c hc
  | tick =>
    simp only [Ev.run, Option.some.injEq] at hs; subst hs
    exact ⟨hG.locks, hG.const, hG.dict, fun j => pcok_frame C S s.w _ _ (hG.pcs j) (fun _ _ => ⟨rfl, rfl⟩) (fun _ _ => rfl),
      hG.temps, hG.files⟩

theorem finv_run (w0 : World)
    (hK : ∀ t a x, C.A t a → x.tmpDir = (w0.tok t).tmpDir → x.cacheFile = (w0.tok t).cacheFile → C.K t (cachePath S x a))
    (hKt : ∀ t c, C.K t c → ¬ C.tmp c) (hA : ∀ t, C.A t (w0.tok t).dictionary) (hX : ∀ c, ¬ C.tmp c → C.X c (w0.files c)) (s : St)
    (h : Run S (C.allows S) (St.init w0) s) : FInv C S w0 s := by
  refine run_inv S _ (FInv C S w0) _ s h ?_ (fun s s' e hI hq he => finv_ev C S w0 hK hKt e s s' hI hq he)
  refine ⟨lockInv_init w0, fun _ => ⟨rfl, rfl⟩, hA, fun _ => trivial, ?_, fun c hc => Or.inl (hX c hc)⟩
  intro i j q h; simp [St.init, tempOf] at h

end Jieba.Threads
