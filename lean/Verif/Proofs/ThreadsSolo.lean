import Verif.Proofs.Threads
/-!
# A thread running alone does what the sequential model says
-/

set_option linter.unusedSectionVars false

namespace Jieba.Threads
open Jieba

variable {F : Type _} [LinearOrder F]

/-- Steps of thread `i` only. -/
inductive Solo (S : Sys F) (i : Nat) (s : St) : St → Prop
  | refl : Solo S i s s
  | step {s1 s2 : St} (ch : Choice) : Solo S i s s1 → step S i ch s1 = some s2 → Solo S i s s2

theorem Solo.evs {S : Sys F} {i : Nat} {s s' : St} (h : Solo S i s s') :
    ∃ chs : List Choice, runEvs S s (chs.map (fun ch => Ev.step i ch)) = some s' := by
  induction h with
  | refl => exact ⟨[], rfl⟩
  | @step s1 s2 ch _ h2 ih =>
    obtain ⟨chs, h3⟩ := ih
    refine ⟨chs ++ [ch], ?_⟩
    have : ∀ (es : List Ev) (s : St), runEvs S s es = some s1 → runEvs S s (es ++ [.step i ch]) = some s2 := by
      intro es
      induction es with
      | nil => intro s h; simp [runEvs] at h; subst h; simp [runEvs, Ev.run, h2]
      | cons e es ih =>
        intro s h
        simp only [runEvs, List.cons_append] at h ⊢
        split
        · next h1 => simp [h1] at h
        · next s3 h1 => simp only [h1] at h; exact ih _ h
    rw [List.map_append]
    exact this _ _ h3

/-- Thread `i` has got, alone, from `s0` to `pc` and world `w`; it holds lock object `o`, and the lock of `t` if `l`. -/
def Gets (S : Sys F) (i t : Nat) (s0 : St) (w : World) (pc : PC) (o : Option Nat) (l : Bool) : Prop :=
  ∃ s, Solo S i s0 s ∧ s.th i = pc ∧ s.w = w ∧ (∀ M, s.wl M = if some M = o then some i else none) ∧
    (∀ u, s.lock u = if u = t ∧ l = true then some i else s0.lock u) ∧ ∀ j, j ≠ i → s.th j = s0.th j

variable {S : Sys F} {i t : Nat} {s0 : St} {w : World} {o : Option Nat} {l : Bool}

theorem Gets.goto {pc pc' : PC} (h : Gets S i t s0 w pc o l) (w' : World) (ch : Choice)
    (hs : ∀ s, s.th i = pc → s.w = w → ∃ s1 : St, step S i ch s = some (s1.goto i pc') ∧ s1.w = w' ∧ s1.wl = s.wl ∧ s1.lock = s.lock ∧
      s1.th = s.th) : Gets S i t s0 w' pc' o l := by
  obtain ⟨s, h1, h2, h3, h4, h5, h6⟩ := h
  obtain ⟨s1, g1, g2, g3, g4, g5⟩ := hs s h2 h3
  refine ⟨_, .step ch h1 g1, by simp, g2, ?_, ?_, ?_⟩
  · simpa [g3] using h4
  · simpa [g4] using h5
  · intro j hj
    rw [goto_th_ne _ _ _ _ hj, g5, h6 j hj]

theorem Gets.loc {k k' : CS} {w' : World} (h : Gets S i t s0 w (.cs t k) o l) (ch : Choice) (hk : k.isLocal = true)
    (hc : csStep S t w ch k = some (w', k')) : Gets S i t s0 w' (.cs t k') o l := by
  refine h.goto w' ch (fun s h2 h3 => ?_)
  rw [step_local S i ch s t k h2 hk, h3, hc]
  exact ⟨_, rfl, rfl, rfl, rfl, rfl⟩

theorem Gets.acq {a : Option Path} (h : Gets S i t s0 w (.acq t a) none false) (hl : s0.lock t = none) :
    Gets S i t s0 w (.cs t (.look a)) none true := by
  obtain ⟨s, h1, h2, h3, h4, h5, h6⟩ := h
  have hlk : s.lock t = none := by rw [h5]; simp [hl]
  refine ⟨(s.setLock t (some i)).goto i (.cs t (.look a)), .step .go h1 (by simp [step, h2, hlk]), by simp, h3, h4, ?_, ?_⟩
  · intro u
    simp only [goto_lock, St.setLock, h5]
    by_cases hu : u = t <;> simp [hu]
  · intro j hj; rw [goto_th_ne _ _ _ _ hj]; exact h6 j hj

theorem Gets.look {a : Option Path} (h : Gets S i t s0 w (.cs t (.look a)) none true) : Gets S i t s0 w (.cs t (.ifInit a)) none true := by
  obtain ⟨s, h1, h2, h3, h4, h5, h6⟩ := h
  cases hd : s.dw.get? a with
  | none =>
    refine ⟨s.goto i (.cs t (.ifInit a)), .step .go h1 (by simp [step, h2, hd]), by simp, h3, h4, h5, ?_⟩
    intro j hj; rw [goto_th_ne _ _ _ _ hj]; exact h6 j hj
  | some L =>
    have hL : s.wl L = none := by rw [h4]; simp
    have e1 : step S i .go s = some (s.goto i (.cs t (.waitW a L))) := by simp [step, h2, hd]
    have e2 : step S i .go (s.goto i (.cs t (.waitW a L))) =
        some (((s.goto i (.cs t (.waitW a L))).setWl L (some i)).goto i (.cs t (.passW a L))) := by simp [step, hL]
    refine ⟨((((s.goto i (.cs t (.waitW a L))).setWl L (some i)).goto i (.cs t (.passW a L))).setWl L none).goto i (.cs t (.ifInit a)),
      .step .go (.step .go (.step .go h1 e1) e2) (by simp [step]), by simp, h3, ?_, h5, ?_⟩
    · intro M
      simp only [goto_wl, St.setWl]
      by_cases hM : M = L
      · simp [hM]
      · simp [hM, h4]
    · intro j hj
      simp [goto_th_ne _ _ _ _ hj, h6 j hj]

theorem Gets.build {a : Option Path} {c : Path} (h : Gets S i t s0 w (.cs t (.getW a c)) none true) :
    ∃ L, Gets S i t s0 w (.cs t (.bld L (.dictF a c))) (some L) true := by
  have h0 : ∃ L, Gets S i t s0 w (.cs t (.putW a c L)) none true := by
    obtain ⟨s, h1, h2, h3, h4, h5, h6⟩ := h
    cases hd : s.dw.get? a with
    | none =>
      refine ⟨s.fresh, { s with fresh := s.fresh + 1 }.goto i (.cs t (.putW a c s.fresh)), .step .go h1 (by simp [step, h2, hd]), by simp, h3, h4, h5, ?_⟩
      intro j hj; rw [goto_th_ne _ _ _ _ hj]; exact h6 j hj
    | some L =>
      refine ⟨L, { s with fresh := s.fresh + 1 }.goto i (.cs t (.putW a c L)), .step .go h1 (by simp [step, h2, hd]), by simp, h3, h4, h5, ?_⟩
      intro j hj; rw [goto_th_ne _ _ _ _ hj]; exact h6 j hj
  obtain ⟨L, h⟩ := h0
  have h := h.goto (pc' := .cs t (.acqW a c L)) w .go (fun s h2 h3 => ⟨{ s with dw := s.dw.set a L }, by simp [step, h2], h3, rfl, rfl, rfl⟩)
  refine ⟨L, ?_⟩
  obtain ⟨s, h1, h2, h3, h4, h5, h6⟩ := h
  have hL : s.wl L = none := by rw [h4]; simp
  refine ⟨(s.setWl L (some i)).goto i (.cs t (.bld L (.dictF a c))), .step .go h1 (by simp [step, h2, hL]), by simp, h3, ?_, h5, ?_⟩
  · intro M
    simp only [goto_wl, St.setWl]
    by_cases hM : M = L
    · simp [hM]
    · simp [hM, h4]
  · intro j hj; rw [goto_th_ne _ _ _ _ hj]; exact h6 j hj

/-- Where a thread goes after `with wlock`. -/
def afterW (t : Nat) (a : Option Path) : Option PyErr → PC
  | none => .cs t (.del a)
  | some e => .cs t (.rel (some e))

theorem Gets.relW {a : Option Path} {e : Option PyErr} {L : Nat} (h : Gets S i t s0 w (.cs t (.bld L (.relW a e))) (some L) true) :
    Gets S i t s0 w (afterW t a e) none true := by
  obtain ⟨s, h1, h2, h3, h4, h5, h6⟩ := h
  refine ⟨(s.setWl L none).goto i (afterW t a e), .step .go h1 (by simp only [step, h2]; cases e <;> rfl), by simp, h3, ?_, h5, ?_⟩
  · intro M
    simp only [goto_wl, St.setWl]
    by_cases hM : M = L
    · simp [hM]
    · simp [hM, h4]
  · intro j hj; rw [goto_th_ne _ _ _ _ hj]; exact h6 j hj

theorem Gets.del {a : Option Path} (h : Gets S i t s0 w (.cs t (.del a)) o l) : Gets S i t s0 w (.cs t .setI) o l :=
  h.goto w .go (fun s h2 h3 => ⟨{ s with dw := dwDel s.dw a }, by simp [step, h2], h3, rfl, rfl, rfl⟩)

theorem Gets.rel {r : Option PyErr} (h : Gets S i t s0 w (.cs t (.rel r)) o true) (hl : s0.lock t = none) :
    Gets S i t s0 w (.idle (some r)) o false := by
  obtain ⟨s, h1, h2, h3, h4, h5, h6⟩ := h
  refine ⟨(s.setLock t none).goto i (.idle (some r)), .step .go h1 (by simp [step, h2]), by simp, h3, h4, ?_, ?_⟩
  · intro u
    simp only [goto_lock, St.setLock, h5]
    by_cases hu : u = t <;> simp [hu, hl]
  · intro j hj; rw [goto_th_ne _ _ _ _ hj]; exact h6 j hj

/-- The exception of a result, if any. -/
def excOf (r : Except PyErr Unit) : Option PyErr := match r with
  | .ok _ => none
  | .error e => some e

theorem Gets.fin (h : Gets S i t s0 w (.cs t .setI) none true) (hl : s0.lock t = none) :
    Gets S i t s0 (markInit w t) (.idle (some none)) none false :=
  ((h.loc .go rfl rfl).rel hl : Gets S i t s0 (markInit w t) _ none false)

theorem mod_mod (w : World) (t : Nat) (f : Freq) (n : Int) :
    World.modTok (World.modTok w t (fun y => { y with freq := f })) t (fun y => { y with total := n }) =
      w.setTok t { w.tok t with freq := f, total := n } := by
  unfold World.modTok World.setTok
  simp only [World.mk.injEq, true_and]
  funext u
  by_cases hu : u = t <;> simp [hu]

/-- Mark the tokenizer unless there was an exception. -/
def markOk (w : World) (t : Nat) : Except PyErr Unit → World
  | .error _ => w
  | .ok _ => markInit w t

theorem Gets.ofBuild {a : Option Path} {c q : Path} (h : Gets S i t s0 w (.cs t (.getW a c)) none true) (hl : s0.lock t = none)
    (io : Bool) (hq : w.files q = none) (hqc : q ≠ c) (w' : World) (r : Except PyErr Unit) (hb : buildDict S w t c io = (w', r)) :
    Gets S i t s0 (markOk w' t r) (.idle (some (excOf r))) none false := by
  obtain ⟨L, h⟩ := h.build
  have h := h.loc .go rfl rfl
  unfold buildDict at hb
  cases h1 : dictFile w (w.tok t).dictionary with
  | error e =>
    have h := h.loc (k' := .bld L (.relW a (some e))) (w' := w) .go rfl (by simp [csStep, bldStep, h1])
    simp only [h1, Prod.mk.injEq] at hb
    obtain ⟨rfl, rfl⟩ := hb
    exact Gets.rel h.relW hl
  | ok data =>
    cases h2 : genPfdict data with
    | error e =>
      have h := h.loc (k' := .bld L (.relW a (some e))) (w' := w) .go rfl (by simp [csStep, bldStep, h1, h2])
      simp only [h1, h2, Prod.mk.injEq] at hb
      obtain ⟨rfl, rfl⟩ := hb
      exact Gets.rel h.relW hl
    | ok x =>
      obtain ⟨freq, total⟩ := x
      have h := h.loc (k' := .bld L (.setF a c (freq, total))) (w' := w) .go rfl (by simp [csStep, bldStep, h1, h2])
      have h := h.loc (k' := .bld L (.setT a c total)) .go rfl rfl
      have h := h.loc (k' := .bld L (.mk a c)) .go rfl rfl
      simp only [] at h
      rw [mod_mod] at h
      simp only [h1, h2] at hb
      have hf : ∀ p, (w.setTok t { w.tok t with freq := freq, total := total }).files p = w.files p := fun p => rfl
      have ht : (w.setTok t { w.tok t with freq := freq, total := total }).tok t = { w.tok t with freq := freq, total := total } := by
        simp [World.setTok]
      generalize hw : w.setTok t { w.tok t with freq := freq, total := total } = w1 at *
      cases io with
      | false =>
        have h := h.loc (k' := .bld L (.relW a none)) (w' := w1) .fail rfl rfl
        simp only [Bool.false_eq_true, if_false, Prod.mk.injEq] at hb
        obtain ⟨rfl, rfl⟩ := hb
        exact (Gets.del h.relW).fin hl
      | true =>
        have h := h.loc (k' := .bld L (.part a c q)) (.name q 0) rfl (by simp [csStep, bldStep, hf, hq]; rfl)
        have h := h.loc (.name q 0) rfl rfl
        have h := h.loc .go rfl rfl
        have h := h.loc (w' := w1.setFile c (some ⟨S.dump (freq, total), w1.clock⟩)) (k' := .bld L (.relW a none)) .go rfl (by
          simp only [csStep, bldStep, World.setFile, if_true, ht, Option.map_some, Option.some.injEq, Prod.mk.injEq, and_true,
            World.mk.injEq, true_and]
          funext p
          by_cases hp : p = c
          · simp [hp]
          · by_cases hpq : p = q
            · subst hpq; simp [hp, hf, hq]
            · simp [hp, hpq])
        simp only [if_true, Prod.mk.injEq] at hb
        obtain ⟨rfl, rfl⟩ := hb
        exact (Gets.del h.relW).fin hl

theorem Gets.ofLocked {a : Option Path} {q : Path} (h : Gets S i t s0 w (.acq t a) none false) (hl : s0.lock t = none)
    (io : Bool) (hq : w.files q = none) (hqc : q ≠ cachePath S (w.tok t) a) :
    Gets S i t s0 (initLocked S w t a io).1 (.idle (some (excOf (initLocked S w t a io).2))) none false := by
  have h := (h.acq hl).look
  cases hi : (w.tok t).initialized with
  | true =>
    have h := h.loc (k' := .rel none) (w' := w) .go rfl (by simp [csStep, hi])
    have he : initLocked S w t a io = (w, .ok ()) := by simp [initLocked, hi]
    rw [he]
    exact h.rel hl
  | false =>
    have h := h.loc (k' := .cname a) (w' := w) .go rfl (by simp [csStep, hi])
    have h := h.loc .go rfl rfl
    generalize hc : cachePath S (w.tok t) a = c at *
    have hbuild : Gets S i t s0 w (.cs t (.getW a c)) none true → ∀ cf : Option File, cacheUsable w a c = .ok cf →
        cf.bind (fun f => S.load f.data) = none → Gets S i t s0 (initLocked S w t a io).1
          (.idle (some (excOf (initLocked S w t a io).2))) none false := by
      intro h cf g1 g2
      obtain ⟨⟨w', r⟩, hb⟩ : ∃ x, buildDict S w t c io = x := ⟨_, rfl⟩
      have h := h.ofBuild hl io hq hqc w' r hb
      have he : initLocked S w t a io = (markOk w' t r, r) := by
        simp only [initLocked, hi, hc, g1, g2, hb, Bool.false_eq_true, if_false]
        cases r <;> rfl
      rw [he]
      exact h
    have hopen : ∀ f, w.files c = some f → cacheUsable w a c = .ok (some f) → Gets S i t s0 w (.cs t (.openC a c)) none true →
        Gets S i t s0 (initLocked S w t a io).1 (.idle (some (excOf (initLocked S w t a io).2))) none false := by
      intro f hf g1 h
      cases hx : S.load f.data with
      | none =>
        have h := h.loc (k' := .getW a c) (w' := w) .go rfl (by simp [csStep, hf, hx])
        exact hbuild h _ g1 (by simp [hx])
      | some x =>
        obtain ⟨freq, total⟩ := x
        have h := h.loc (k' := .setF (freq, total)) (w' := w) .go rfl (by simp [csStep, hf, hx])
        have h := h.loc (k' := .setT total) .go rfl rfl
        have h := h.loc (k' := .setI) .go rfl rfl
        simp only [] at h
        rw [mod_mod] at h
        have he : initLocked S w t a io = (markInit (w.setTok t { w.tok t with freq := freq, total := total }) t, .ok ()) := by
          simp [initLocked, hi, hc, g1, hx]
        rw [he]
        exact h.fin hl
    cases hf : w.files c with
    | none =>
      have h := h.loc (k' := .getW a c) (w' := w) .go rfl (by simp [csStep, hf])
      exact hbuild h none (by simp [cacheUsable, hf]) rfl
    | some f =>
      cases a with
      | none =>
        have h := h.loc (k' := .openC none c) (w' := w) .go rfl (by simp [csStep, hf])
        exact hopen f hf (by simp [cacheUsable, hf]) h
      | some p =>
        have h := h.loc (k' := .mtC p c) (w' := w) .go rfl (by simp [csStep, hf])
        have h := h.loc (k' := .mtD p c f.mtime) (w' := w) .go rfl (by simp [csStep, hf])
        cases hp : w.files p with
        | none =>
          have h := h.loc (k' := .rel (some .fileNotFound)) (w' := w) .go rfl (by simp [csStep, hp])
          have he : initLocked S w t (some p) io = (w, .error .fileNotFound) := by
            simp [initLocked, hi, hc, cacheUsable, hf, hp]
          rw [he]
          exact h.rel hl
        | some g =>
          by_cases hm : g.mtime < f.mtime
          · have h := h.loc (k' := .openC (some p) c) (w' := w) .go rfl (by simp [csStep, hp, hm])
            exact hopen f hf (by simp [cacheUsable, hf, hp, hm]) h
          · have h := h.loc (k' := .getW (some p) c) (w' := w) .go rfl (by simp [csStep, hp, hm])
            exact hbuild h none (by simp [cacheUsable, hf, hp, hm]) rfl

theorem mod_mod2 (w : World) (t : Nat) (p : Path) :
    World.modTok (World.modTok w t (fun y => { y with dictionary := some p })) t (fun y => { y with initialized := false }) =
      w.setTok t { w.tok t with dictionary := some p, initialized := false } := by
  unfold World.modTok World.setTok
  simp only [World.mk.injEq, true_and]
  funext u
  by_cases hu : u = t <;> simp [hu]

theorem Gets.ofInit {q : Path} {d : Option Path} (h : Gets S i t s0 w ((Call.init t d).start S) none false) (hl : s0.lock t = none)
    (io : Bool) (hq : w.files q = none) (hqc : ∀ a, q ≠ cachePath S (w.tok t) a) :
    Gets S i t s0 (initTok S w t d io).1 (.idle (some (excOf (initTok S w t d io).2))) none false := by
  have hnone : Gets S i t s0 w (.readD t) none false →
      Gets S i t s0 (initLocked S w t (w.tok t).dictionary io).1
        (.idle (some (excOf (initLocked S w t (w.tok t).dictionary io).2))) none false := by
    intro h
    have h := h.goto (pc' := .acq t (w.tok t).dictionary) w .go (fun s h2 h3 => ⟨s, by simp [step, h2, h3], h3, rfl, rfl, rfl⟩)
    exact h.ofLocked hl io hq (hqc _)
  cases d with
  | none => exact hnone h
  | some p =>
    cases p with
    | nil => exact hnone h
    | cons x p =>
      change Gets S i t s0 w (.argD t (S.abspath (x :: p))) none false at h
      have hset : Gets S i t s0 w (.setD t (S.abspath (x :: p))) none false →
          Gets S i t s0 (initLocked S (w.setTok t { w.tok t with dictionary := some (S.abspath (x :: p)), initialized := false }) t
              (some (S.abspath (x :: p))) io).1
            (.idle (some (excOf (initLocked S (w.setTok t { w.tok t with dictionary := some (S.abspath (x :: p)), initialized := false }) t
              (some (S.abspath (x :: p))) io).2))) none false := by
        intro h
        have h := h.goto (pc' := .clrI t (S.abspath (x :: p)))
          (World.modTok w t (fun y => { y with dictionary := some (S.abspath (x :: p)) })) .go
          (fun s h2 h3 => ⟨{ s with w := World.modTok s.w t (fun y => { y with dictionary := some (S.abspath (x :: p)) }) },
            by simp only [step, h2], by simp [h3], rfl, rfl, rfl⟩)
        have h := h.goto (pc' := .acq t (some (S.abspath (x :: p))))
          (World.modTok (World.modTok w t (fun y => { y with dictionary := some (S.abspath (x :: p)) })) t
            (fun y => { y with initialized := false })) .go
          (fun s h2 h3 => ⟨{ s with w := World.modTok s.w t (fun y => { y with initialized := false }) },
            by simp only [step, h2], by simp [h3], rfl, rfl, rfl⟩)
        rw [mod_mod2] at h
        refine h.ofLocked hl io hq ?_
        have := hqc (some (S.abspath (x :: p)))
        simpa [cachePath, World.setTok] using this
      unfold initTok
      by_cases h1 : (w.tok t).dictionary = some (S.abspath (x :: p))
      · have h := h.goto (pc' := .argI t (S.abspath (x :: p))) w .go (fun s h2 h3 => ⟨s, by simp [step, h2, h3, h1], h3, rfl, rfl, rfl⟩)
        cases h2 : (w.tok t).initialized with
        | true =>
          have h := h.goto (pc' := .idle (some none)) w .go (fun s g2 g3 => ⟨s, by simp [step, g2, g3, h2], g3, rfl, rfl, rfl⟩)
          simpa [h1, excOf, h2] using h
        | false =>
          have h := h.goto (pc' := .setD t (S.abspath (x :: p))) w .go (fun s g2 g3 => ⟨s, by simp [step, g2, g3, h2], g3, rfl, rfl, rfl⟩)
          have h := hset h
          simpa [h1, h2] using h
      · have h := h.goto (pc' := .setD t (S.abspath (x :: p))) w .go (fun s h2 h3 => ⟨s, by simp [step, h2, h3, h1], h3, rfl, rfl, rfl⟩)
        have h := hset h
        simpa [h1] using h

end Jieba.Threads
