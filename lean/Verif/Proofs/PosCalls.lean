import Verif.Model.PosCalls
import Verif.Proofs.Calls
import Verif.Proofs.PosLazy
import Verif.Proofs.PosTags
/-!
# Lemmas about segmenting, tagging and changing the dictionary at the same time
-/

set_option linter.unusedSectionVars false

namespace Jieba.Pos.Steps
open Co Jieba.Spec Jieba.Lazy

variable {F : Type} [LinearOrder F] {α α' β γ : Type}

/-! ## Nothing raises -/

/-- `Tame` changes to the tokenizer, and POS tokenizers keep theirs. -/
def TameP (t : Nat) (p p' : PWorld) : Prop := Tame t p.w p'.w ∧ ∀ k, (p'.pos k).tok = (p.pos k).tok

theorem TameP.refl (t : Nat) (p : PWorld) : TameP t p p := ⟨Tame.refl t p.w, fun _ => rfl⟩

theorem TameP.trans (t : Nat) (a b c : PWorld) (h1 : TameP t a b) (h2 : TameP t b c) : TameP t a c :=
  ⟨Tame.trans t _ _ _ h1.1 h2.1, fun k => (h2.2 k).trans (h1.2 k)⟩

/-- As `Good`. -/
def GoodP (t : Nat) (Q : β → PWorld → Prop) : Co PWorld α β → PWorld → (Str → Prop) → Prop
  | .ret b, p, D => Q b p ∧ ∀ u, ¬ D u
  | .raise _, _, _ => False
  | .yield _ k, p, D => GoodP t Q k p D
  | .act f k, p, D => ∀ p', TameP t p p' → Healthy t p'.w → TameP t p' (f p') ∧ ∃ D', GoodP t Q (k p') (f p') D' ∧
      (∀ u, D u → Key t (f p').w u ∨ D' u) ∧
      ∀ u, Key t (f p').w u → ¬ Key t p'.w u → ∀ q, q ≠ [] → q <+: u → Key t (f p').w q ∨ D' q

theorem Good.onWorld {t : Nat} {Q : β → World → Prop} {c : Co World α β} {p : PWorld} {D : Str → Prop} (h : Good t Q c p.w D) :
    GoodP t (fun b p' => Q b p'.w) c.onWorld p D := by
  induction c generalizing p D with
  | ret b => exact h
  | raise e => exact h
  | yield a k ih => exact ih h
  | act f k ih =>
    intro p' h1 h2
    obtain ⟨g1, E, g2, g3, g4⟩ := h p'.w h1.1 h2
    exact ⟨⟨g1, fun _ => rfl⟩, E, ih p'.w (p := { p' with w := f p'.w }) g2, g3, g4⟩

theorem GoodP.mapOut {t : Nat} {Q : β → PWorld → Prop} {c : Co PWorld α β} {p : PWorld} {D : Str → Prop} (h : GoodP t Q c p D)
    (f : α → α') : GoodP t Q (c.mapOut f) p D := by
  induction c generalizing p D with
  | ret b => exact h
  | raise e => exact h
  | yield a k ih => exact ih h
  | act g k ih =>
    intro p' h1 h2
    obtain ⟨g1, E, g2, g3, g4⟩ := h p' h1 h2
    exact ⟨g1, E, ih p' g2, g3, g4⟩

theorem GoodP.weaken {t : Nat} {Q : β → PWorld → Prop} {c : Co PWorld α β} {w : PWorld} {D D' : Str → Prop} (h : GoodP t Q c w D')
    (hD : ∀ p, D p → D' p) : GoodP t Q c w D := by
  induction c generalizing w with
  | ret b => exact ⟨h.1, fun p hp => h.2 p (hD p hp)⟩
  | raise e => exact h
  | yield a k ih => exact ih h
  | act f k ih =>
    intro w' h1 h2
    obtain ⟨g1, E, g2, g3, g4⟩ := h w' h1 h2
    exact ⟨g1, E, g2, fun p hp => g3 p (hD p hp), g4⟩

theorem GoodP.mono {t : Nat} {Q' Q : β → PWorld → Prop} {c : Co PWorld α β} {w : PWorld} {D : Str → Prop} (h : GoodP t Q' c w D)
    (hq : ∀ b w', Q' b w' → Q b w') : GoodP t Q c w D := by
  induction c generalizing w D with
  | ret b => exact ⟨hq b w h.1, h.2⟩
  | raise e => exact h
  | yield a k ih => exact ih h
  | act f k ih =>
    intro w' h1 h2
    obtain ⟨g1, E, g2, g3, g4⟩ := h w' h1 h2
    exact ⟨g1, E, ih w' g2, g3, g4⟩

theorem GoodP.bind {t : Nat} {Q' : β → PWorld → Prop} {Q : γ → PWorld → Prop} {c : Co PWorld α β} {g : β → Co PWorld α γ}
    {w : PWorld} {D : Str → Prop} (h : GoodP t Q' c w D) (hg : ∀ b w', Q' b w' → GoodP t Q (g b) w' Lazy.nil) :
    GoodP t Q (c >>= g) w D := by
  rw [bind_def]
  induction c generalizing w D with
  | ret b => exact (hg b w h.1).weaken (fun p hp => h.2 p hp)
  | raise e => exact absurd h id
  | yield a k ih => exact ih h
  | act f k ih =>
    intro w' h1 h2
    obtain ⟨g1, E, g2, g3, g4⟩ := h w' h1 h2
    exact ⟨g1, E, ih w' g2, g3, g4⟩

/-- The tokenizer is healthy and POS tokenizer `k` belongs to it. -/
def Fit (t k : Nat) (p : PWorld) : Prop := Healthy t p.w ∧ (p.pos k).tok = t

theorem Fit.tame {t k : Nat} {p p' : PWorld} (h : Fit t k p) (hp : TameP t p p') : Fit t k p' :=
  ⟨(hp.1 h.1).1, (hp.2 k).trans h.2⟩

/-- `c` never raises, adds no words and keeps POS tokenizer `k` fit. -/
def CalmP (t k : Nat) (c : Co PWorld α Unit) : Prop := ∀ p, Fit t k p → GoodP t (fun _ p' => Fit t k p') c p Lazy.nil

theorem CalmP.bind {t k : Nat} {c d : Co PWorld α Unit} (hc : CalmP t k c) (hd : CalmP t k d) : CalmP t k (c >>= fun _ => d) :=
  fun p hp => (hc p hp).bind (fun _ p' hp' => hd p' hp')

theorem CalmP.ret {t k : Nat} : CalmP t k (.ret () : Co PWorld α Unit) := fun _ hp => ⟨hp, fun _ h => h⟩

theorem CalmP.yieldAll {t k : Nat} (l : List α) : CalmP t k (Co.yieldAll l : Co PWorld α Unit) := by
  induction l with
  | nil => exact CalmP.ret
  | cons a l ih => exact fun p hp => ih p hp

/-- A read. -/
theorem GoodP.get_bind {t : Nat} {Q : γ → PWorld → Prop} {f : PWorld → β} {g : β → Co PWorld α γ} {p : PWorld}
    (h : ∀ p', TameP t p p' → GoodP t Q (g (f p')) p' Lazy.nil) : GoodP t Q (Co.get f >>= g) p Lazy.nil := by
  intro p' h1 _
  exact ⟨TameP.refl t p', Lazy.nil, h p' h1, fun u hu => hu.elim, fun u hu hn => absurd hu hn⟩

theorem CalmP.get {t k : Nat} {f : PWorld → β} {g : β → Co PWorld α Unit} (h : ∀ b, CalmP t k (g b)) : CalmP t k (Co.get f >>= g) :=
  fun _ hp => GoodP.get_bind (fun p' h1 => h _ p' (hp.tame h1))

/-- Who owns POS tokenizer `k` stays the same during a call. -/
theorem GoodP.fit {t k : Nat} {Q : β → PWorld → Prop} {c : Co PWorld α β} {p : PWorld} {D : Str → Prop} (h : GoodP t Q c p D)
    (hp : Fit t k p) : GoodP t (fun b p' => Q b p' ∧ Fit t k p') c p D := by
  induction c generalizing p D with
  | ret b => exact ⟨⟨h.1, hp⟩, h.2⟩
  | raise e => exact h
  | yield a k ih => exact ih h hp
  | act f k ih =>
    intro p' h1 h2
    obtain ⟨g1, E, g2, g3, g4⟩ := h p' h1 h2
    exact ⟨g1, E, ih p' g2 ((hp.tame h1).tame g1), g3, g4⟩

theorem yieldTagged_calm (t k : Nat) (w : Str) : CalmP t k (yieldTagged k w) := CalmP.get (fun _ => CalmP.yieldAll _)

theorem yieldEng_calm (t k : Nat) (buf : Str) : CalmP t k (yieldEng buf) := CalmP.yieldAll _

theorem yieldChars_calm (t k : Nat) (s : Str) : CalmP t k (yieldChars k s) := by
  induction s with
  | nil => exact CalmP.ret
  | cons c s ih => exact (yieldTagged_calm t k [c]).bind ih

theorem noHmmLoopL_calm (t k : Nat) (s : Str) (route : List (F × Nat)) (hr : RouteWF s route) (fuel x : Nat) (buf : Str) :
    CalmP t k (noHmmLoopL k s route fuel x buf) := by
  induction fuel generalizing x buf with
  | zero => exact yieldEng_calm t k buf
  | succ fuel ih =>
    unfold noHmmLoopL
    by_cases hx : x < s.length
    · rw [if_pos hx]
      obtain ⟨r, h1, -, -⟩ := hr x hx
      rw [h1]
      simp only []
      split
      · exact ih _ _
      · exact (yieldEng_calm t k buf).bind ((yieldTagged_calm t k _).bind (ih _ _))
    · rw [if_neg hx]
      exact yieldEng_calm t k buf

theorem ofGen_calm {t k : Nat} {g : Gen Pair} (h : g.err = none) : CalmP t k (ofGen g) := by
  unfold ofGen
  rw [h]
  exact (CalmP.yieldAll _).bind CalmP.ret

theorem flushBufL_calm (P : PSys F) (hd : ∀ b, (cutDetail (detailEnv P) b).err = none) (t k : Nat) (buf : Str) :
    CalmP t k (flushBufL P k buf) := by
  unfold flushBufL
  split
  · exact CalmP.ret
  · split
    · exact yieldTagged_calm t k buf
    · refine CalmP.get (fun freq => ?_)
      split
      · exact ofGen_calm (hd buf)
      · exact yieldChars_calm t k buf

theorem dagCutLoopL_calm (P : PSys F) (hd : ∀ b, (cutDetail (detailEnv P) b).err = none) (t k : Nat) (s : Str)
    (route : List (F × Nat)) (hr : RouteWF s route) (fuel x : Nat) (buf : Str) : CalmP t k (dagCutLoopL P k s route fuel x buf) := by
  induction fuel generalizing x buf with
  | zero => exact flushBufL_calm P hd t k buf
  | succ fuel ih =>
    unfold dagCutLoopL
    by_cases hx : x < s.length
    · rw [if_pos hx]
      obtain ⟨r, h1, -, -⟩ := hr x hx
      rw [h1]
      simp only []
      split
      · exact ih _ _
      · exact (flushBufL_calm P hd t k buf).bind ((yieldTagged_calm t k _).bind (ih _ _))
    · rw [if_neg hx]
      exact flushBufL_calm P hd t k buf

theorem routeL_good (P : PSys F) (t k : Nat) (io : Bool) (s : Str) (p : PWorld) (hp : Fit t k p) :
    GoodP t (fun r p' => RouteWF s r ∧ Fit t k p') (routeL P k io s : Co PWorld α _) p Lazy.nil := by
  unfold routeL
  refine GoodP.get_bind (fun p1 h1 => ?_)
  have hp1 := hp.tame h1
  rw [hp1.2]
  have hdag : GoodP t (fun dag p' => dag.length = s.length ∧ DagOK s dag) ((getDAGL P.sys t io s).onWorld : Co PWorld α _) p1 Lazy.nil :=
    (Good.onWorld (Good.of_reads (getDAGL_noRaise P.sys t io s p1.w hp1.1) (getDAGL_reads P.sys t io s))).mono (fun _ _ h => h.1)
  refine (hdag.fit hp1).bind ?_
  rintro dag p2 ⟨⟨hlen, hd⟩, hp2⟩
  refine GoodP.get_bind (fun p3 h3 => ?_)
  have hp3 := hp2.tame h3
  rw [hp3.2]
  have hroute : GoodP t (fun r p' => RouteWF s r) ((calcRouteL P.sys t s dag).onWorld : Co PWorld α _) p3 Lazy.nil :=
    (Good.onWorld (Good.of_reads (calcRouteL_noRaise P.sys t s dag hlen hd p3.w hp3.1) (calcRouteL_reads P.sys t s dag))).mono (fun _ _ h => h.1)
  exact hroute.fit hp3

theorem cutBlockL_calm (P : PSys F) (t k : Nat) (hm io : Bool)
    (hd : hm = true → ∀ b, (cutDetail (detailEnv P) b).err = none) (blk : Str) : CalmP t k (cutBlockL P k hm io blk) := by
  intro p hp
  unfold cutBlockL
  refine (routeL_good P t k io blk p hp).bind ?_
  rintro route p' ⟨hr, hp'⟩
  split
  · next h => exact dagCutLoopL_calm P (hd h) t k blk route hr _ _ _ p' hp'
  · exact noHmmLoopL_calm t k blk route hr _ _ _ p' hp'

theorem cutBlocksL_calm (P : PSys F) (t k : Nat) (hm io : Bool)
    (hd : hm = true → ∀ b, (cutDetail (detailEnv P) b).err = none) (blks : List Str) : CalmP t k (cutBlocksL P k hm io blks) := by
  induction blks with
  | nil => exact CalmP.ret
  | cons b blks ih =>
    unfold cutBlocksL
    split
    · exact (cutBlockL_calm P t k hm io hd b).bind ih
    · exact (CalmP.yieldAll _).bind ih

/-- Throwing away the tags of the user words leaves a tokenizer healthy. -/
theorem tame_noTags (t u : Nat) (w : World) : Tame t w (w.setTok u { w.tok u with tags := [] }) := by
  intro h
  by_cases hu : t = u
  · subst hu
    refine ⟨⟨?_, ?_, ?_⟩, ?_, rfl, by simp [World.setTok], rfl⟩
    · simp [World.setTok, h.init]
    · simp only [World.setTok, if_true]; exact h.nonneg
    · simp only [World.setTok, if_true]; exact h.total
    · intro k hk; simp only [World.setTok, if_true]; exact hk
  · have ht : (w.setTok u { w.tok u with tags := [] }).tok t = w.tok t := by simp [World.setTok, hu]
    exact ⟨⟨by rw [ht]; exact h.init, by rw [ht]; exact h.nonneg, by rw [ht]; exact h.total⟩, by rw [ht]; exact fun _ h => h, rfl, by rw [ht], rfl⟩

theorem freq_noTags (t u : Nat) (w : World) : ((w.setTok u { w.tok u with tags := [] }).tok t).freq = (w.tok t).freq := by
  by_cases hu : t = u
  · subst hu; simp [World.setTok]
  · simp [World.setTok, hu]

theorem moveTagsL_calm (t k : Nat) : CalmP t k (moveTagsL k : Co PWorld α Unit) := by
  unfold moveTagsL
  refine CalmP.get (fun b => ?_)
  split
  · refine CalmP.bind ?_ ?_
    · intro p hp p1 h1 _
      have hT : TameP t p1 (p1.setPos k ⟨(p1.pos k).tok, PyDict.update (p1.pos k).tab (p1.w.tok (p1.pos k).tok).tags⟩) := by
        refine ⟨Tame.refl t p1.w, fun j => ?_⟩
        by_cases hj : j = k
        · subst hj; simp [PWorld.setPos]
        · simp [PWorld.setPos, hj]
      exact ⟨hT, Lazy.nil, ⟨(hp.tame h1).tame hT, fun _ h => h⟩, fun u hu => hu.elim, fun u hu hn => absurd hu hn⟩
    · intro p hp p1 h1 _
      have hT : TameP t p1 { p1 with w := p1.w.setTok (p1.pos k).tok { p1.w.tok (p1.pos k).tok with tags := [] } } :=
        ⟨tame_noTags t _ _, fun _ => rfl⟩
      refine ⟨hT, Lazy.nil, ⟨(hp.tame h1).tame hT, fun _ h => h⟩, fun u hu => hu.elim, fun u hu hn => ?_⟩
      unfold Key at hu hn
      simp only [freq_noTags] at hu
      exact absurd hu hn
  · exact CalmP.ret

theorem cutL_calm (P : PSys F) (t k : Nat) (hm : Bool) (s : PyText) (io : Bool)
    (hd : hm = true → ∀ b, (cutDetail (detailEnv P) b).err = none) : CalmP t k (cutL P k hm s io) :=
  (moveTagsL_calm t k).bind (cutBlocksL_calm P t k hm io hd _)

/-! ## All calls together -/

structure PPoolInv (t : Nat) (B : Prop) (Q : Nat → Option Int → PWorld → Prop) (p : PPool) : Prop where
  healthy : Healthy t p.p.w
  calls : ∃ (v : Nat → PWorld) (D : Nat → Str → Prop),
    (∀ i, GoodP t (Q i) (p.th i) (v i) (D i) ∧ TameP t (v i) p.p ∧ Healthy t (v i).w) ∧
    (B → ∀ u, Key t p.p.w u → ∀ q, q ≠ [] → q <+: u → Key t p.p.w q ∨ ∃ i, D i q)

theorem ppoolInv_step (t : Nat) (B : Prop) (Q : Nat → Option Int → PWorld → Prop) (p : PPool) (i : Nat) (h : PPoolInv t B Q p) :
    PPoolInv t B Q (p.step i) ∧ TameP t p.p (p.step i).p := by
  obtain ⟨hw, v, D, h1, h2⟩ := h
  unfold PPool.step
  split
  · exact ⟨⟨hw, v, D, h1, h2⟩, TameP.refl t _⟩
  · exact ⟨⟨hw, v, D, h1, h2⟩, TameP.refl t _⟩
  · next a k hk =>
    refine ⟨⟨hw, v, D, fun j => ⟨?_, (h1 j).2⟩, h2⟩, TameP.refl t _⟩
    dsimp only
    split
    · next hj =>
      subst hj
      have := (h1 j).1
      rw [hk] at this
      exact this
    · exact (h1 j).1
  · next f k hk =>
    have hi := (h1 i).1
    rw [hk] at hi
    obtain ⟨g1, E, g2, g3, g4⟩ := hi p.p (h1 i).2.1 hw
    refine ⟨⟨(g1.1 hw).1, fun j => if j = i then f p.p else v j, fun j => if j = i then E else D j, fun j => ?_, ?_⟩, g1⟩
    · dsimp only
      by_cases hj : j = i
      · simp only [if_pos hj]
        subst hj
        exact ⟨g2, TameP.refl t _, (g1.1 hw).1⟩
      · simp only [if_neg hj]
        exact ⟨(h1 j).1, TameP.trans t _ _ _ (h1 j).2.1 g1, (h1 j).2.2⟩
    · intro hB u hu q hq hqu
      have keep : ∀ j, D j q → Key t (f p.p).w q ∨ ∃ m, (if m = i then E else D m) q := by
        intro j hj
        by_cases hji : j = i
        · subst hji
          rcases g3 q hj with h | h
          · exact Or.inl h
          · exact Or.inr ⟨j, by simpa using h⟩
        · exact Or.inr ⟨j, by simpa [hji] using hj⟩
      by_cases hold : Key t p.p.w u
      · rcases h2 hB u hold q hq hqu with h | ⟨j, hj⟩
        · exact Or.inl ((g1.1 hw).2.1 q h)
        · exact keep j hj
      · rcases g4 u hu hold q hq hqu with h | h
        · exact Or.inl h
        · exact Or.inr ⟨i, by simpa using h⟩

theorem ppoolInv_run (t : Nat) (B : Prop) (Q : Nat → Option Int → PWorld → Prop) (p : PPool) (sched : List Nat)
    (h : PPoolInv t B Q p) : PPoolInv t B Q (p.run sched) ∧ TameP t p.p (p.run sched).p := by
  unfold PPool.run
  induction sched generalizing p with
  | nil => exact ⟨h, TameP.refl t _⟩
  | cons i l ih =>
    obtain ⟨h1, h2⟩ := ppoolInv_step t B Q p i h
    obtain ⟨h3, h4⟩ := ih _ h1
    exact ⟨h3, TameP.trans t _ _ _ h2 h4⟩

theorem pstep_runs (p : PPool) (j i : Nat) (l : List Yield) (r : Except PyErr (Option Int)) (h : Runs ((p.step j).th i) l r) :
    ∃ m, (p.step j).out i = p.out i ++ m ∧ Runs (p.th i) (m ++ l) r := by
  unfold PPool.step at *
  cases hj : p.th j with
  | ret b => simp only [hj] at h ⊢; exact ⟨[], by simp, h⟩
  | raise e => simp only [hj] at h ⊢; exact ⟨[], by simp, h⟩
  | yield a k =>
    simp only [hj] at h ⊢
    by_cases hij : i = j
    · subst hij
      simp only [if_true] at h ⊢
      exact ⟨[a], rfl, by rw [hj]; exact .yield _ _ _ _ h⟩
    · simp only [if_neg hij] at h ⊢
      exact ⟨[], by simp, h⟩
  | act f k =>
    simp only [hj] at h ⊢
    refine ⟨[], by simp, ?_⟩
    by_cases hij : i = j
    · subst hij
      simp only [if_true] at h
      rw [hj]; exact .act _ _ _ _ _ h
    · simp only [if_neg hij] at h
      exact h

/-- What a call has yielded so far, and any run of what remains, make up a run of the whole call. -/
theorem ppool_runs (p : PPool) (sched : List Nat) (i : Nat) (l : List Yield) (r : Except PyErr (Option Int))
    (h : Runs ((p.run sched).th i) l r) : ∃ m, (p.run sched).out i = p.out i ++ m ∧ Runs (p.th i) (m ++ l) r := by
  unfold PPool.run at *
  induction sched generalizing p with
  | nil => exact ⟨[], by simp, h⟩
  | cons j sched ih =>
    simp only [List.foldl_cons] at h ⊢
    obtain ⟨m, h1, h2⟩ := ih (p.step j) h
    obtain ⟨m', h3, h4⟩ := pstep_runs p j i _ r h2
    exact ⟨m' ++ m, by rw [h1, h3, List.append_assoc], by rw [List.append_assoc]; exact h4⟩

theorem pends (p : Nat → PPool) (σ : Nat → Nat) (hp : ∀ n, p (n + 1) = (p n).step (σ n)) (i : Nat) (hi : ∀ n, ∃ m, n ≤ m ∧ σ m = i)
    (n : Nat) : ∃ m, n ≤ m ∧ ((∃ b, (p m).th i = .ret b) ∨ ∃ e, (p m).th i = .raise e) := by
  have same : ∀ n m, n ≤ m → (∀ k, n ≤ k → k < m → σ k ≠ i) → (p m).th i = (p n).th i := by
    intro n m hnm h
    induction m, hnm using Nat.le_induction with
    | base => rfl
    | succ m hm ih =>
      rw [hp, ← ih (fun k a b => h k a (by omega))]
      have := h m hm (by omega)
      unfold PPool.step
      split <;> simp [Ne.symm this]
  have key : ∀ (c : Co PWorld Yield (Option Int)) (n : Nat), (p n).th i = c →
      ∃ m, n ≤ m ∧ ((∃ b, (p m).th i = .ret b) ∨ ∃ e, (p m).th i = .raise e) := by
    have next : ∀ n, ∃ m, n ≤ m ∧ σ m = i ∧ (p m).th i = (p n).th i := by
      intro n
      classical
      have hex := hi n
      have hm := Nat.find_spec hex
      refine ⟨Nat.find hex, hm.1, hm.2, same n _ hm.1 (fun k h1 h2 h3 => Nat.find_min hex h2 ⟨h1, h3⟩)⟩
    intro c
    induction c with
    | ret b => intro n hn; exact ⟨n, le_refl _, Or.inl ⟨b, hn⟩⟩
    | raise e => intro n hn; exact ⟨n, le_refl _, Or.inr ⟨e, hn⟩⟩
    | yield a k ih =>
      intro n hn
      obtain ⟨m, h1, h2, h3⟩ := next n
      obtain ⟨m', h4, h5⟩ := ih (m + 1) (by
        rw [hp, h2]; unfold PPool.step; rw [h3, hn]; simp)
      exact ⟨m', by omega, h5⟩
    | act f k ih =>
      intro n hn
      obtain ⟨m, h1, h2, h3⟩ := next n
      obtain ⟨m', h4, h5⟩ := ih (p m).p (m + 1) (by
        rw [hp, h2]; unfold PPool.step; rw [h3, hn]; simp)
      exact ⟨m', by omega, h5⟩
  exact key _ n rfl

end Jieba.Pos.Steps
