import Verif.Proofs.PosInit
/-!
# Lemmas about the table of a POS tokenizer after it has been initialised
-/

set_option linter.unusedSectionVars false

namespace Jieba.Pos.Steps
open Co Jieba.Spec Jieba.Lazy

variable {F : Type} [LinearOrder F] {α α' β γ σ : Type}

/-- The tag on the last line with word `u`. -/
def lastOf (u : Str) : List Bytes → Option Str
  | [] => none
  | l :: ls => match lastOf u ls with
    | some g => some g
    | none => match tagLine l with
      | some (some (w, g)) => if w = u then some g else none
      | _ => none

theorem lastOf_none (u : Str) (ls : List Bytes) (h : lastOf u ls = none) : ∀ l ∈ ls, ∀ g, ¬ TagEntry l u g := by
  induction ls with
  | nil => simp
  | cons l ls ih =>
    unfold lastOf at h
    cases hl : lastOf u ls with
    | some g => rw [hl] at h; simp at h
    | none =>
      rw [hl] at h
      intro m hm g hg
      rcases List.mem_cons.mp hm with rfl | hm
      · rw [(tagEntry_iff _ u g).mp hg] at h
        simp at h
      · exact ih hl m hm g hg

theorem lastOf_spec (u : Str) (ls : List Bytes) : LastTag ls u (lastOf u ls) := by
  induction ls with
  | nil => simp [lastOf, LastTag]
  | cons l ls ih =>
    cases hl : lastOf u ls with
    | some g =>
      have h : lastOf u (l :: ls) = some g := by simp [lastOf, hl]
      rw [h]
      rw [hl] at ih
      obtain ⟨a, m, b, h1, h2, h3⟩ := ih
      exact ⟨l :: a, m, b, by rw [h1]; rfl, h2, h3⟩
    | none =>
      have hn := lastOf_none u ls hl
      cases h : lastOf u (l :: ls) with
      | none => exact lastOf_none u _ h
      | some g =>
        refine ⟨[], l, ls, rfl, ?_, hn⟩
        unfold lastOf at h
        rw [hl] at h
        simp only [] at h
        split at h
        · next w g' hw =>
          split at h
          · next hwu => cases h; subst hwu; exact (tagEntry_iff _ _ _).mpr hw
          · simp at h
        · simp at h

/-! ## One word and one POS tokenizer -/

/-- What calls may expect: the tokenizer is healthy, files and owners are those of `p0`, and word `u` has no tag as a user word. -/
structure Rely (t : Nat) (p0 : PWorld) (u : Str) (p : PWorld) : Prop where
  healthy : Healthy t p.w
  files : SameFiles t p0.w p.w
  owner : ∀ j, (p.pos j).tok = (p0.pos j).tok
  tags : ∀ g, (u, g) ∉ (p.w.tok t).tags

/-- `c` gives no tag to user word `u` and leaves the tag of `u` in the table of POS tokenizer `k` alone. -/
def Still (t : Nat) (p0 : PWorld) (u : Str) (k : Nat) : Co PWorld α β → Prop
  | .ret _ => True
  | .raise _ => True
  | .yield _ c => Still t p0 u k c
  | .act f c => ∀ p, Rely t p0 u p → (∀ g, (u, g) ∉ ((f p).w.tok t).tags) ∧ ((f p).pos k).tab.get? u = (p.pos k).tab.get? u ∧
      Still t p0 u k (c p)

/-- `c` gives no tag to user word `u` and does not return before it has left `T` as the tag of `u` in the table of POS tokenizer `k`, which
it leaves alone afterwards. -/
def Sets (t : Nat) (p0 : PWorld) (u : Str) (k : Nat) (T : Option Str) : Co PWorld α β → Prop
  | .ret _ => False
  | .raise _ => False
  | .yield _ c => Sets t p0 u k T c
  | .act f c => ∀ p, Rely t p0 u p → (∀ g, (u, g) ∉ ((f p).w.tok t).tags) ∧
      (Sets t p0 u k T (c p) ∨ (((f p).pos k).tab.get? u = T ∧ Still t p0 u k (c p)))

variable {t k : Nat} {p0 : PWorld} {u : Str} {T : Option Str}

theorem Still.bind {c : Co PWorld α β} {g : β → Co PWorld α γ} (hc : Still t p0 u k c) (hg : ∀ b, Still t p0 u k (g b)) :
    Still t p0 u k (c >>= g) := by
  rw [bind_def]
  induction c with
  | ret b => exact hg b
  | raise e => trivial
  | yield a k ih => exact ih hc
  | act f k ih => exact fun p h => ⟨(hc p h).1, (hc p h).2.1, ih p (hc p h).2.2⟩

theorem Still.mapOut {f : α → α'} {c : Co PWorld α β} (h : Still t p0 u k c) : Still t p0 u k (c.mapOut f) := by
  induction c with
  | ret b => trivial
  | raise e => trivial
  | yield a k ih => exact ih h
  | act g k ih => exact fun p hp => ⟨(h p hp).1, (h p hp).2.1, ih p (h p hp).2.2⟩

theorem Still.get_bind {f : PWorld → β} {g : β → Co PWorld α γ} (h : ∀ p, Rely t p0 u p → Still t p0 u k (g (f p))) :
    Still t p0 u k (Co.get f >>= g) := fun p hp => ⟨hp.tags, rfl, h p hp⟩

theorem Still.yieldAll (l : List α) : Still t p0 u k (Co.yieldAll l : Co PWorld α Unit) := by
  induction l with
  | nil => trivial
  | cons a l ih => exact ih

/-- Methods of the tokenizer know nothing of POS tokenizers. -/
theorem Keeps.still {c : Co World α β} (h : Keeps t p0.w.files (fun v _ => v ≠ u) c) (hn : ∀ p, Rely t p0 u p → TagsIn t (fun v _ => v ≠ u) p.w) :
    Still t p0 u k c.onWorld := by
  induction c with
  | ret b => trivial
  | raise e => trivial
  | yield a k ih => exact ih h
  | act f k ih =>
    intro p hp
    obtain ⟨h1, h2⟩ := h p.w hp.healthy hp.files.1 (hn p hp)
    exact ⟨fun g hg => h1 _ hg rfl, rfl, ih p.w h2⟩

theorem rely_tagsIn {p : PWorld} (h : Rely t p0 u p) : TagsIn t (fun v _ => v ≠ u) p.w := by
  rintro ⟨v, g⟩ hx rfl
  exact h.tags g hx

theorem Reads.still {c : Co World α β} (h : Reads t c) : Still t p0 u k c.onWorld :=
  Keeps.still (Keeps.of_reads h) (fun _ hp => rely_tagsIn hp)

theorem yieldTagged_still (j : Nat) (w : Str) : Still t p0 u k (yieldTagged j w) := Still.get_bind (fun _ _ => Still.yieldAll _)

theorem yieldEng_still (buf : Str) : Still t p0 u k (yieldEng buf) := Still.yieldAll _

theorem yieldChars_still (j : Nat) (s : Str) : Still t p0 u k (yieldChars j s) := by
  induction s with
  | nil => trivial
  | cons c s ih => exact (yieldTagged_still j [c]).bind (fun _ => ih)

theorem noHmmLoopL_still (j : Nat) (s : Str) (route : List (F × Nat)) (fuel x : Nat) (buf : Str) :
    Still t p0 u k (noHmmLoopL j s route fuel x buf) := by
  induction fuel generalizing x buf with
  | zero => exact yieldEng_still buf
  | succ fuel ih =>
    unfold noHmmLoopL
    split
    · split
      · trivial
      · simp only []
        split
        · exact ih _ _
        · exact (yieldEng_still buf).bind (fun _ => (yieldTagged_still j _).bind (fun _ => ih _ _))
    · exact yieldEng_still buf

theorem flushBufL_still (P : PSys F) (j : Nat) (buf : Str) : Still t p0 u k (flushBufL P j buf) := by
  unfold flushBufL
  split
  · trivial
  · split
    · exact yieldTagged_still j buf
    · refine Still.get_bind (fun p _ => ?_)
      split
      · unfold ofGen
        refine (Still.yieldAll _).bind (fun _ => ?_)
        split <;> trivial
      · exact yieldChars_still j buf

theorem dagCutLoopL_still (P : PSys F) (j : Nat) (s : Str) (route : List (F × Nat)) (fuel x : Nat) (buf : Str) :
    Still t p0 u k (dagCutLoopL P j s route fuel x buf) := by
  induction fuel generalizing x buf with
  | zero => exact flushBufL_still P j buf
  | succ fuel ih =>
    unfold dagCutLoopL
    split
    · split
      · trivial
      · simp only []
        split
        · exact ih _ _
        · exact (flushBufL_still P j buf).bind (fun _ => (yieldTagged_still j _).bind (fun _ => ih _ _))
    · exact flushBufL_still P j buf

theorem routeL_still (P : PSys F) (j : Nat) (hj : (p0.pos j).tok = t) (io : Bool) (s : Str) :
    Still t p0 u k (routeL P j io s : Co PWorld α _) := by
  unfold routeL
  refine Still.get_bind (fun p hp => ?_)
  rw [hp.owner j, hj]
  refine (Reads.still (getDAGL_reads P.sys t io s)).bind (fun dag => Still.get_bind (fun p hp => ?_))
  rw [hp.owner j, hj]
  exact Reads.still (calcRouteL_reads P.sys t s dag)

theorem cutBlocksL_still (P : PSys F) (j : Nat) (hj : (p0.pos j).tok = t) (hm io : Bool) (blks : List Str) :
    Still t p0 u k (cutBlocksL P j hm io blks) := by
  induction blks with
  | nil => trivial
  | cons b blks ih =>
    unfold cutBlocksL
    split
    · refine Still.bind ?_ (fun _ => ih)
      unfold cutBlockL
      refine (routeL_still P j hj io b).bind (fun route => ?_)
      split
      · exact dagCutLoopL_still P j b route _ _ _
      · exact noHmmLoopL_still j b route _ _ _
    · exact (Still.yieldAll _).bind (fun _ => ih)

theorem get?_update (d e : PyDict Str Str) (h : ∀ g, (u, g) ∉ e) : (PyDict.update d e).get? u = d.get? u := by
  unfold PyDict.update
  induction e generalizing d with
  | nil => rfl
  | cons x e ih =>
    rw [List.foldl_cons, ih _ (fun g hg => h g (List.mem_cons_of_mem _ hg)), PyDict.get?_set, if_neg]
    rintro rfl
    exact h x.2 List.mem_cons_self

theorem moveTagsL_still (j : Nat) (hj : (p0.pos j).tok = t) : Still t p0 u k (moveTagsL j : Co PWorld α Unit) := by
  unfold moveTagsL
  refine Still.get_bind (fun p _ => ?_)
  split
  · refine Still.bind ?_ (fun _ => ?_)
    · intro p hp
      refine ⟨hp.tags, ?_, trivial⟩
      by_cases hjk : k = j
      · subst hjk
        simp only [PWorld.setPos, if_true]
        refine get?_update _ _ (fun g => ?_)
        rw [hp.owner k, hj]
        exact hp.tags g
      · simp only [PWorld.setPos, if_neg hjk]
    · intro p hp
      refine ⟨fun g hg => ?_, rfl, trivial⟩
      simp only [hp.owner j, hj, World.setTok, if_true, List.not_mem_nil] at hg
  · trivial

theorem cutL_still (P : PSys F) (j : Nat) (hj : (p0.pos j).tok = t) (hm : Bool) (s : PyText) (io : Bool) :
    Still t p0 u k (cutL P j hm s io) := (moveTagsL_still j hj).bind (fun _ => cutBlocksL_still P j hj hm io _)

theorem pprog_still (P : PSys F) (io : Bool) (c : PCall) (hc : PCallOk t p0 c) (hu : ∀ d, c = .tok d → ∀ g, ¬ Gives P.sys.gbk p0.w d u g) :
    Still t p0 u k (c.prog P t io) := by
  cases c with
  | tok d =>
    refine Still.mapOut (Keeps.still (prog_keeps P.sys io d p0.w rfl hc (fun v g hv => ?_)) (fun _ hp => rely_tagsIn hp))
    rintro rfl
    exact hu d rfl g hv
  | tag j hm s => exact Still.bind (Still.mapOut (cutL_still P j hc hm s io)) (fun _ => trivial)

/-! ## initialize -/

theorem setPos_other (j : Nat) (hj : k ≠ j) (f : PWorld → PyDict Str Str) :
    Still t p0 u k (.act (fun p => p.setPos j ⟨(p.pos j).tok, f p⟩) (fun _ => .ret ()) : Co PWorld α Unit) := by
  intro p hp
  refine ⟨hp.tags, ?_, trivial⟩
  simp only [PWorld.setPos, if_neg hj]

theorem loadTagsL_other (j : Nat) (hj : k ≠ j) (ls : List Bytes) : Still t p0 u k (loadTagsL j ls : Co PWorld α Unit) := by
  induction ls with
  | nil => trivial
  | cons l ls ih =>
    unfold loadTagsL
    split
    · trivial
    · exact ih
    · exact (setPos_other j hj _).bind (fun _ => ih)

theorem initTok_still (P : PSys F) (io : Bool) : Still t p0 u k
    (.act (fun p => { p with w := (initTok P.sys p.w t none io).1 }) (fun p => Co.lift (initTok P.sys p.w t none io).2) : Co PWorld α Unit) := by
  intro p hp
  simp only [initTok_of_init P.sys p.w t io hp.healthy.init]
  exact ⟨hp.tags, trivial, trivial⟩

theorem initPosL_other (P : PSys F) (j : Nat) (hj : k ≠ j) (ht : (p0.pos j).tok = t) (io : Bool) :
    Still t p0 u k (initPosL P j io : Co PWorld α Unit) := by
  unfold initPosL
  refine Still.get_bind (fun p hp => ?_)
  rw [hp.owner j, ht]
  refine (initTok_still P io).bind (fun _ => Still.get_bind (fun p hp => Still.get_bind (fun p _ => Still.bind ?_ (fun data => ?_))))
  · cases dictFile p.w _ <;> trivial
  · exact (setPos_other j hj (fun _ => [])).bind (fun _ => loadTagsL_other j hj _)

theorem loadTagsL_still (ls : List Bytes) (h : lastOf u ls = none) : Still t p0 u k (loadTagsL k ls : Co PWorld α Unit) := by
  induction ls with
  | nil => trivial
  | cons l ls ih =>
    have h1 : lastOf u ls = none := by
      unfold lastOf at h
      split at h
      · simp at h
      · next h' => exact h'
    unfold lastOf at h
    rw [h1] at h
    unfold loadTagsL
    split
    · trivial
    · exact ih h1
    · next w g hl =>
      refine Still.bind ?_ (fun _ => ih h1)
      intro p hp
      refine ⟨hp.tags, ?_, trivial⟩
      simp only [PWorld.setPos, if_true]
      rw [PyDict.get?_set, if_neg]
      rintro rfl
      simp [hl] at h

theorem loadTagsL_sets (ls : List Bytes) (hr : ∀ l ∈ ls, Readable l) (g : Str) (h : lastOf u ls = some g) (d : Unit → Co PWorld α β)
    (hd : Still t p0 u k (d ())) :
    Sets t p0 u k (some g) (loadTagsL k ls >>= d) := by
  induction ls with
  | nil => simp [lastOf] at h
  | cons l ls ih =>
    have ih := ih (fun x hx => hr x (List.mem_cons_of_mem _ hx))
    unfold loadTagsL
    cases hl : tagLine l with
    | none => exact absurd hl (hr l (by simp))
    | some e =>
      cases e with
      | none =>
        refine ih ?_
        unfold lastOf at h
        rw [hl] at h
        split at h
        · next h' => rw [h', h]
        · simp at h
      | some e =>
        obtain ⟨w, g'⟩ := e
        intro p hp
        refine ⟨hp.tags, ?_⟩
        unfold lastOf at h
        rw [hl] at h
        cases hls : lastOf u ls with
        | some g'' => rw [hls] at h; cases h; exact Or.inl (ih hls)
        | none =>
          rw [hls] at h
          simp only [] at h
          split at h
          · next hw =>
            cases h
            subst hw
            refine Or.inr ⟨?_, Still.bind (loadTagsL_still ls hls) (fun _ => hd)⟩
            simp only [PWorld.setPos, if_true]
            rw [PyDict.get?_set, if_pos rfl]
          · simp at h

theorem Sets.act_get {f : PWorld → β} {g : β → Co PWorld α γ} (h : ∀ p, Rely t p0 u p → Sets t p0 u k T (g (f p))) :
    Sets t p0 u k T (Co.get f >>= g) := fun p hp => ⟨hp.tags, Or.inl (h p hp)⟩

theorem initPosL_sets (P : PSys F) (ht : (p0.pos k).tok = t) (io : Bool) (data : Bytes)
    (hdata : dictFile p0.w (p0.w.tok t).dictionary = .ok data) (hr : ∀ l ∈ fileLines data, Readable l) (d : Unit → Co PWorld α β)
    (hd : Still t p0 u k (d ())) : Sets t p0 u k (lastOf u (fileLines data)) (initPosL P k io >>= d) := by
  have hassoc : ∀ {β γ δ : Type} (c : Co PWorld α β) (g : β → Co PWorld α γ) (e : γ → Co PWorld α δ),
      ((c >>= g) >>= e) = (c >>= fun b => g b >>= e) := by
    intro β γ δ c g e
    simp only [bind_def]
    induction c with
    | ret b => rfl
    | raise e => rfl
    | yield a k ih => simp only [Co.bind, ih]
    | act f k ih => simp only [Co.bind, ih]
  unfold initPosL loadWordTagL
  simp only [hassoc]
  refine Sets.act_get (fun p hp => ?_)
  rw [hp.owner k, ht]
  intro p hp
  simp only [initTok_of_init P.sys p.w t io hp.healthy.init]
  refine ⟨hp.tags, Or.inl ?_⟩
  refine Sets.act_get (fun p hp => ?_)
  rw [hp.owner k, ht]
  refine Sets.act_get (fun p hp => ?_)
  rw [dictFile_same hp.files, hdata]
  intro p hp
  refine ⟨hp.tags, ?_⟩
  cases hls : lastOf u (fileLines data) with
  | some g => exact Or.inl (loadTagsL_sets _ hr g hls d hd)
  | none =>
    have hst : Still t p0 u k (loadTagsL k (fileLines data) >>= d) := Still.bind (loadTagsL_still _ hls) (fun _ => hd)
    refine Or.inr ⟨?_, hst⟩
    simp [PWorld.setPos, PyDict.get?]

/-! ## All calls together -/

structure SetInv (t : Nat) (p0 : PWorld) (u : Str) (k : Nat) (T : Option Str) (I : Nat → Prop) (p : PPool) : Prop where
  rely : Rely t p0 u p.p
  calls : ∀ i, Still t p0 u k (p.th i) ∨ (I i ∧ Sets t p0 u k T (p.th i))
  tab : (∃ i, I i ∧ Sets t p0 u k T (p.th i)) ∨ (p.p.pos k).tab.get? u = T

theorem setInv_step {I : Nat → Prop} {B : Prop} {Q : Nat → Option Int → PWorld → Prop} (p : PPool) (i : Nat) (hp : PPoolInv t B Q p)
    (h : SetInv t p0 u k T I p) : SetInv t p0 u k T I (p.step i) := by
  obtain ⟨hq, hT⟩ := ppoolInv_step t B Q p i hp
  have hw := hq.healthy
  have hfiles := h.rely.files.trans (hT.1 hp.healthy).2.2
  have hown : ∀ j, ((p.step i).p.pos j).tok = (p0.pos j).tok := fun j => (hT.2 j).trans (h.rely.owner j)
  cases hi : p.th i with
  | ret b => rw [show p.step i = p by simp [PPool.step, hi]]; exact h
  | raise e => rw [show p.step i = p by simp [PPool.step, hi]]; exact h
  | yield a c =>
    have hs : p.step i = { p with th := fun j => if j = i then c else p.th j, out := fun j => if j = i then p.out i ++ [a] else p.out j } := by
      simp [PPool.step, hi]
    rw [hs]
    refine ⟨h.rely, fun j => ?_, ?_⟩
    · dsimp only
      by_cases hj : j = i
      · subst hj
        have := h.calls j
        rw [hi] at this
        simp only [if_true]
        exact this
      · simpa [hj] using h.calls j
    · rcases h.tab with ⟨j, hj⟩ | ht
      · refine Or.inl ⟨j, hj.1, ?_⟩
        replace hj := hj.2
        dsimp only
        by_cases hji : j = i
        · subst hji
          rw [hi] at hj
          simp only [if_true]
          exact hj
        · simpa [hji] using hj
      · exact Or.inr ht
  | act f c =>
    have hs : p.step i = { p with p := f p.p, th := fun j => if j = i then c p.p else p.th j } := by
      simp [PPool.step, hi]
    have hci := h.calls i
    rw [hi] at hci
    rw [hs] at hw hfiles hown ⊢
    have hnone : ∀ g, (u, g) ∉ ((f p.p).w.tok t).tags := by
      rcases hci with h1 | h1
      · exact (h1 p.p h.rely).1
      · exact (h1.2 p.p h.rely).1
    refine ⟨⟨hw, hfiles, hown, hnone⟩, fun j => ?_, ?_⟩
    · dsimp only
      by_cases hj : j = i
      · subst hj
        simp only [if_true]
        rcases hci with h1 | h1
        · exact Or.inl (h1 p.p h.rely).2.2
        · rcases (h1.2 p.p h.rely).2 with h2 | h2
          · exact Or.inr ⟨h1.1, h2⟩
          · exact Or.inl h2.2
      · simpa [hj] using h.calls j
    · dsimp only
      by_cases hex : ∃ j, j ≠ i ∧ I j ∧ Sets t p0 u k T (p.th j)
      · obtain ⟨j, hj, hset⟩ := hex
        exact Or.inl ⟨j, hset.1, by simpa [hj] using hset.2⟩
      · by_cases hsi : I i ∧ Sets t p0 u k T (p.th i)
        · rw [hi] at hsi
          rcases (hsi.2 p.p h.rely).2 with h2 | h2
          · exact Or.inl ⟨i, hsi.1, by simpa using h2⟩
          · exact Or.inr h2.1
        · rcases h.tab with ⟨j, hj⟩ | ht
          · by_cases hji : j = i
            · subst hji; exact absurd hj hsi
            · exact absurd ⟨j, hji, hj⟩ hex
          · rw [hi] at hsi
            rcases hci with h1 | h1
            · exact Or.inr ((h1 p.p h.rely).2.1.trans ht)
            · exact absurd h1 hsi

theorem setInv_run {I : Nat → Prop} {B : Prop} {Q : Nat → Option Int → PWorld → Prop} (p : PPool) (sched : List Nat) (hp : PPoolInv t B Q p)
    (h : SetInv t p0 u k T I p) : SetInv t p0 u k T I (p.run sched) := by
  unfold PPool.run
  induction sched generalizing p with
  | nil => exact h
  | cons i l ih => exact ih _ (ppoolInv_step t B Q p i hp).1 (setInv_step p i hp h)

end Jieba.Pos.Steps
