import Verif.Proofs.PosCalls
/-!
# Lemmas about calls that begin on a tokenizer that has not been initialised
-/

set_option linter.unusedSectionVars false

namespace Jieba.Pos.Steps
open Co Jieba.Spec Jieba.Lazy

variable {F : Type} [LinearOrder F] {α α' β γ : Type}

/-! ## Initialisation does not look at the tags of user words -/

/-- `w` with other tags of user words. -/
def retag (t : Nat) (x : PyDict Str Str) (w : World) : World := w.setTok t { w.tok t with tags := x }

theorem retag_same (t : Nat) (w : World) : retag t (w.tok t).tags w = w := by
  unfold retag World.setTok
  have : (fun u => if u = t then { w.tok t with tags := (w.tok t).tags } else w.tok u) = w.tok := by
    funext u
    by_cases hu : u = t
    · subst hu; simp
    · simp [hu]
  rw [this]

theorem retag_tok (t : Nat) (x : PyDict Str Str) (w : World) : (retag t x w).tok t = { w.tok t with tags := x } := by
  simp [retag, World.setTok]

theorem retag_retag (t : Nat) (x y : PyDict Str Str) (w : World) : retag t y (retag t x w) = retag t y w := by
  unfold retag World.setTok
  simp only [if_true, World.mk.injEq, true_and]
  funext u
  by_cases hu : u = t
  · simp [hu]
  · simp [hu]

theorem retag_setTok (t : Nat) (x : PyDict Str Str) (w : World) (y : Tok) :
    (retag t x w).setTok t { y with tags := x } = retag t x (w.setTok t y) := by
  unfold retag World.setTok
  simp only [if_true, World.mk.injEq, true_and]
  funext u
  by_cases hu : u = t
  · simp [hu]
  · simp [hu]

theorem retag_setFile (t : Nat) (x : PyDict Str Str) (w : World) (p : Path) (f : Option File) :
    (retag t x w).setFile p f = retag t x (w.setFile p f) := rfl

theorem retag_markInit (t : Nat) (x : PyDict Str Str) (w : World) : markInit (retag t x w) t = retag t x (markInit w t) := by
  unfold markInit
  rw [retag_tok, ← retag_setTok]

theorem retag_table (t : Nat) (x : PyDict Str Str) (w : World) (d : Option Path) (fr : Freq) (tot : Int) (i : Bool) (td cf : Option Path) :
    (retag t x w).setTok t ⟨d, fr, tot, x, i, td, cf⟩ = retag t x (w.setTok t ⟨d, fr, tot, (w.tok t).tags, i, td, cf⟩) :=
  retag_setTok t x w ⟨d, fr, tot, (w.tok t).tags, i, td, cf⟩

theorem retag_dictionary (t : Nat) (x : PyDict Str Str) (w : World) : ((retag t x w).tok t).dictionary = (w.tok t).dictionary := by
  rw [retag_tok]

theorem retag_initialized (t : Nat) (x : PyDict Str Str) (w : World) : ((retag t x w).tok t).initialized = (w.tok t).initialized := by
  rw [retag_tok]

theorem retag_cachePath (S : Sys F) (t : Nat) (x : PyDict Str Str) (w : World) (a : Option Path) :
    cachePath S ((retag t x w).tok t) a = cachePath S (w.tok t) a := by
  rw [retag_tok]; rfl

theorem retag_buildDict (S : Sys F) (t : Nat) (x : PyDict Str Str) (w : World) (cache : Path) (io : Bool) :
    buildDict S (retag t x w) t cache io = (retag t x (buildDict S w t cache io).1, (buildDict S w t cache io).2) := by
  unfold buildDict
  have hd : ∀ d, dictFile (retag t x w) d = dictFile w d := fun _ => rfl
  simp only [hd, retag_tok, retag_table]
  cases dictFile w (w.tok t).dictionary with
  | error e => rfl
  | ok data =>
    simp only []
    cases genPfdict data with
    | error e => rfl
    | ok r => cases io <;> rfl

theorem retag_checkInit (S : Sys F) (t : Nat) (x : PyDict Str Str) (w : World) (io : Bool) :
    checkInit S (retag t x w) t io = (retag t x (checkInit S w t io).1, (checkInit S w t io).2) := by
  unfold checkInit
  by_cases hi : (w.tok t).initialized = true
  · simp only [retag_initialized, hi, if_true]
  · have hu : ∀ a b, cacheUsable (retag t x w) a b = cacheUsable w a b := fun _ _ => rfl
    have hc : ∀ a, cachePath S ⟨(w.tok t).dictionary, (w.tok t).freq, (w.tok t).total, x, false, (w.tok t).tmpDir, (w.tok t).cacheFile⟩ a =
        cachePath S (w.tok t) a := fun _ => rfl
    simp only [initTok, initLocked, retag_tok, hi, hc, hu, retag_table, retag_buildDict, Bool.false_eq_true, if_false]
    cases cacheUsable w (w.tok t).dictionary (cachePath S (w.tok t) (w.tok t).dictionary) with
    | error e => rfl
    | ok cf =>
      simp only []
      cases cf.bind (fun f => S.load f.data) with
      | some r => simp only [retag_markInit]
      | none =>
        simp only []
        rcases h : buildDict S w t (cachePath S (w.tok t) (w.tok t).dictionary) io with ⟨w1, _ | _⟩
        · rfl
        · simp only [retag_markInit]

/-! ## Before and after the initialisation -/

section
variable (S : Sys F) (t : Nat) (io : Bool) (p0 : PWorld) (U : UserDict → Prop)

/-- The state after the initialisation. -/
abbrev firstW : World := (checkInit S p0.w t io).1

/-- The tokenizer is not initialised; it can be initialised, then its table has no negative frequency and a positive total; doing so does
not change the user dictionaries. -/
structure Startable : Prop where
  init : (p0.w.tok t).initialized = false
  ok : (checkInit S p0.w t io).2 = .ok ()
  healthy : Healthy t (firstW S t io p0)
  dicts : ∀ f, U f → dictLines (firstW S t io p0) f = dictLines p0.w f

/-- Nobody has initialised the tokenizer yet. -/
def FreshP (p : PWorld) : Prop := (∃ x, p.w = retag t x p0.w) ∧ ∀ k, (p.pos k).tok = (p0.pos k).tok

/-- The tokenizer has been initialised. -/
def HealthyE (p : PWorld) : Prop :=
  Healthy t p.w ∧ (∀ k, (p.pos k).tok = (p0.pos k).tok) ∧ (∀ f, U f → dictLines p.w f = dictLines p0.w f) ∧
    ∀ u, Key t (firstW S t io p0) u → Key t p.w u

def Live (p : PWorld) : Prop := FreshP t p0 p ∨ HealthyE S t io p0 U p

theorem dictLines_files {w w' : World} (h : w'.files = w.files) (f : UserDict) : dictLines w' f = dictLines w f := by
  cases f with
  | path p => unfold dictLines; rw [h]
  | file d => rfl
  | lines l => rfl

variable {S t io p0 U}

theorem FreshP.start : FreshP t p0 p0 := ⟨⟨_, (retag_same t p0.w).symm⟩, fun _ => rfl⟩

theorem HealthyE.tame {p p' : PWorld} (h : HealthyE S t io p0 U p) (hp : TameP t p p') : HealthyE S t io p0 U p' := by
  obtain ⟨h1, h2, h3, h4⟩ := h
  obtain ⟨g1, g2, g3⟩ := hp.1 h1
  exact ⟨g1, fun k => (hp.2 k).trans (h2 k), fun f hf => (dictLines_files g3.1 f).trans (h3 f hf), fun u hu => g2 u (h4 u hu)⟩

/-- The first access that initialises. -/
theorem FreshP.check (hs : Startable S t io p0 U) {p : PWorld} (h : FreshP t p0 p) :
    (checkInit S p.w t io).2 = .ok () ∧ HealthyE S t io p0 U { p with w := (checkInit S p.w t io).1 } ∧
    ((checkInit S p.w t io).1.tok t).freq = ((firstW S t io p0).tok t).freq ∧
    checkInit S (checkInit S p.w t io).1 t io = ((checkInit S p.w t io).1, .ok ()) := by
  obtain ⟨⟨x, hx⟩, h2⟩ := h
  have hc := retag_checkInit S t x p0.w io
  rw [← hx] at hc
  have hf : ((checkInit S p.w t io).1.tok t).freq = ((firstW S t io p0).tok t).freq := by rw [hc]; simp only [retag_tok]
  have hh : Healthy t (checkInit S p.w t io).1 := by
    rw [hc]
    refine ⟨?_, ?_, ?_⟩
    · simp only [retag_tok]; exact hs.healthy.init
    · simp only [retag_tok]; exact hs.healthy.nonneg
    · simp only [retag_tok]; exact hs.healthy.total
  refine ⟨by rw [hc]; exact hs.ok, ⟨hh, h2, fun f hf => ?_, fun u hu => ?_⟩, hf, checkInit_of_init S _ t io hh.init⟩
  · rw [← hs.dicts f hf]
    exact dictLines_files (by rw [hc]; rfl) f
  · unfold Key at hu ⊢
    simp only []
    rw [hf]
    exact hu

variable (S t io p0 U)

/-- Before anybody has initialised the tokenizer: `c` does not raise; an access of `c` leaves it so, or initialises the tokenizer, and
then `c` is `GoodP`; and should another call initialise it, `c` is `GoodP` from then on. -/
def GoodF (Q : β → PWorld → Prop) : Co PWorld α β → Prop
  | .ret b => ∀ p, Live S t io p0 U p → Q b p
  | .raise _ => False
  | .yield _ k => GoodF Q k
  | .act f k =>
    (∀ p, FreshP t p0 p → (FreshP t p0 (f p) ∧ GoodF Q (k p)) ∨
      (HealthyE S t io p0 U (f p) ∧ ((f p).w.tok t).freq = ((firstW S t io p0).tok t).freq ∧ GoodP t Q (k p) (f p) Lazy.nil)) ∧
    ∀ p, HealthyE S t io p0 U p → TameP t p (f p) ∧ ∃ D', GoodP t Q (k p) (f p) D' ∧
      ∀ u, Key t (f p).w u → ¬ Key t p.w u → ∀ q, q ≠ [] → q <+: u → Key t (f p).w q ∨ D' q

variable {S t io p0 U}

theorem GoodF.toGoodP {Q : β → PWorld → Prop} {c : Co PWorld α β} (h : GoodF S t io p0 U Q c) {p : PWorld}
    (hp : HealthyE S t io p0 U p) : GoodP t Q c p Lazy.nil := by
  induction c with
  | ret b => exact ⟨h p (Or.inr hp), fun _ h => h⟩
  | raise e => exact h
  | yield a k ih => exact ih h
  | act f k ih =>
    intro p' h1 _
    obtain ⟨g1, E, g2, g3⟩ := h.2 p' (hp.tame h1)
    exact ⟨g1, E, g2, fun u hu => hu.elim, g3⟩

theorem GoodP.env {Q : β → PWorld → Prop} {c : Co PWorld α β} {p : PWorld} {D : Str → Prop} (h : GoodP t Q c p D)
    (hp : HealthyE S t io p0 U p) : GoodP t (fun b p' => Q b p' ∧ HealthyE S t io p0 U p') c p D := by
  induction c generalizing p D with
  | ret b => exact ⟨⟨h.1, hp⟩, h.2⟩
  | raise e => exact h
  | yield a k ih => exact ih h hp
  | act f k ih =>
    intro p' h1 h2
    obtain ⟨g1, E, g2, g3, g4⟩ := h p' h1 h2
    exact ⟨g1, E, ih p' g2 ((hp.tame h1).tame g1), g3, g4⟩

theorem GoodF.bind {Q' : β → PWorld → Prop} {Q : γ → PWorld → Prop} {c : Co PWorld α β} {g : β → Co PWorld α γ}
    (h : GoodF S t io p0 U Q' c) (hg : ∀ b p, Q' b p → GoodF S t io p0 U Q (g b)) : GoodF S t io p0 U Q (c >>= g) := by
  rw [bind_def]
  have hP : ∀ (c : Co PWorld α β) p D, HealthyE S t io p0 U p → GoodP t Q' c p D → GoodP t Q (c >>= g) p D := fun c p D hp hc =>
    (GoodP.env hc hp).bind (fun b p' hb => (hg b p' hb.1).toGoodP hb.2)
  induction c with
  | ret b => exact hg b p0 (h p0 (Or.inl FreshP.start))
  | raise e => exact absurd h id
  | yield a k ih => exact ih h
  | act f k ih =>
    refine ⟨fun p hp => ?_, fun p hp => ?_⟩
    · rcases h.1 p hp with ⟨h1, h2⟩ | ⟨h1, h2, h3⟩
      · exact Or.inl ⟨h1, ih p h2⟩
      · exact Or.inr ⟨h1, h2, hP _ _ _ h1 h3⟩
    · obtain ⟨g1, E, g2, g3⟩ := h.2 p hp
      exact ⟨g1, E, hP _ _ _ (hp.tame g1) g2, g3⟩

theorem GoodF.mapOut {Q : β → PWorld → Prop} {c : Co PWorld α β} (h : GoodF S t io p0 U Q c) (f : α → α') :
    GoodF S t io p0 U Q (c.mapOut f) := by
  induction c with
  | ret b => exact h
  | raise e => exact h
  | yield a k ih => exact ih h
  | act g k ih =>
    refine ⟨fun p hp => ?_, fun p hp => ?_⟩
    · rcases h.1 p hp with ⟨h1, h2⟩ | ⟨h1, h2, h3⟩
      · exact Or.inl ⟨h1, ih p h2⟩
      · exact Or.inr ⟨h1, h2, h3.mapOut f⟩
    · obtain ⟨g1, E, g2, g3⟩ := h.2 p hp
      exact ⟨g1, E, g2.mapOut f, g3⟩

/-- Nothing is claimed about the end. -/
abbrev FineF (S : Sys F) (t : Nat) (io : Bool) (p0 : PWorld) (U : UserDict → Prop) (c : Co PWorld α β) : Prop :=
  GoodF S t io p0 U (fun _ _ => True) c

theorem FineF.yieldAll (l : List α) : FineF S t io p0 U (Co.yieldAll l : Co PWorld α Unit) := by
  induction l with
  | nil => exact fun _ _ => trivial
  | cons a l ih => exact ih

theorem GoodF.get_bind {Q : γ → PWorld → Prop} {f : PWorld → β} {g : β → Co PWorld α γ}
    (h : ∀ p, Live S t io p0 U p → GoodF S t io p0 U Q (g (f p))) : GoodF S t io p0 U Q (Co.get f >>= g) := by
  refine ⟨fun p hp => Or.inl ⟨hp, h p (Or.inl hp)⟩, fun p hp => ⟨TameP.refl t p, Lazy.nil, (h p (Or.inr hp)).toGoodP hp, ?_⟩⟩
  exact fun u hu hn => absurd hu hn

/-! ## Programs that begin with the check -/

variable (S t io) in
/-- The program begins with `check_initialized()`. -/
def Checks (c : Co World α β) : Prop :=
  ∃ f k, c = .act f k ∧ (∀ w, f w = (checkInit S w t io).1) ∧
    ∀ w, (checkInit S w t io).2 = .ok () → checkInit S (checkInit S w t io).1 t io = ((checkInit S w t io).1, .ok ()) → k w = k (checkInit S w t io).1

theorem Checks.bind {c : Co World α β} (h : Checks S t io c) (g : β → Co World α γ) : Checks S t io (c >>= g) := by
  obtain ⟨f, k, rfl, h1, h2⟩ := h
  exact ⟨f, fun w => (k w).bind g, rfl, h1, fun w hw hv => by simp only [h2 w hw hv]⟩

theorem Checks.forIn {σ : Type} {c : Co World α Unit} (h : Checks S t io c) (body : α → σ → Co World α' σ) (s : σ) :
    Checks S t io (Co.forIn c body s) := by
  obtain ⟨f, k, rfl, h1, h2⟩ := h
  exact ⟨f, fun w => Co.forIn (k w) body s, rfl, h1, fun w hw hv => by simp only [h2 w hw hv]⟩

theorem checkInitL_checks : Checks S t io (checkInitL S t io : Co World α Unit) :=
  ⟨_, _, rfl, fun _ => rfl, fun w hw hv => by simp only [hw, hv]⟩

theorem getDAGL_checks (s : Str) : Checks S t io (getDAGL S t io s : Co World α _) :=
  ⟨_, _, rfl, fun _ => rfl, fun w hw hv => by simp only [hw, hv]⟩

theorem Checks.goodF (hs : Startable S t io p0 U) {Q : β → PWorld → Prop} {c : Co World α β} (hc : Checks S t io c)
    (h : ∀ p, HealthyE S t io p0 U p → GoodP t Q c.onWorld p Lazy.nil) : GoodF S t io p0 U Q c.onWorld := by
  obtain ⟨f, k, rfl, h1, h2⟩ := hc
  have hf : f = fun w => (checkInit S w t io).1 := funext h1
  subst hf
  refine ⟨fun p hp => Or.inr ?_, fun p hp => ?_⟩
  · obtain ⟨c1, c2, c3, c4⟩ := hp.check hs
    refine ⟨c2, c3, ?_⟩
    obtain ⟨-, E, g2, -, -⟩ := h _ c2 _ (TameP.refl t _) c2.1
    simp only [c4] at g2
    simp only [h2 p.w c1 c4]
    exact g2.weaken (fun _ h => h.elim)
  · obtain ⟨g1, E, g2, -, g4⟩ := h p hp p (TameP.refl t p) hp.1
    exact ⟨g1, E, g2, g4⟩

theorem Checks.fine (hs : Startable S t io p0 U) {Q : β → World → Prop} {c : Co World α β} (hc : Checks S t io c)
    (h : ∀ w, Healthy t w → Good t Q c w Lazy.nil) : FineF S t io p0 U c.onWorld :=
  hc.goodF hs (fun p hp => (Good.onWorld (h p.w hp.1)).mono (fun _ _ _ => trivial))

/-! ## The calls -/

theorem onWorld_bind (c : Co World α β) (g : β → Co World α γ) : (c >>= g).onWorld = c.onWorld >>= fun b => (g b).onWorld := by
  rw [bind_def, bind_def]
  induction c with
  | ret b => rfl
  | raise e => rfl
  | yield a k ih => simp only [Co.bind, Co.onWorld, ih]
  | act f k ih => simp only [Co.bind, Co.onWorld, ih]

theorem onWorld_yieldAll (l : List α) : (Co.yieldAll l : Co World α Unit).onWorld = Co.yieldAll l := by
  induction l with
  | nil => rfl
  | cons a l ih => simp only [Co.yieldAll, Co.onWorld, ih]

theorem onWorld_get (f : World → β) : (Co.get f : Co World α β).onWorld = Co.get (fun p => f p.w) := rfl

theorem cutBlockL_checks (ca hm : Bool) (blk : Str) : Checks S t io (Lazy.cutBlockL S t ca hm io blk) := by
  unfold Lazy.cutBlockL cutAllL cutDAGL cutDAGNoHMML
  split
  · exact (getDAGL_checks blk).bind _
  · split
    · exact (getDAGL_checks blk).bind _
    · exact (getDAGL_checks blk).bind _

theorem tcutBlocksL_fine (hs : Startable S t io p0 U) (ca hm : Bool) (blks : List Str) :
    FineF S t io p0 U (Lazy.cutBlocksL S t ca hm io blks).onWorld := by
  induction blks with
  | nil => exact fun _ _ => trivial
  | cons b blks ih =>
    unfold Lazy.cutBlocksL
    split
    · exact ih
    · simp only []
      split
      · rw [onWorld_bind]
        refine GoodF.bind (Q' := fun _ _ => True) ?_ (fun _ _ _ => ih)
        exact (cutBlockL_checks ca hm b).fine hs
          (fun w hw => Good.of_reads (Lazy.cutBlockL_calm S t ca hm io b w hw) (cutBlockL_reads S t ca hm io b))
      · rw [onWorld_bind, onWorld_yieldAll]
        exact GoodF.bind (FineF.yieldAll _) (fun _ _ _ => ih)

theorem gramsL_fine (n : Nat) (x : Str) (f : Nat → Str → α) (is : List Nat) :
    FineF S t io p0 U (gramsL t n x f is : Co World α Unit).onWorld := by
  induction is with
  | nil => exact fun _ _ => trivial
  | cons i is ih =>
    unfold gramsL
    rw [onWorld_bind, onWorld_get]
    refine GoodF.get_bind (fun p _ => ?_)
    split
    · rw [onWorld_bind, onWorld_yieldAll]
      exact GoodF.bind (FineF.yieldAll _) (fun _ _ _ => ih)
    · exact ih

/-- The body of the loop of `cut_for_search`. -/
abbrev searchBody (t : Nat) (w : Str) (_ : Unit) : Co World Str Unit := do
    if 2 < w.length then gramsL t 2 w (fun _ g => g) (List.range (w.length - 1))
    if 3 < w.length then gramsL t 3 w (fun _ g => g) (List.range (w.length - 2))
    Co.yieldAll [w]

theorem searchBody_fine (w : Str) (u : Unit) : FineF S t io p0 U (searchBody t w u).onWorld := by
  have hlast : FineF S t io p0 U (Co.yieldAll [w] : Co World Str Unit).onWorld := by
    rw [onWorld_yieldAll]; exact FineF.yieldAll _
  unfold searchBody
  by_cases h2 : 2 < w.length
  · by_cases h4 : 3 < w.length
    · simp only [h2, h4, if_true, onWorld_bind]
      exact GoodF.bind (gramsL_fine _ _ _ _) (fun _ _ _ => GoodF.bind (gramsL_fine _ _ _ _) (fun _ _ _ => hlast))
    · simp only [h2, h4, if_true, if_false, onWorld_bind]
      exact GoodF.bind (gramsL_fine _ _ _ _) (fun _ _ _ => hlast)
  · have h4 : ¬ 3 < w.length := by omega
    simp only [h2, h4, if_false]
    exact hlast

theorem searchBody_good (x : Str) (u : Unit) (w1 : World) (hw1 : Healthy t w1) :
    Good t (fun _ _ => True) (searchBody t x u) w1 Lazy.nil := by
  refine Good.mono (Q' := fun _ w' => Healthy t w') ?_ (fun _ _ _ => trivial)
  have hlast : ∀ w, Healthy t w → Good t (fun _ w' => Healthy t w') (Co.yieldAll [x] : Co World Str Unit) w Lazy.nil :=
    fun w hw => yieldAll_good t [x] w hw
  unfold searchBody
  by_cases h2 : 2 < x.length
  · by_cases h4 : 3 < x.length
    · simp only [h2, h4, if_true]
      exact Good.bind (gramsL_good t 2 x _ _ w1 hw1) (fun _ w' hw' => Good.bind (gramsL_good t 3 x _ _ w' hw') (fun _ w' hw' => hlast w' hw'))
    · simp only [h2, h4, if_true, if_false]
      exact Good.bind (gramsL_good t 2 x _ _ w1 hw1) (fun _ w' hw' => hlast w' hw')
  · have h4 : ¬ 3 < x.length := by omega
    simp only [h2, h4, if_false]
    exact hlast w1 hw1

theorem forIn_seq {W : Type} (c d : Co W α Unit) (body : α → Unit → Co W α' Unit) :
    Co.forIn (c >>= fun _ => d) body () = Co.forIn c body () >>= fun _ => Co.forIn d body () := by
  rw [bind_def, bind_def]
  have hassoc : ∀ (a : Co W α' Unit) (g h : Unit → Co W α' Unit), (a.bind g).bind h = a.bind (fun u => (g u).bind h) := by
    intro a g h
    induction a with
    | ret b => rfl
    | raise e => rfl
    | yield a k ih => simp only [Co.bind, ih]
    | act f k ih => simp only [Co.bind, ih]
  induction c with
  | ret b => rfl
  | raise e => rfl
  | yield a k ih => simp only [Co.bind, Co.forIn, ih, hassoc]
  | act f k ih => simp only [Co.bind, Co.forIn, ih]

theorem searchWords_fine (ws : List Str) : FineF S t io p0 U (Co.forIn (Co.yieldAll ws : Co World Str Unit) (searchBody t) ()).onWorld := by
  induction ws with
  | nil => exact fun _ _ => trivial
  | cons a ws ih =>
    show FineF S t io p0 U (searchBody t a () >>= fun s' => Co.forIn (Co.yieldAll ws) (searchBody t) s').onWorld
    rw [onWorld_bind]
    exact GoodF.bind (searchBody_fine a ()) (fun _ _ _ => ih)

theorem searchBlocks_fine (hs : Startable S t io p0 U) (hm : Bool) (blks : List Str) :
    FineF S t io p0 U (Co.forIn (Lazy.cutBlocksL S t false hm io blks) (searchBody t) ()).onWorld := by
  induction blks with
  | nil => exact fun _ _ => trivial
  | cons b blks ih =>
    unfold Lazy.cutBlocksL
    split
    · exact ih
    · simp only []
      split
      · rw [forIn_seq, onWorld_bind]
        refine GoodF.bind (Q' := fun _ _ => True) ?_ (fun _ _ _ => ih)
        refine ((cutBlockL_checks false hm b).forIn _ _).fine hs (Q := fun _ _ => True) (fun w hw => ?_)
        exact (Good.forIn (I := fun _ => True) (fun a s w hw _ => searchBody_good a s w hw) (Lazy.cutBlockL_calm S t false hm io b w hw)
          (cutBlockL_reads S t false hm io b) hw trivial).mono (fun _ _ _ => trivial)
      · rw [forIn_seq, onWorld_bind]
        exact GoodF.bind (searchWords_fine _) (fun _ _ _ => ih)

theorem moveTagsL_fine (k : Nat) (hk : (p0.pos k).tok = t) : FineF S t io p0 U (moveTagsL k : Co PWorld α Unit) := by
  unfold moveTagsL
  refine GoodF.get_bind (fun p hp => ?_)
  split
  · refine GoodF.bind (Q' := fun _ _ => True) ?_ (fun _ _ _ => ?_)
    · have hsame : ∀ p : PWorld, ∀ j, ((p.setPos k ⟨(p.pos k).tok, PyDict.update (p.pos k).tab (p.w.tok (p.pos k).tok).tags⟩).pos j).tok = (p.pos j).tok := by
        intro p j
        by_cases hj : j = k
        · subst hj; simp [PWorld.setPos]
        · simp [PWorld.setPos, hj]
      refine ⟨fun p hp => Or.inl ⟨⟨hp.1, fun j => (hsame p j).trans (hp.2 j)⟩, fun _ _ => trivial⟩, fun p hp => ?_⟩
      exact ⟨⟨Tame.refl t p.w, hsame p⟩, Lazy.nil, ⟨trivial, fun _ h => h⟩, fun u hu hn => absurd hu hn⟩
    · refine ⟨fun p hp => Or.inl ⟨⟨?_, hp.2⟩, fun _ _ => trivial⟩, fun p hp => ?_⟩
      · obtain ⟨x, hx⟩ := hp.1
        refine ⟨[], ?_⟩
        simp only [(hp.2 k).trans hk]
        rw [hx]
        exact retag_retag t x [] p0.w
      · refine ⟨⟨tame_noTags t _ _, fun _ => rfl⟩, Lazy.nil, ⟨trivial, fun _ h => h⟩, fun u hu hn => ?_⟩
        unfold Key at hu hn
        simp only [freq_noTags] at hu
        exact absurd hu hn
  · exact fun _ _ => trivial

theorem pcutBlockL_fine (P : PSys F) (hs : Startable P.sys t io p0 U) (k : Nat) (hk : (p0.pos k).tok = t) (hm : Bool)
    (hd : hm = true → ∀ b, (cutDetail (detailEnv P) b).err = none) (blk : Str) :
    FineF P.sys t io p0 U (cutBlockL P k hm io blk) := by
  have hcalm := cutBlockL_calm P t k hm io hd blk
  have htok : ∀ p, Live P.sys t io p0 U p → (p.pos k).tok = t := by
    rintro p (h | h)
    · exact (h.2 k).trans hk
    · exact (h.2.1 k).trans hk
  have hfit : ∀ p, HealthyE P.sys t io p0 U p → Fit t k p := fun p hp => ⟨hp.1, htok p (Or.inr hp)⟩
  unfold cutBlockL routeL at hcalm ⊢
  refine GoodF.get_bind (S := P.sys) (f := fun p => (p.pos k).tok) (g := fun t' => ((getDAGL P.sys t' io blk).onWorld >>= fun dag =>
    Co.get (fun p => (p.pos k).tok) >>= fun t => (calcRouteL P.sys t blk dag).onWorld) >>=
      fun route => if hm = true then dagCutLoopL P k blk route blk.length 0 [] else noHmmLoopL k blk route blk.length 0 []) (fun p hp => ?_)
  rw [htok p hp]
  -- what follows the first access, as a program of its own
  have hrest : ∀ p, HealthyE P.sys t io p0 U p → GoodP t (fun _ _ => True)
      ((((getDAGL P.sys t io blk).onWorld >>= fun dag => Co.get (fun p => (p.pos k).tok) >>= fun t => (calcRouteL P.sys t blk dag).onWorld) >>=
        fun route => if hm = true then dagCutLoopL P k blk route blk.length 0 [] else noHmmLoopL k blk route blk.length 0 [])) p Lazy.nil := by
    intro p hp
    obtain ⟨-, E, g2, -, -⟩ := hcalm p (hfit p hp) p (TameP.refl t p) hp.1
    have htp : (p.pos k).tok = t := (hfit p hp).2
    simp only [Co.bind, htp] at g2
    exact (g2.weaken (fun _ h => h.elim)).mono (fun _ _ _ => trivial)
  refine ⟨fun p hp => Or.inr ?_, fun p hp => ?_⟩
  · obtain ⟨c1, c2, c3, c4⟩ := hp.check hs
    refine ⟨c2, c3, ?_⟩
    obtain ⟨-, E, g2, -, -⟩ := hrest _ c2 _ (TameP.refl t _) c2.1
    simp only [c4] at g2
    simp only [c1]
    exact g2.weaken (fun _ h => h.elim)
  · obtain ⟨g1, E, g2, -, g4⟩ := hrest p hp p (TameP.refl t p) hp.1
    exact ⟨g1, E, g2, g4⟩

theorem pcutL_fine (P : PSys F) (hs : Startable P.sys t io p0 U) (k : Nat) (hk : (p0.pos k).tok = t) (hm : Bool)
    (hd : hm = true → ∀ b, (cutDetail (detailEnv P) b).err = none) (s : PyText) :
    FineF P.sys t io p0 U (cutL P k hm s io) := by
  unfold cutL
  refine GoodF.bind (moveTagsL_fine k hk) (fun _ _ _ => ?_)
  induction reHanInternal.split (strdecode P.sys.gbk s) with
  | nil => exact fun _ _ => trivial
  | cons b blks ih =>
    unfold cutBlocksL
    split
    · exact GoodF.bind (pcutBlockL_fine P hs k hk hm hd b) (fun _ _ _ => ih)
    · exact GoodF.bind (FineF.yieldAll _) (fun _ _ _ => ih)

theorem CallOk.files {w w' : World} {c : Call} (h : CallOk w c) (hf : ∀ f, c = .loadUserdict f → dictLines w' f = dictLines w f) :
    CallOk w' c := by
  cases c with
  | loadUserdict f => obtain ⟨l, h1, h2⟩ := h; exact ⟨l, (hf f rfl).trans h1, h2⟩
  | _ => exact h

theorem Post.files {gbk : Bytes → Str} {w w' v : World} {c : Call} {r : Option Int} (h : Post gbk t w' c r v)
    (hf : ∀ f, c = .loadUserdict f → dictLines w' f = dictLines w f) : Post gbk t w c r v := by
  refine ⟨h.1, ?_⟩
  have := h.2
  cases c with
  | loadUserdict f => exact fun l hl => this l ((hf f rfl).trans hl)
  | _ => exact this

theorem call_goodF (hA : SignOk S.A) (hs : Startable S t io p0 U) (c : Call) (hc : CallOk p0.w c) (hU : ∀ f, c = .loadUserdict f → U f) :
    GoodF S t io p0 U (fun r p' => Post S.gbk t p0.w c r p'.w) (c.prog S t io).onWorld := by
  have key : Checks S t io (c.prog S t io) → GoodF S t io p0 U (fun r p' => Post S.gbk t p0.w c r p'.w) (c.prog S t io).onWorld := by
    intro h
    refine h.goodF hs (fun p hp => ?_)
    have hd : ∀ f, c = .loadUserdict f → dictLines p.w f = dictLines p0.w f := fun f hf => hp.2.2.1 f (hU f hf)
    exact (Good.onWorld (prog_good S hA t io c p.w hp.1 (CallOk.files hc hd))).mono (fun r p' h => Post.files h hd)
  cases c with
  | addWord word freq tag => exact key ((checkInitL_checks.bind _).bind _)
  | delWord word => exact key ((checkInitL_checks.bind _).bind _)
  | suggestFreq seg tune =>
    refine key (Checks.bind (Checks.bind ?_ _) _)
    unfold suggestCoreL
    split
    · exact (checkInitL_checks.bind _).bind _
    · split
      · exact (checkInitL_checks.bind _).bind _
      · exact checkInitL_checks.bind _
    · exact (checkInitL_checks.bind _).bind _
  | loadUserdict f => exact key ((checkInitL_checks.bind _).bind _)
  | cut ca hm s =>
    show GoodF S t io p0 U _ (Lazy.cutL S t ca hm s io >>= fun _ => .ret none).onWorld
    rw [onWorld_bind]
    exact GoodF.bind (tcutBlocksL_fine hs ca hm _) (fun _ _ _ _ _ => ⟨rfl, trivial⟩)
  | cutForSearch hm s =>
    show GoodF S t io p0 U _ (cutForSearchL S t hm s io >>= fun _ => .ret none).onWorld
    rw [onWorld_bind]
    exact GoodF.bind (searchBlocks_fine hs hm _) (fun _ _ _ _ _ => ⟨rfl, trivial⟩)

end

/-! ## All calls together -/

section
variable (S : Sys F) (t : Nat) (io : Bool) (p0 : PWorld) (U : UserDict → Prop) (Q : Nat → Option Int → PWorld → Prop)

/-- Either nobody has initialised the tokenizer, or `PPoolInv`. -/
def FirstInv (p : PPool) : Prop :=
  (FreshP t p0 p.p ∧ ∀ i, GoodF S t io p0 U (Q i) (p.th i)) ∨
  (HealthyE S t io p0 U p.p ∧ PPoolInv t (PrefixClosed ((firstW S t io p0).tok t).freq) Q p)

variable {S t io p0 U Q}

theorem firstInv_step (p : PPool) (i : Nat) (h : FirstInv S t io p0 U Q p) : FirstInv S t io p0 U Q (p.step i) := by
  rcases h with ⟨h1, h2⟩ | ⟨h1, h2⟩
  · unfold PPool.step
    split
    · exact Or.inl ⟨h1, h2⟩
    · exact Or.inl ⟨h1, h2⟩
    · next a k hk =>
      refine Or.inl ⟨h1, fun j => ?_⟩
      dsimp only
      split
      · next hj => subst hj; have := h2 j; rw [hk] at this; exact this
      · exact h2 j
    · next f k hk =>
      have hi := h2 i
      rw [hk] at hi
      rcases hi.1 p.p h1 with ⟨g1, g2⟩ | ⟨g1, g2, g3⟩
      · refine Or.inl ⟨g1, fun j => ?_⟩
        dsimp only
        split
        · next hj => subst hj; exact g2
        · exact h2 j
      · refine Or.inr ⟨g1, g1.1, fun _ => f p.p, fun _ => Lazy.nil, fun j => ⟨?_, TameP.refl t _, g1.1⟩, fun hB u hu q hq hqu => Or.inl ?_⟩
        · dsimp only
          split
          · next hj => subst hj; exact g3
          · exact (h2 j).toGoodP g1
        · unfold Key at hu ⊢
          simp only [g2] at hu ⊢
          exact hB u hu q hq hqu
  · obtain ⟨g1, g2⟩ := ppoolInv_step t _ Q p i h2
    exact Or.inr ⟨h1.tame g2, g1⟩

theorem firstInv_run (p : PPool) (sched : List Nat) (h : FirstInv S t io p0 U Q p) : FirstInv S t io p0 U Q (p.run sched) := by
  unfold PPool.run
  induction sched generalizing p with
  | nil => exact h
  | cons i l ih => exact ih _ (firstInv_step p i h)

end

end Jieba.Pos.Steps
