import Verif.Spec.PosCalls
import Verif.Proofs.PosCalls
/-!
# Lemmas about where tags come from when words are added meanwhile
-/

set_option linter.unusedSectionVars false

namespace Jieba.Pos.Steps
open Co Jieba.Spec Jieba.Lazy

variable {F : Type} [LinearOrder F] {α α' β γ σ : Type}

theorem mem_of_get? {d : PyDict Str Str} {u g : Str} (h : d.get? u = some g) : (u, g) ∈ d := by
  induction d with
  | nil => simp [PyDict.get?] at h
  | cons x d ih =>
    simp only [PyDict.get?] at h
    split at h
    · next hx => cases h; subst hx; exact List.mem_cons_self
    · exact List.mem_cons_of_mem _ (ih h)

theorem mem_set {d : PyDict Str Str} {u g : Str} {x : Str × Str} (h : x ∈ d.set u g) : x = (u, g) ∨ x ∈ d := by
  induction d with
  | nil => simpa [PyDict.set] using h
  | cons y d ih =>
    simp only [PyDict.set] at h
    split at h
    · next hy =>
      rcases List.mem_cons.mp h with rfl | h
      · exact Or.inl (by rw [hy])
      · exact Or.inr (List.mem_cons_of_mem _ h)
    · rcases List.mem_cons.mp h with rfl | h
      · exact Or.inr List.mem_cons_self
      · rcases ih h with h | h
        · exact Or.inl h
        · exact Or.inr (List.mem_cons_of_mem _ h)

theorem mem_update {d e : PyDict Str Str} {x : Str × Str} (h : x ∈ PyDict.update d e) : x ∈ e ∨ x ∈ d := by
  unfold PyDict.update at h
  induction e generalizing d with
  | nil => exact Or.inr h
  | cons y e ih =>
    rw [List.foldl_cons] at h
    rcases ih h with h | h
    · exact Or.inl (List.mem_cons_of_mem _ h)
    · rcases mem_set h with rfl | h
      · exact Or.inl List.mem_cons_self
      · exact Or.inr h

/-- The tags of user words are known. -/
def TagsIn (t : Nat) (K : Str → Str → Prop) (w : World) : Prop := ∀ x ∈ (w.tok t).tags, K x.1 x.2

/-- In healthy states with the files `fs`, `c` leaves only known tags behind. -/
def Keeps (t : Nat) (fs : Path → Option File) (K : Str → Str → Prop) : Co World α β → Prop
  | .ret _ => True
  | .raise _ => True
  | .yield _ k => Keeps t fs K k
  | .act f k => ∀ w, Healthy t w → w.files = fs → TagsIn t K w → TagsIn t K (f w) ∧ Keeps t fs K (k w)

variable {t : Nat} {fs : Path → Option File} {K : Str → Str → Prop}

theorem Keeps.bind {c : Co World α β} {g : β → Co World α γ} (hc : Keeps t fs K c) (hg : ∀ b, Keeps t fs K (g b)) :
    Keeps t fs K (c >>= g) := by
  rw [bind_def]
  induction c with
  | ret b => exact hg b
  | raise e => trivial
  | yield a k ih => exact ih hc
  | act f k ih => exact fun w h1 h2 h3 => ⟨(hc w h1 h2 h3).1, ih w (hc w h1 h2 h3).2⟩

theorem Keeps.of_reads {c : Co World α β} (h : Reads t c) : Keeps t fs K c := by
  induction c with
  | ret b => trivial
  | raise e => trivial
  | yield a k ih => exact ih h
  | act f k ih => exact fun w h1 h2 h3 => ⟨by rw [h.1 w h1]; exact h3, ih w (h.2 w)⟩

theorem Keeps.forIn {body : α → σ → Co World α' σ} {c : Co World α Unit} (hc : Keeps t fs K c) (hb : ∀ a s, Keeps t fs K (body a s)) (s : σ) :
    Keeps t fs K (Co.forIn c body s) := by
  induction c generalizing s with
  | ret b => trivial
  | raise e => trivial
  | yield a k ih => exact Keeps.bind (hb a s) (fun s' => ih hc s')
  | act f k ih => exact fun w h1 h2 h3 => ⟨(hc w h1 h2 h3).1, ih w (hc w h1 h2 h3).2 s⟩

theorem Keeps.get {f : World → β} : Keeps t fs K (Co.get f : Co World α β) := fun _ _ _ h => ⟨h, trivial⟩

/-- A write that leaves the tags alone. -/
theorem Keeps.upd {f : World → World} (h : ∀ w, ((f w).tok t).tags = (w.tok t).tags) : Keeps t fs K (upd f : Co World α Unit) :=
  fun w _ _ h3 => ⟨by unfold TagsIn; rw [h w]; exact h3, trivial⟩

theorem checkInitL_keeps (S : Sys F) (io : Bool) : Keeps t fs K (checkInitL S t io : Co World α Unit) := by
  intro w h1 _ h3
  simp only [checkInit_of_init S w t io h1.init]
  exact ⟨h3, trivial⟩

theorem expectL_keeps (A : Arith F) (gen : Co World Str Unit) (hr : Reads t gen) : Keeps t fs K (expectL A t gen : Co World α Int) := by
  unfold expectL
  refine Keeps.get.bind (fun ftotal => Keeps.bind (Keeps.forIn (Keeps.of_reads hr) (fun a s => Keeps.get.bind (fun n => ?_)) none)
    (fun o => Keeps.get.bind (fun _ => trivial)))
  split <;> trivial

theorem suggestWordL_keeps (S : Sys F) (word : Str) (io : Bool) : Keeps t fs K (suggestWordL S t word io : Co World α Int) := by
  unfold suggestWordL
  exact (checkInitL_keeps S io).bind (fun _ => (expectL_keeps S.A _ (cutL_reads S t false false _ io)).bind
    (fun _ => Keeps.get.bind (fun _ => trivial)))

theorem suggestSplitL_keeps (S : Sys F) (segs : List Str) (io : Bool) : Keeps t fs K (suggestSplitL S t segs io : Co World α Int) := by
  unfold suggestSplitL
  exact (checkInitL_keeps S io).bind (fun _ => (expectL_keeps S.A _ (Reads.yieldAll segs)).bind
    (fun _ => Keeps.get.bind (fun _ => trivial)))

theorem addPrefixesL_keeps (word : Str) (ks : List Nat) : Keeps t fs K (addPrefixesL t word ks : Co World α Unit) := by
  induction ks with
  | nil => trivial
  | cons k ks ih =>
    unfold addPrefixesL
    refine Keeps.get.bind (fun b => ?_)
    split
    · exact ih
    · exact Keeps.bind (Keeps.upd (fun w => by simp [World.setTok])) (fun _ => ih)

theorem addFreqL_keeps (word : Str) (f : Int) (tag : Option Str) (htag : ∀ g, tag = some g → g ≠ [] → K word g) :
    Keeps t fs K (addFreqL t word f tag : Co World α Unit) := by
  unfold addFreqL
  refine Keeps.bind (Keeps.upd (fun w => by simp [World.setTok])) (fun _ => Keeps.get.bind (fun _ =>
    Keeps.bind (Keeps.upd (fun w => by simp [World.setTok])) (fun _ => Keeps.bind ?_ (fun _ =>
      (addPrefixesL_keeps word _).bind (fun _ => ?_)))))
  · unfold setTagL
    split
    · next h =>
      intro w _ _ h3
      refine ⟨?_, trivial⟩
      cases tag with
      | none => simp [truthyStr] at h
      | some g =>
        intro x hx
        simp only [World.setTok, if_true, Option.getD_some] at hx
        rcases mem_set hx with rfl | hx
        · exact htag g rfl (by rintro rfl; simp [truthyStr] at h)
        · exact h3 x hx
    · trivial
  · unfold forceL
    split
    · exact Keeps.upd (fun w => rfl)
    · trivial

theorem addWordL_keeps (S : Sys F) (word : PyText) (freq : FreqArg) (tag : Option Str) (io : Bool)
    (htag : ∀ g, tag = some g → g ≠ [] → K (strdecode S.gbk word) g) : Keeps t fs K (addWordL S t word freq tag io : Co World α Unit) := by
  unfold addWordL
  refine (checkInitL_keeps S io).bind (fun _ => Keeps.bind ?_ (fun f => addFreqL_keeps _ f tag htag))
  cases freq with
  | none => exact suggestWordL_keeps S _ io
  | int n => trivial
  | str s => simp only [freqArgL]; cases pyInt s <;> trivial

theorem suggestFreqL_keeps (S : Sys F) (seg : Segment) (tune io : Bool) : Keeps t fs K (suggestFreqL S t seg tune io : Co World α Int) := by
  unfold suggestFreqL
  refine Keeps.bind ?_ (fun r => Keeps.bind ?_ (fun _ => trivial))
  · cases seg with
    | text x =>
      cases x with
      | str word => exact (suggestWordL_keeps S word io).bind (fun _ => trivial)
      | bytes b =>
        simp only [suggestCoreL]
        split
        · exact (suggestSplitL_keeps S [] io).bind (fun _ => trivial)
        · exact (checkInitL_keeps S io).bind (fun _ => trivial)
    | tuple l => exact (suggestSplitL_keeps S _ io).bind (fun _ => trivial)
  · unfold tuneL
    split
    · exact addWordL_keeps S _ _ none io (by simp)
    · trivial

theorem userdictLoopL_keeps (S : Sys F) (io : Bool) (lns : List PyText) (hl : ∀ ln ∈ lns, LineOk ln)
    (hK : ∀ ln ∈ lns, ∀ line freq u g, UserLine ln line → line ≠ [] → UserEntry line u freq (some g) → g ≠ [] → K u g) :
    Keeps t fs K (userdictLoopL S t io lns : Co World α Unit) := by
  induction lns with
  | nil => trivial
  | cons ln lns ih =>
    obtain ⟨line, h0, h2⟩ := hl ln (by simp)
    have h1 := (userLine_iff ln line).mpr h0
    unfold userdictLoopL userdictLineL
    simp only [h1]
    refine Keeps.bind ?_ (fun _ => ih (fun x hx => hl x (List.mem_cons_of_mem _ hx)) (fun x hx => hK x (List.mem_cons_of_mem _ hx)))
    split
    · trivial
    · next hne =>
      cases hu : userFields line with
      | none => trivial
      | some r =>
        refine addWordL_keeps S _ _ _ io (fun g hg hgn => ?_)
        obtain ⟨word, freq, tag⟩ := r
        simp only at hg
        subst hg
        exact hK ln (by simp) line freq word g h0 hne ((userFields_iff line word freq (some g) hne h2).mp hu) hgn

theorem loadUserdictL_keeps (S : Sys F) (f : UserDict) (io : Bool) (w0 : World) (hfs : w0.files = fs) (l : List PyText) (hl : dictLines w0 f = some l)
    (hok : ∀ ln ∈ l, LineOk ln)
    (hK : ∀ ln ∈ l, ∀ line freq u g, UserLine ln line → line ≠ [] → UserEntry line u freq (some g) → g ≠ [] → K u g) :
    Keeps t fs K (loadUserdictL S t f io : Co World α Unit) := by
  have hloop : Keeps t fs K (userdictLoopL S t io l : Co World α Unit) := userdictLoopL_keeps S io l hok hK
  unfold loadUserdictL
  refine (checkInitL_keeps S io).bind (fun _ => ?_)
  cases f with
  | path p =>
    simp only [dictLines, Option.map_eq_some_iff] at hl
    obtain ⟨f, h2, h3⟩ := hl
    intro w _ hw h4
    refine ⟨h4, ?_⟩
    have : w.files p = some f := by rw [hw, ← hfs]; exact h2
    simp only [this]
    have hs := hloop
    rw [← h3] at hs
    exact hs
  | file data =>
    have := Option.some.inj hl
    unfold userLinesL
    subst this
    exact hloop
  | lines l' =>
    have := Option.some.inj hl
    unfold userLinesL
    subst this
    exact hloop

theorem gramsL_reads (n : Nat) (x : Str) (f : Nat → Str → α) (is : List Nat) : Reads t (gramsL t n x f is) := by
  induction is with
  | nil => trivial
  | cons i is ih =>
    unfold gramsL
    refine Reads.get.bind (fun b => ?_)
    split
    · exact Reads.bind (Reads.yieldAll [_]) (fun _ => ih)
    · exact ih

theorem prog_keeps (S : Sys F) (io : Bool) (c : Call) (w0 : World) (hfs : w0.files = fs) (hc : CallOk w0 c)
    (hK : ∀ u g, Gives S.gbk w0 c u g → K u g) : Keeps t fs K (c.prog S t io) := by
  cases c with
  | addWord word freq tag =>
    exact (addWordL_keeps S word freq tag io (fun g hg hne => hK _ g ⟨rfl, hg, hne⟩)).bind (fun _ => trivial)
  | delWord word => exact Keeps.bind (c := delWordL S t word io) (addWordL_keeps S word _ none io (by simp)) (fun _ => trivial)
  | suggestFreq seg tune => exact (suggestFreqL_keeps S seg tune io).bind (fun _ => trivial)
  | loadUserdict f =>
    obtain ⟨l, h1, h2⟩ := hc
    exact (loadUserdictL_keeps S f io w0 hfs l h1 h2 (fun ln hln line freq u g a b c d => hK u g ⟨l, h1, ln, hln, line, freq, a, b, c, d⟩)).bind
      (fun _ => trivial)
  | cut ca hm s => exact (Keeps.of_reads (cutL_reads S t ca hm s io)).bind (fun _ => trivial)
  | cutForSearch hm s =>
    refine Keeps.bind (c := cutForSearchL S t hm s io) ?_ (fun _ => trivial)
    unfold cutForSearchL
    refine Keeps.forIn (Keeps.of_reads (cutL_reads S t false hm s io)) (fun x _ => ?_) ()
    have hlast : Keeps t fs K (Co.yieldAll [x] : Co World Str Unit) := Keeps.of_reads (Reads.yieldAll _)
    have hg : ∀ n is, Keeps t fs K (gramsL t n x (fun _ g => g) is) := fun n is => Keeps.of_reads (gramsL_reads n x _ is)
    by_cases h2 : 2 < x.length <;> by_cases h3 : 3 < x.length <;> simp only [h2, h3, if_true, if_false]
    · exact (hg _ _).bind (fun _ => (hg _ _).bind (fun _ => hlast))
    · exact (hg _ _).bind (fun _ => hlast)
    · exact (hg _ _).bind (fun _ => hlast)
    · exact hlast

/-! ## Where POS tokenizers are -/

/-- Known tags only, in the tokenizer and in the POS tokenizers `ks`, which belong to it. -/
def TagsInP (t : Nat) (ks : Nat → Prop) (K : Str → Str → Prop) (p : PWorld) : Prop :=
  TagsIn t K p.w ∧ ∀ k, ks k → (p.pos k).tok = t ∧ ∀ x ∈ (p.pos k).tab, K x.1 x.2

/-- `c` leaves only known tags behind and yields values as described by `E`. -/
def KeepsP (t : Nat) (fs : Path → Option File) (ks : Nat → Prop) (K : Str → Str → Prop) (E : α → Prop) : Co PWorld α β → Prop
  | .ret _ => True
  | .raise _ => True
  | .yield a k => E a ∧ KeepsP t fs ks K E k
  | .act f k => ∀ p, Healthy t p.w → p.w.files = fs → TagsInP t ks K p → TagsInP t ks K (f p) ∧ KeepsP t fs ks K E (k p)

variable {ks : Nat → Prop} {E : α → Prop}

theorem Keeps.onWorld {c : Co World α β} (h : Keeps t fs K c) : KeepsP t fs ks K (fun _ : α => True) c.onWorld := by
  induction c with
  | ret b => trivial
  | raise e => trivial
  | yield a k ih => exact ⟨trivial, ih h⟩
  | act f k ih => exact fun p h1 h2 h3 => ⟨⟨(h p.w h1 h2 h3.1).1, h3.2⟩, ih p.w (h p.w h1 h2 h3.1).2⟩

theorem KeepsP.mapOut {E' : α' → Prop} {f : α → α'} {c : Co PWorld α β} (h : KeepsP t fs ks K E c) (hE : ∀ a, E a → E' (f a)) :
    KeepsP t fs ks K E' (c.mapOut f) := by
  induction c with
  | ret b => trivial
  | raise e => trivial
  | yield a k ih => exact ⟨hE a h.1, ih h.2⟩
  | act g k ih => exact fun p h1 h2 h3 => ⟨(h p h1 h2 h3).1, ih p (h p h1 h2 h3).2⟩

theorem KeepsP.bind {c : Co PWorld α β} {g : β → Co PWorld α γ} (hc : KeepsP t fs ks K E c) (hg : ∀ b, KeepsP t fs ks K E (g b)) :
    KeepsP t fs ks K E (c >>= g) := by
  rw [bind_def]
  induction c with
  | ret b => exact hg b
  | raise e => trivial
  | yield a k ih => exact ⟨hc.1, ih hc.2⟩
  | act f k ih => exact fun p h1 h2 h3 => ⟨(hc p h1 h2 h3).1, ih p (hc p h1 h2 h3).2⟩

theorem KeepsP.get {f : PWorld → β} : KeepsP t fs ks K E (Co.get f : Co PWorld α β) := fun _ _ _ h => ⟨h, trivial⟩

theorem KeepsP.yieldAll {l : List α} (h : ∀ a ∈ l, E a) : KeepsP t fs ks K E (Co.yieldAll l : Co PWorld α Unit) := by
  induction l with
  | nil => trivial
  | cons a l ih => exact ⟨h a (by simp), ih (fun b hb => h b (List.mem_cons_of_mem _ hb))⟩

theorem KeepsP.lift (x : Except PyErr β) : KeepsP t fs ks K E (Co.lift x : Co PWorld α β) := by cases x <;> trivial

/-- `TagAmong` for a pair. -/
def Among (T : Tables F) (K : Str → Str → Prop) (hm : Bool) (x : Pair) : Prop := TagAmong T K hm x.1 x.2

theorem yieldTagged_keeps (T : Tables F) (hm : Bool) (k : Nat) (hk : ks k) (w : Str) : KeepsP t fs ks K (Among T K hm) (yieldTagged k w) := by
  intro p _ _ h3
  refine ⟨h3, ?_, trivial⟩
  unfold Among TagAmong tagOf
  simp only []
  cases h : (p.pos k).tab.get? w with
  | some g => exact Or.inl ((h3.2 k hk).2 (w, g) (mem_of_get? h))
  | none => exact Or.inr (Or.inl (by decide))

theorem yieldEng_keeps (T : Tables F) (hm : Bool) (buf : Str) : KeepsP t fs ks K (Among T K hm) (yieldEng buf) := by
  refine KeepsP.yieldAll (fun a ha => ?_)
  split at ha
  · simp at ha
  · simp only [List.mem_singleton] at ha
    subst ha
    exact Or.inr (Or.inl (show flagEng ∈ _ by decide))

theorem yieldChars_keeps (T : Tables F) (hm : Bool) (k : Nat) (hk : ks k) (s : Str) : KeepsP t fs ks K (Among T K hm) (yieldChars k s) := by
  induction s with
  | nil => trivial
  | cons c s ih => exact (yieldTagged_keeps T hm k hk [c]).bind (fun _ => ih)

theorem noHmmLoopL_keeps (T : Tables F) (hm : Bool) (k : Nat) (hk : ks k) (s : Str) (route : List (F × Nat)) (fuel x : Nat) (buf : Str) :
    KeepsP t fs ks K (Among T K hm) (noHmmLoopL k s route fuel x buf) := by
  induction fuel generalizing x buf with
  | zero => exact yieldEng_keeps T hm buf
  | succ fuel ih =>
    unfold noHmmLoopL
    split
    · split
      · trivial
      · simp only []
        split
        · exact ih _ _
        · exact (yieldEng_keeps T hm buf).bind (fun _ => (yieldTagged_keeps T hm k hk _).bind (fun _ => ih _ _))
    · exact yieldEng_keeps T hm buf

theorem cutDetail_among (P : PSys F) (hσ : ∀ s t l, (P.σ s t l).Perm l) (b : Str) : ∀ x ∈ (cutDetail (detailEnv P) b).out, Among P.tables K true x := by
  intro x hx
  cases cutDetail_from (detailEnv P) hσ b x hx with
  | table w g h => simp [detailEnv] at h
  | unknown w h => exact Or.inr (Or.inl (by simp))
  | other c w => exact Or.inr (Or.inl (by simp))
  | number c w => exact Or.inr (Or.inl (by simp))
  | foreign c w => exact Or.inr (Or.inl (by simp))
  | state w y h1 h2 h3 => exact Or.inr (Or.inr ⟨rfl, h2, y, h3, rfl⟩)

theorem flushBufL_keeps (P : PSys F) (hσ : ∀ s t l, (P.σ s t l).Perm l) (k : Nat) (hk : ks k) (buf : Str) :
    KeepsP t fs ks K (Among P.tables K true) (flushBufL P k buf) := by
  unfold flushBufL
  split
  · trivial
  · split
    · exact yieldTagged_keeps _ _ k hk buf
    · refine KeepsP.get.bind (fun freq => ?_)
      split
      · unfold ofGen
        refine (KeepsP.yieldAll (cutDetail_among P hσ buf)).bind (fun _ => ?_)
        split <;> trivial
      · exact yieldChars_keeps _ _ k hk buf

theorem dagCutLoopL_keeps (P : PSys F) (hσ : ∀ s t l, (P.σ s t l).Perm l) (k : Nat) (hk : ks k) (s : Str) (route : List (F × Nat)) (fuel x : Nat)
    (buf : Str) : KeepsP t fs ks K (Among P.tables K true) (dagCutLoopL P k s route fuel x buf) := by
  induction fuel generalizing x buf with
  | zero => exact flushBufL_keeps P hσ k hk buf
  | succ fuel ih =>
    unfold dagCutLoopL
    split
    · split
      · trivial
      · simp only []
        split
        · exact ih _ _
        · exact (flushBufL_keeps P hσ k hk buf).bind (fun _ => (yieldTagged_keeps _ _ k hk _).bind (fun _ => ih _ _))
    · exact flushBufL_keeps P hσ k hk buf

theorem moveTagsL_keeps (k : Nat) (hk : ks k) : KeepsP t fs ks K E (moveTagsL k : Co PWorld α Unit) := by
  unfold moveTagsL
  refine KeepsP.get.bind (fun b => ?_)
  split
  · refine KeepsP.bind ?_ (fun _ => ?_)
    · intro p _ _ h3
      refine ⟨⟨h3.1, fun j hj => ?_⟩, trivial⟩
      by_cases hjk : j = k
      · subst hjk
        simp only [PWorld.setPos, if_true]
        refine ⟨(h3.2 j hj).1, fun x hx => ?_⟩
        rcases mem_update hx with hx | hx
        · rw [(h3.2 j hj).1] at hx; exact h3.1 x hx
        · exact (h3.2 j hj).2 x hx
      · simp only [PWorld.setPos, if_neg hjk]; exact h3.2 j hj
    · intro p _ _ h3
      refine ⟨⟨?_, h3.2⟩, trivial⟩
      intro x hx
      simp only [(h3.2 k hk).1, World.setTok, if_true, List.not_mem_nil] at hx
  · trivial

/-- Programs that yield nothing. -/
theorem Keeps.onWorld_silent {c : Co World α β} {Q : β → Unit → Prop} {g : β → Co PWorld α γ} (h : Keeps t fs K c)
    (hs : Safe (fun _ _ _ => False) Q c ()) (hg : ∀ b, Q b () → KeepsP t fs ks K E (g b)) : KeepsP t fs ks K E (c.onWorld >>= g) := by
  rw [bind_def]
  induction c with
  | ret b => exact hg b hs
  | raise e => trivial
  | yield a k ih => obtain ⟨_, h1, -⟩ := hs; exact h1.elim
  | act f k ih => exact fun p h1 h2 h3 => ⟨⟨(h p.w h1 h2 h3.1).1, h3.2⟩, ih p.w (h p.w h1 h2 h3.1).2 (hs p.w)⟩

theorem KeepsP.get_bind {f : PWorld → β} {g : β → Co PWorld α γ} (h : ∀ p, TagsInP t ks K p → KeepsP t fs ks K E (g (f p))) :
    KeepsP t fs ks K E (Co.get f >>= g) := fun p _ _ h3 => ⟨h3, h p h3⟩

theorem routeL_keeps (P : PSys F) (k : Nat) (hk : ks k) (io : Bool) (s : Str) (g : List (F × Nat) → Co PWorld α β)
    (hg : ∀ r, KeepsP t fs ks K E (g r)) : KeepsP t fs ks K E (routeL P k io s >>= g) := by
  unfold routeL
  refine KeepsP.bind ?_ hg
  refine KeepsP.get_bind (fun p hp => ?_)
  rw [(hp.2 k hk).1]
  refine Keeps.onWorld_silent (Keeps.of_reads (getDAGL_reads P.sys t io s)) (getDAGL_safe _ () P.sys t io s) (fun dag hd => ?_)
  refine KeepsP.get_bind (fun p hp => ?_)
  rw [(hp.2 k hk).1]
  have := Keeps.onWorld_silent (ks := ks) (E := E) (g := fun r => Co.ret r) (Keeps.of_reads (t := t) (fs := fs) (K := K) (calcRouteL_reads P.sys t s dag))
    (calcRouteL_safe _ () P.sys t s dag hd.1) (fun _ _ => trivial)
  have hret : ∀ c : Co PWorld α (List (F × Nat)), (c >>= fun r => Co.ret r) = c := by
    intro c
    rw [bind_def]
    induction c with
    | ret b => rfl
    | raise e => rfl
    | yield a k ih => simp only [Co.bind, ih]
    | act f k ih => simp only [Co.bind, ih]
  rwa [hret] at this

theorem cutSkip_among (T : Tables F) (hm : Bool) (b : Str) : ∀ x ∈ cutSkip b, Among T K hm x := by
  intro x hx
  unfold cutSkip at hx
  obtain ⟨y, -, hx⟩ := List.mem_flatMap.mp hx
  right; left
  split at hx
  · simp only [List.mem_singleton] at hx; subst hx; exact (show flagX ∈ _ by decide)
  · obtain ⟨c, -, rfl⟩ := List.mem_map.mp hx
    split
    · exact (show flagM ∈ _ by decide)
    · split
      · exact (show flagEng ∈ _ by decide)
      · exact (show flagX ∈ _ by decide)

theorem cutBlocksL_keeps (P : PSys F) (hσ : ∀ s t l, (P.σ s t l).Perm l) (k : Nat) (hk : ks k) (hm io : Bool) (blks : List Str) :
    KeepsP t fs ks K (Among P.tables K hm) (cutBlocksL P k hm io blks) := by
  induction blks with
  | nil => trivial
  | cons b blks ih =>
    unfold cutBlocksL
    split
    · refine KeepsP.bind ?_ (fun _ => ih)
      unfold cutBlockL
      refine routeL_keeps P k hk io b _ (fun route => ?_)
      cases hm with
      | true => exact dagCutLoopL_keeps P hσ k hk b route _ _ _
      | false => exact noHmmLoopL_keeps _ _ k hk b route _ _ _
    · exact (KeepsP.yieldAll (cutSkip_among _ _ b)).bind (fun _ => ih)

theorem cutL_keeps (P : PSys F) (hσ : ∀ s t l, (P.σ s t l).Perm l) (k : Nat) (hk : ks k) (hm : Bool) (s : PyText) (io : Bool) :
    KeepsP t fs ks K (Among P.tables K hm) (cutL P k hm s io) :=
  (moveTagsL_keeps k hk).bind (fun _ => cutBlocksL_keeps P hσ k hk hm io _)

/-- What a call may yield: a word; or a word with a tag as described by `TagAmong`. -/
def YieldOk (T : Tables F) (K : Str → Str → Prop) : PCall → Yield → Prop
  | .tok _, a => a.2 = none
  | .tag _ hm _, a => ∃ g, a.2 = some g ∧ TagAmong T K hm a.1 g

theorem pprog_keeps (P : PSys F) (hσ : ∀ s t l, (P.σ s t l).Perm l) (io : Bool) (c : PCall) (p0 : PWorld) (hfs : p0.w.files = fs)
    (hc : PCallOk t p0 c) (hks : ∀ k hm s, c = .tag k hm s → ks k) (hK : ∀ d, c = .tok d → ∀ u g, Gives P.sys.gbk p0.w d u g → K u g) :
    KeepsP t fs ks K (YieldOk P.tables K c) (c.prog P t io) := by
  cases c with
  | tok d =>
    exact KeepsP.mapOut (Keeps.onWorld (prog_keeps P.sys io d p0.w hfs hc (hK d rfl))) (fun _ _ => rfl)
  | tag k hm s =>
    exact KeepsP.bind (KeepsP.mapOut (cutL_keeps P hσ k (hks k hm s rfl) hm s io) (fun a ha => ⟨a.2, rfl, ha⟩)) (fun _ => trivial)

/-! ## All calls together -/

/-- Known tags only, and what the calls have yielded and what they have still to do is as it should be. -/
structure KnownInv (t : Nat) (fs : Path → Option File) (ks : Nat → Prop) (K : Str → Str → Prop) (E : Nat → Yield → Prop) (p : PPool) : Prop where
  files : p.p.w.files = fs
  tags : TagsInP t ks K p.p
  todo : ∀ i, KeepsP t fs ks K (E i) (p.th i)
  done : ∀ i, ∀ a ∈ p.out i, E i a

theorem knownInv_step {B : Prop} {Q : Nat → Option Int → PWorld → Prop} {E : Nat → Yield → Prop} (p : PPool) (i : Nat) (hp : PPoolInv t B Q p)
    (h : KnownInv t fs ks K E p) : KnownInv t fs ks K E (p.step i) := by
  have hT := (ppoolInv_step t B Q p i hp).2
  have hfiles := (hT.1 hp.healthy).2.2.1
  obtain ⟨h1, h2, h3, h4⟩ := h
  unfold PPool.step at *
  split
  · exact ⟨h1, h2, h3, h4⟩
  · exact ⟨h1, h2, h3, h4⟩
  · next a k hk =>
    have hi := h3 i
    rw [hk] at hi
    refine ⟨h1, h2, fun j => ?_, fun j b hb => ?_⟩
    · dsimp only
      split
      · next hj => subst hj; exact hi.2
      · exact h3 j
    · dsimp only at hb
      split at hb
      · next hj =>
        subst hj
        rcases List.mem_append.mp hb with hb | hb
        · exact h4 j b hb
        · simp only [List.mem_singleton] at hb; subst hb; exact hi.1
      · exact h4 j b hb
  · next f k hk =>
    have hi := h3 i
    rw [hk] at hi
    simp only [hk] at hfiles
    obtain ⟨g1, g2⟩ := hi p.p hp.healthy h1 h2
    refine ⟨hfiles.trans h1, g1, fun j => ?_, h4⟩
    dsimp only
    split
    · next hj => subst hj; exact g2
    · exact h3 j

theorem knownInv_run {B : Prop} {Q : Nat → Option Int → PWorld → Prop} {E : Nat → Yield → Prop} (p : PPool) (sched : List Nat)
    (hp : PPoolInv t B Q p) (h : KnownInv t fs ks K E p) : KnownInv t fs ks K E (p.run sched) := by
  unfold PPool.run
  induction sched generalizing p with
  | nil => exact h
  | cons i l ih => exact ih _ (ppoolInv_step t B Q p i hp).1 (knownInv_step p i hp h)

end Jieba.Pos.Steps
