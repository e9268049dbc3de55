import Verif.Proofs.LazyCost
import Verif.Proofs.PosLazy
/-!
# Counting the accesses of `POSTokenizer.cut`
-/

set_option linter.unusedSectionVars false

namespace Jieba
open Jieba.Spec

namespace Co
variable {α β : Type}

theorem Cost.onWorld {P : World → Prop} {R : Pos.PWorld → Prop} (hR : ∀ p, R p → P p.w) {wt : α → Nat} {Q : β → Prop} {c : Co World α β} {n : Nat}
    (h : Cost P wt Q c n) : Cost R wt Q c.onWorld n := by
  induction c generalizing n with
  | ret b => exact h
  | raise e => trivial
  | yield a k ih => exact ⟨h.1, ih h.2⟩
  | act f k ih => exact ⟨h.1, fun p hp => ih p.w (h.2 p.w (hR p hp))⟩

theorem Cost.weaken {W : Type} {P : W → Prop} {wt : α → Nat} {Q Q' : β → Prop} {c : Co W α β} {n : Nat} (h : Cost P wt Q c n) (hq : ∀ b, Q b → Q' b) :
    Cost P wt Q' c n := by
  induction c generalizing n with
  | ret b => exact hq b h
  | raise e => trivial
  | yield a k ih => exact ⟨h.1, ih h.2⟩
  | act f k ih => exact ⟨h.1, fun p hp => ih p (h.2 p hp)⟩

theorem Cost.free {W : Type} {P : W → Prop} (l : List α) (n : Nat) : Cost P (fun _ => 0) (fun _ => True) (Co.yieldAll l : Co W α Unit) n := by
  induction l with
  | nil => trivial
  | cons a l ih => exact ⟨by simp, by simpa using ih⟩

end Co

namespace Pos.Steps
open Co

variable {F : Type} [LinearOrder F]

/-- The tokenizer of the POS tokenizer `k` is number `t` and has entries of at most `L` characters. -/
def Within (k t L : Nat) (p : PWorld) : Prop := (p.pos k).tok = t ∧ Lazy.EntriesWithin t L p.w

abbrev Spends {β : Type} (k t L : Nat) (Q : β → Prop) (c : Co PWorld Pair β) (n : Nat) : Prop := Cost (Within k t L) (fun _ => 0) Q c n

variable {k t L : Nat}

theorem moveTagsL_cost : Spends k t L (fun _ => True) (moveTagsL k) 3 := by
  unfold moveTagsL
  refine Cost.get (n := 2) (fun p _ => ?_)
  split
  · exact ⟨by omega, fun _ _ => ⟨by omega, fun _ _ => trivial⟩⟩
  · trivial

theorem yieldTagged_cost (w : Str) : Spends k t L (fun _ => True) (yieldTagged k w) 1 := Cost.get (n := 0) (fun _ _ => Cost.free _ 0)

theorem yieldEng_cost (buf : Str) : Spends k t L (fun _ => True) (yieldEng buf) 0 := Cost.free _ 0

theorem yieldChars_cost (s : Str) : Spends k t L (fun _ => True) (yieldChars k s) s.length := by
  induction s with
  | nil => trivial
  | cons c s ih =>
    unfold yieldChars
    exact ((yieldTagged_cost [c]).seq ih).mono (by rw [List.length_cons]; omega)

theorem noHmmLoopL_cost (s : Str) (route : List (F × Nat)) (hr : RouteWF s route) (fuel x : Nat) (buf : Str) :
    Spends k t L (fun _ => True) (noHmmLoopL k s route fuel x buf) (s.length - x) := by
  induction fuel generalizing x buf with
  | zero => exact (yieldEng_cost buf).mono (by omega)
  | succ fuel ih =>
    unfold noHmmLoopL
    split
    · next hx =>
      obtain ⟨r, h1, h2, h3⟩ := hr x hx
      rw [h1]
      simp only []
      split
      · exact (ih _ _).mono (by omega)
      · exact ((yieldEng_cost buf).seq ((yieldTagged_cost _).seq (ih (r.2 + 1) []))).mono (by omega)
    · exact (yieldEng_cost buf).mono (by omega)

theorem flushBufL_cost (P : PSys F) (buf : Str) : Spends k t L (fun _ => True) (flushBufL P k buf) (2 * buf.length) := by
  unfold flushBufL
  split
  · trivial
  · next hne =>
    have hpos : 0 < buf.length := List.length_pos_of_ne_nil hne
    split
    · exact (yieldTagged_cost buf).mono (by omega)
    · refine (Cost.get (n := buf.length) (fun p _ => ?_)).mono (by omega)
      split
      · unfold Co.ofGen
        refine Cost.bind (m := 0) (Q' := fun _ => True) (Cost.free _ _) (fun _ _ => ?_)
        cases (cutDetail (detailEnv P) buf).err <;> trivial
      · exact yieldChars_cost buf

theorem dagCutLoopL_cost (P : PSys F) (s : Str) (route : List (F × Nat)) (hr : RouteWF s route) (fuel x : Nat) (buf : Str) :
    Spends k t L (fun _ => True) (dagCutLoopL P k s route fuel x buf) (2 * (buf.length + (s.length - x))) := by
  induction fuel generalizing x buf with
  | zero => exact (flushBufL_cost P buf).mono (by omega)
  | succ fuel ih =>
    unfold dagCutLoopL
    split
    · next hx =>
      obtain ⟨r, h1, h2, h3⟩ := hr x hx
      rw [h1]
      simp only []
      have hl : (slice s x (r.2 + 1)).length = r.2 + 1 - x := slice_length _ _ _ (by unfold Ch at *; omega)
      split
      · refine (ih (r.2 + 1) (buf ++ slice s x (r.2 + 1))).mono ?_
        rw [List.length_append, hl]; omega
      · refine ((flushBufL_cost P buf).seq ((yieldTagged_cost _).seq (ih (r.2 + 1) []))).mono ?_
        simp only [List.length_nil]; omega
    · exact (flushBufL_cost P buf).mono (by omega)

theorem routeL_cost (P : PSys F) (io : Bool) (s : Str) : Spends k t L (fun r => RouteWF s r) (routeL P k io s) (s.length * (3 * L + 2) + 4) := by
  unfold routeL
  refine (Cost.get (n := s.length * (3 * L + 2) + 3) (fun p hp => ?_)).mono (by omega)
  rw [hp.1]
  have h1 : Cost (Within k t L) (fun _ : Pair => 0) _ (Lazy.getDAGL P.sys t io s).onWorld _ :=
    (Lazy.getDAGL_cost (fun _ => 0) P.sys t L io s).onWorld (fun p hp => hp.2)
  refine (h1.bind (m := s.length * (L + 1) + 1 + 1) (fun dag hd => ?_)).mono ?_
  · refine Cost.get (fun p hp => ?_)
    rw [hp.1]
    have h2 := (Lazy.calcRouteL_cost (Lazy.EntriesWithin t L) (fun _ : Pair => 0) P.sys t (L + 1) s dag hd.1 hd.2).onWorld (R := Within k t L) (fun p hp => hp.2)
    exact h2.weaken (fun _ h => h.2)
  · have : s.length * (3 * L + 2) = s.length * (2 * L + 1) + s.length * (L + 1) := by ring
    omega

theorem cutBlockL_cost (P : PSys F) (hm io : Bool) (blk : Str) (hne : blk ≠ []) :
    Spends k t L (fun _ => True) (cutBlockL P k hm io blk) (blk.length * (3 * L + 8)) := by
  have hpos : 0 < blk.length := List.length_pos_of_ne_nil hne
  unfold cutBlockL
  refine ((routeL_cost P io blk).bind (m := 2 * blk.length) (fun route hr => ?_)).mono ?_
  · split
    · simpa using dagCutLoopL_cost P blk route hr blk.length 0 []
    · exact (noHmmLoopL_cost blk route hr blk.length 0 []).mono (by omega)
  · have : blk.length * (3 * L + 8) = blk.length * (3 * L + 2) + 6 * blk.length := by ring
    omega

theorem cutBlocksL_cost (P : PSys F) (hm io : Bool) (blks : List Str) :
    Spends k t L (fun _ => True) (cutBlocksL P k hm io blks) (blks.flatten.length * (3 * L + 8)) := by
  induction blks with
  | nil => trivial
  | cons b blks ih =>
    unfold cutBlocksL
    rw [List.flatten_cons, List.length_append, Nat.add_mul]
    by_cases hb : reHanInternal.isMatch b = true
    · simp only [hb, if_true]
      exact (cutBlockL_cost P hm io b (by rintro rfl; simp [reHanInternal, isMatch_plus] at hb)).seq ih
    · simp only [hb]
      rw [if_neg (by simp)]
      exact (Cost.free _ _).seq ih

theorem cutL_cost (P : PSys F) (hm : Bool) (s : PyText) (io : Bool) :
    Spends k t L (fun _ => True) (cutL P k hm s io) ((strdecode P.sys.gbk s).length * (3 * L + 8) + 3) := by
  have := cutBlocksL_cost (k := k) (t := t) (L := L) P hm io (reHanInternal.split (strdecode P.sys.gbk s))
  rw [show (reHanInternal.split (strdecode P.sys.gbk s)).flatten = strdecode P.sys.gbk s from RE.split_flatten _ rfl _] at this
  unfold cutL
  exact (moveTagsL_cost.seq this).mono (by omega)

end Pos.Steps

/-! ## Calls that nobody interferes with -/

namespace Co
variable {W α β γ : Type}

/-- The accesses keep `P`. -/
def Keeps (P : W → Prop) : Co W α β → Prop
  | .ret _ => True
  | .raise _ => True
  | .yield _ k => Keeps P k
  | .act f k => ∀ w, P w → P (f w) ∧ Keeps P (k w)

theorem Keeps.bind {P : W → Prop} {c : Co W α β} {g : β → Co W α γ} (h : Keeps P c) (hg : ∀ b, Keeps P (g b)) : Keeps P (Co.bind c g) := by
  induction c with
  | ret b => exact hg b
  | raise e => trivial
  | yield a k ih => exact ih h
  | act f k ih => exact fun w hw => ⟨(h w hw).1, ih w (h w hw).2⟩

theorem Keeps.seq {P : W → Prop} {c d : Co W α Unit} (h : Keeps P c) (hd : Keeps P d) : Keeps P (c >>= fun _ => d) := h.bind fun _ => hd

theorem Keeps.get {P : W → Prop} {f : W → β} {g : β → Co W α γ} (h : ∀ w, P w → Keeps P (g (f w))) : Keeps P (Co.get f >>= g) :=
  fun w hw => ⟨hw, h w hw⟩

theorem Keeps.yieldAll {P : W → Prop} (l : List α) : Keeps P (Co.yieldAll l : Co W α Unit) := by
  induction l with
  | nil => trivial
  | cons a l ih => exact ih

theorem Quiet.loaded {P : World → Prop} {R : Pos.PWorld → Prop} (hR : ∀ p, R p → P p.w) {c : Co World α β} (h : Quiet P c) : Keeps R c.onWorld := by
  induction c with
  | ret b => trivial
  | raise e => trivial
  | yield a k ih => exact ih h
  | act f k ih =>
    intro p hp
    obtain ⟨h1, h2⟩ := h p.w (hR p hp)
    exact ⟨by simp only [h1]; exact hp, ih p.w h2⟩

end Co

namespace Pos.Steps
open Co

variable {F : Type} [LinearOrder F] {k t L : Nat}

/-- The tokenizer is initialised, too. -/
def Loaded (k t L : Nat) (p : PWorld) : Prop := Within k t L p ∧ (p.w.tok t).initialized = true

theorem moveTagsL_loaded : Keeps (Loaded k t L) (moveTagsL k : Co PWorld Pair Unit) := by
  unfold moveTagsL
  refine Keeps.get (fun p hp => ?_)
  split
  · refine fun p hp => ⟨?_, fun p hp => ⟨?_, trivial⟩⟩
    · obtain ⟨⟨h1, h2⟩, h3⟩ := hp
      refine ⟨⟨?_, h2⟩, h3⟩
      simpa [PWorld.setPos] using h1
    · obtain ⟨⟨h1, h2⟩, h3⟩ := hp
      refine ⟨⟨h1, ?_⟩, ?_⟩
      · intro v hv
        refine h2 v ?_
        simpa [World.setTok, h1] using hv
      · simpa [World.setTok, h1] using h3
  · trivial

theorem yieldTagged_loaded (w : Str) : Keeps (Loaded k t L) (yieldTagged k w) := Keeps.get (fun _ _ => Keeps.yieldAll _)

theorem yieldChars_loaded (s : Str) : Keeps (Loaded k t L) (yieldChars k s) := by
  induction s with
  | nil => trivial
  | cons c s ih => exact (yieldTagged_loaded [c]).seq ih

theorem noHmmLoopL_loaded (s : Str) (route : List (F × Nat)) (fuel x : Nat) (buf : Str) : Keeps (Loaded k t L) (noHmmLoopL k s route fuel x buf) := by
  induction fuel generalizing x buf with
  | zero => exact Keeps.yieldAll _
  | succ fuel ih =>
    unfold noHmmLoopL
    split
    · split
      · trivial
      · simp only []
        split
        · exact ih _ _
        · exact (Keeps.yieldAll _).seq ((yieldTagged_loaded _).seq (ih _ _))
    · exact Keeps.yieldAll _

theorem flushBufL_loaded (P : PSys F) (buf : Str) : Keeps (Loaded k t L) (flushBufL P k buf) := by
  unfold flushBufL
  split
  · trivial
  · split
    · exact yieldTagged_loaded buf
    · refine Keeps.get (fun p _ => ?_)
      split
      · unfold Co.ofGen
        refine (Keeps.yieldAll _).bind (fun _ => ?_)
        cases (cutDetail (detailEnv P) buf).err <;> trivial
      · exact yieldChars_loaded buf

theorem dagCutLoopL_loaded (P : PSys F) (s : Str) (route : List (F × Nat)) (fuel x : Nat) (buf : Str) :
    Keeps (Loaded k t L) (dagCutLoopL P k s route fuel x buf) := by
  induction fuel generalizing x buf with
  | zero => exact flushBufL_loaded P buf
  | succ fuel ih =>
    unfold dagCutLoopL
    split
    · split
      · trivial
      · simp only []
        split
        · exact ih _ _
        · exact (flushBufL_loaded P buf).seq ((yieldTagged_loaded _).seq (ih _ _))
    · exact flushBufL_loaded P buf

theorem cutBlockL_loaded (P : PSys F) (hm io : Bool) (blk : Str) : Keeps (Loaded k t L) (cutBlockL P k hm io blk) := by
  unfold cutBlockL routeL
  refine Keeps.bind ?_ (fun route => ?_)
  · refine Keeps.get (fun p hp => ?_)
    rw [hp.1.1]
    refine Keeps.bind (Quiet.loaded (fun p hp => hp.2) (Lazy.quiet_getDAGL P.sys t io blk)) (fun dag => Keeps.get (fun p hp => ?_))
    rw [hp.1.1]
    exact Quiet.loaded (P := fun _ => True) (fun _ _ => trivial) (Lazy.quiet_calcRouteL _ P.sys t blk dag)
  · split
    · exact dagCutLoopL_loaded P blk route _ _ _
    · exact noHmmLoopL_loaded blk route _ _ _

theorem cutBlocksL_loaded (P : PSys F) (hm io : Bool) (blks : List Str) : Keeps (Loaded k t L) (cutBlocksL P k hm io blks) := by
  induction blks with
  | nil => trivial
  | cons b blks ih =>
    unfold cutBlocksL
    by_cases hb : reHanInternal.isMatch b = true
    · simp only [hb, if_true]
      exact (cutBlockL_loaded P hm io b).seq ih
    · simp only [hb]
      rw [if_neg (by simp)]
      exact (Keeps.yieldAll _).seq ih

theorem cutL_loaded (P : PSys F) (hm : Bool) (s : PyText) (io : Bool) : Keeps (Loaded k t L) (cutL P k hm s io) :=
  moveTagsL_loaded.seq (cutBlocksL_loaded P hm io _)

end Pos.Steps
end Jieba
