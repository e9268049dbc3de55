import Verif.Spec.PosInit
import Verif.Proofs.PosCallTags
import Verif.Proofs.Fields
/-!
# Lemmas about initialising a POS tokenizer while others work
-/

set_option linter.unusedSectionVars false

namespace Jieba.Pos.Steps
open Co Jieba.Spec Jieba.Lazy

variable {F : Type} [LinearOrder F] {α α' β γ : Type}

theorem initTok_of_init (S : Sys F) (w : World) (t : Nat) (io : Bool) (h : (w.tok t).initialized = true) :
    initTok S w t none io = (w, .ok ()) := by
  unfold initTok initLocked
  simp [h]

theorem dictFile_same {t : Nat} {w w' : World} (h : SameFiles t w w') :
    dictFile w' (w'.tok t).dictionary = dictFile w (w.tok t).dictionary := by
  unfold dictFile
  rw [h.2.1, h.2.2, h.1]

theorem dictLines_iff {t : Nat} {w : World} {data : Bytes} (h : dictFile w (w.tok t).dictionary = .ok data) (ls : List Bytes) :
    DictLines t w ls ↔ ls = fileLines data := by
  constructor
  · rintro ⟨d, h1, h2⟩
    rw [h] at h1
    cases h1
    exact ((fileLines_iff _ _).mp h2).symm
  · rintro rfl
    exact ⟨data, h, fileLines_spec data⟩

/-- A line that can be read. -/
def Readable (l : Bytes) : Prop := tagLine l ≠ none

theorem readable_of (l : Bytes) (h : Blank l ∨ ∃ u g, TagEntry l u g) : Readable l := by
  unfold Readable
  rcases h with h | ⟨u, g, h⟩
  · rw [(tagLine_blank_iff l).mp h]; simp
  · rw [(tagEntry_iff l u g).mp h]; simp

/-! ## Nothing raises -/

theorem setPos_tame (t k : Nat) (p : PWorld) (tab : PyDict Str Str) : TameP t p (p.setPos k ⟨(p.pos k).tok, tab⟩) := by
  refine ⟨Tame.refl t p.w, fun j => ?_⟩
  by_cases hj : j = k
  · subst hj; simp [PWorld.setPos]
  · simp [PWorld.setPos, hj]

theorem setPos_calm (t k : Nat) (f : PWorld → PyDict Str Str) :
    CalmP t k (.act (fun p => p.setPos k ⟨(p.pos k).tok, f p⟩) (fun _ => .ret ()) : Co PWorld α Unit) := by
  intro p hp p1 h1 _
  exact ⟨setPos_tame t k p1 _, Lazy.nil, ⟨(hp.tame h1).tame (setPos_tame t k p1 _), fun _ h => h⟩, fun u hu => hu.elim,
    fun u hu hn => absurd hu hn⟩

theorem loadTagsL_calm (t k : Nat) (ls : List Bytes) (h : ∀ l ∈ ls, Readable l) : CalmP t k (loadTagsL k ls : Co PWorld α Unit) := by
  induction ls with
  | nil => exact CalmP.ret
  | cons l ls ih =>
    have ih := ih (fun x hx => h x (List.mem_cons_of_mem _ hx))
    unfold loadTagsL
    split
    · next hl => exact absurd hl (h l (by simp))
    · exact ih
    · exact (setPos_calm t k _).bind ih

theorem loadWordTagL_calm (t k : Nat) (data : Bytes) (h : ∀ l ∈ fileLines data, Readable l) :
    CalmP t k (loadWordTagL k data : Co PWorld α Unit) := (setPos_calm t k (fun _ => [])).bind (loadTagsL_calm t k _ h)

theorem initPosL_good (P : PSys F) (t k : Nat) (io : Bool) (p : PWorld) (hp : Fit t k p) (data : Bytes)
    (hd : dictFile p.w (p.w.tok t).dictionary = .ok data) (hl : ∀ l ∈ fileLines data, Readable l) :
    GoodP t (fun _ p' => Fit t k p') (initPosL P k io : Co PWorld α Unit) p Lazy.nil := by
  unfold initPosL
  refine GoodP.get_bind (fun p1 h1 => ?_)
  have hp1 := hp.tame h1
  rw [hp1.2]
  have s1 : SameFiles t p.w p1.w := (h1.1 hp.1).2.2
  have hstep : GoodP t (fun _ p' => Fit t k p' ∧ SameFiles t p.w p'.w)
      (.act (fun p => { p with w := (initTok P.sys p.w t none io).1 }) (fun p => Co.lift (initTok P.sys p.w t none io).2) : Co PWorld α Unit)
      p1 Lazy.nil := by
    intro p2 h2 hw2
    have hp2 := hp1.tame h2
    simp only [initTok_of_init P.sys p2.w t io hw2.init]
    exact ⟨TameP.refl t p2, Lazy.nil, ⟨⟨hp2, s1.trans (h2.1 hp1.1).2.2⟩, fun _ h => h⟩, fun u hu => hu.elim, fun u hu hn => absurd hu hn⟩
  refine hstep.bind ?_
  rintro - p3 ⟨hp3, s3⟩
  refine GoodP.get_bind (fun p4 h4 => ?_)
  have hp4 := hp3.tame h4
  have s4 := s3.trans (h4.1 hp3.1).2.2
  rw [hp4.2]
  refine GoodP.get_bind (fun p5 h5 => ?_)
  have hp5 := hp4.tame h5
  have s5 := s4.trans (h5.1 hp4.1).2.2
  rw [dictFile_same s5, hd]
  exact loadWordTagL_calm t k data hl p5 hp5

/-! ## Where tags come from -/

/-- `c` leaves only known tags behind and yields values as described by `E`, if files stay as they are in `w0`. -/
def KeepsI (t : Nat) (w0 : World) (ks : Nat → Prop) (K : Str → Str → Prop) (E : α → Prop) : Co PWorld α β → Prop
  | .ret _ => True
  | .raise _ => True
  | .yield a k => E a ∧ KeepsI t w0 ks K E k
  | .act f k => ∀ p, Healthy t p.w → SameFiles t w0 p.w → TagsInP t ks K p → TagsInP t ks K (f p) ∧ KeepsI t w0 ks K E (k p)

variable {t : Nat} {w0 : World} {ks : Nat → Prop} {K : Str → Str → Prop} {E : α → Prop}

theorem KeepsP.toI {c : Co PWorld α β} (h : KeepsP t w0.files ks K E c) : KeepsI t w0 ks K E c := by
  induction c with
  | ret b => trivial
  | raise e => trivial
  | yield a k ih => exact ⟨h.1, ih h.2⟩
  | act f k ih => exact fun p h1 h2 h3 => ⟨(h p h1 h2.1 h3).1, ih p (h p h1 h2.1 h3).2⟩

theorem KeepsI.bind {c : Co PWorld α β} {g : β → Co PWorld α γ} (hc : KeepsI t w0 ks K E c) (hg : ∀ b, KeepsI t w0 ks K E (g b)) :
    KeepsI t w0 ks K E (c >>= g) := by
  rw [bind_def]
  induction c with
  | ret b => exact hg b
  | raise e => trivial
  | yield a k ih => exact ⟨hc.1, ih hc.2⟩
  | act f k ih => exact fun p h1 h2 h3 => ⟨(hc p h1 h2 h3).1, ih p (hc p h1 h2 h3).2⟩

theorem KeepsI.get_bind {f : PWorld → β} {g : β → Co PWorld α γ}
    (h : ∀ p, SameFiles t w0 p.w → TagsInP t ks K p → KeepsI t w0 ks K E (g (f p))) :
    KeepsI t w0 ks K E (Co.get f >>= g) := fun p _ h2 h3 => ⟨h3, h p h2 h3⟩

theorem setPos_keeps (k : Nat) (f : PWorld → PyDict Str Str)
    (hf : ∀ p, TagsInP t ks K p → ∀ x ∈ f p, K x.1 x.2) :
    KeepsI t w0 ks K E (.act (fun p => p.setPos k ⟨(p.pos k).tok, f p⟩) (fun _ => .ret ()) : Co PWorld α Unit) := by
  intro p _ _ h3
  refine ⟨⟨h3.1, fun j hj => ?_⟩, trivial⟩
  by_cases hjk : j = k
  · subst hjk
    simp only [PWorld.setPos, if_true]
    exact ⟨(h3.2 j hj).1, hf p h3⟩
  · simp only [PWorld.setPos, if_neg hjk]
    exact h3.2 j hj

theorem loadTagsL_keeps (k : Nat) (hk : ks k) (ls : List Bytes) (hK : ∀ l ∈ ls, ∀ u g, TagEntry l u g → K u g) :
    KeepsI t w0 ks K E (loadTagsL k ls : Co PWorld α Unit) := by
  induction ls with
  | nil => trivial
  | cons l ls ih =>
    have ih := ih (fun x hx => hK x (List.mem_cons_of_mem _ hx))
    unfold loadTagsL
    split
    · trivial
    · exact ih
    · next w g hl =>
      refine (setPos_keeps k _ (fun p hp x hx => ?_)).bind (fun _ => ih)
      rcases mem_set hx with rfl | hx
      · exact hK l (by simp) w g ((tagEntry_iff l w g).mpr hl)
      · exact (hp.2 k hk).2 x hx

theorem initPosL_keeps (P : PSys F) (k : Nat) (hk : ks k) (io : Bool)
    (hK : ∀ ls, DictLines t w0 ls → ∀ l ∈ ls, ∀ u g, TagEntry l u g → K u g) :
    KeepsI t w0 ks K E (initPosL P k io : Co PWorld α Unit) := by
  unfold initPosL
  refine KeepsI.get_bind (fun p1 _ h1 => ?_)
  rw [(h1.2 k hk).1]
  refine KeepsI.bind ?_ (fun _ => KeepsI.get_bind (fun p2 _ h2 => ?_))
  · intro p hp _ h3
    simp only [initTok_of_init P.sys p.w t io hp.init]
    exact ⟨h3, trivial⟩
  · rw [(h2.2 k hk).1]
    refine KeepsI.get_bind (fun p3 hs h3 => ?_)
    rw [dictFile_same hs]
    cases hd : dictFile w0 (w0.tok t).dictionary with
    | error e => trivial
    | ok data =>
      refine (setPos_keeps k (fun _ => []) (fun p hp x hx => by simp at hx)).bind (fun _ => loadTagsL_keeps k hk _ (fun l hl => ?_))
      exact hK _ ((dictLines_iff hd _).mpr rfl) l hl

/-- Known tags only, and what the calls have yielded and what they have still to do is as it should be. -/
structure IKnown (t : Nat) (w0 : World) (ks : Nat → Prop) (K : Str → Str → Prop) (E : Nat → Yield → Prop) (p : PPool) : Prop where
  files : SameFiles t w0 p.p.w
  tags : TagsInP t ks K p.p
  todo : ∀ i, KeepsI t w0 ks K (E i) (p.th i)
  done : ∀ i, ∀ a ∈ p.out i, E i a

theorem iknown_step {B : Prop} {Q : Nat → Option Int → PWorld → Prop} {E : Nat → Yield → Prop} (p : PPool) (i : Nat) (hp : PPoolInv t B Q p)
    (h : IKnown t w0 ks K E p) : IKnown t w0 ks K E (p.step i) := by
  have hT := (ppoolInv_step t B Q p i hp).2
  have hfiles := (hT.1 hp.healthy).2.2
  obtain ⟨h1, h2, h3, h4⟩ := h
  unfold PPool.step at *
  split
  · exact ⟨h1, h2, h3, h4⟩
  · exact ⟨h1, h2, h3, h4⟩
  · next a k hk =>
    have hi := h3 i
    rw [hk] at hi
    refine ⟨h1, h2, fun j => ?_, fun j b hb => ?_⟩
    · dsimp only
      split
      · next hj => subst hj; exact hi.2
      · exact h3 j
    · dsimp only at hb
      split at hb
      · next hj =>
        subst hj
        rcases List.mem_append.mp hb with hb | hb
        · exact h4 j b hb
        · simp only [List.mem_singleton] at hb; subst hb; exact hi.1
      · exact h4 j b hb
  · next f k hk =>
    have hi := h3 i
    rw [hk] at hi
    obtain ⟨g1, g2⟩ := hi p.p hp.healthy h1 h2
    rw [hk] at hfiles
    refine ⟨h1.trans hfiles, g1, fun j => ?_, h4⟩
    dsimp only
    split
    · next hj => subst hj; exact g2
    · exact h3 j

theorem iknown_run {B : Prop} {Q : Nat → Option Int → PWorld → Prop} {E : Nat → Yield → Prop} (p : PPool) (sched : List Nat)
    (hp : PPoolInv t B Q p) (h : IKnown t w0 ks K E p) : IKnown t w0 ks K E (p.run sched) := by
  unfold PPool.run
  induction sched generalizing p with
  | nil => exact h
  | cons i l ih => exact ih _ (ppoolInv_step t B Q p i hp).1 (iknown_step p i hp h)

end Jieba.Pos.Steps
