import Verif.Proofs.LazyRely
import Mathlib.Data.List.SplitBy
/-!
# One look at the dictionary per run of word characters
-/

set_option linter.unusedSectionVars false

namespace Jieba
open Jieba.Spec

theorem chunks_eq_splitBy (p : Ch → Bool) (s : Str) : chunks p s = s.splitBy (fun a b => p a == p b) := by
  symm
  rw [List.splitBy_eq_iff]
  refine ⟨(chunks_flatten p s).symm, fun h => chunks_ne_nil p s [] h rfl, ?_, ?_⟩
  · intro b hb
    have : ∀ x ∈ b, ∀ y ∈ b, (p x == p y) = true := by
      intro x hx y hy
      rcases chunks_uniform p s b hb with h | h <;> simp [h x hx, h y hy]
    clear hb
    induction b with
    | nil => exact List.IsChain.nil
    | cons a b ih =>
      cases b with
      | nil => exact List.IsChain.singleton _
      | cons c b =>
        refine List.IsChain.cons_cons (this a (by simp) c (by simp)) (ih ?_)
        intro x hx y hy
        exact this x (List.mem_cons_of_mem _ hx) y (List.mem_cons_of_mem _ hy)
  · induction s with
    | nil => exact List.IsChain.nil
    | cons c s ih =>
      rcases chunks_cons p c s with ⟨-, h⟩ | ⟨d, b, bs, h1, h2⟩
      · rw [h]; exact List.IsChain.singleton _
      · rw [h1] at ih
        rw [h2]
        split
        · next hcd =>
          cases bs with
          | nil => exact List.IsChain.singleton _
          | cons e bs =>
            obtain ⟨⟨ha, hb, h⟩, ih'⟩ := List.isChain_cons_cons.mp ih
            refine List.IsChain.cons_cons ⟨by simp, hb, ?_⟩ ih'
            rw [List.getLast_cons (by simp)]
            exact h
        · next hcd =>
          exact List.IsChain.cons_cons ⟨by simp, by simp, by simpa using hcd⟩ ih

variable {F : Type} [LinearOrder F]

theorem cut_word_run (E : Env F) (ca hm : Bool) (b : Str) (hb : b ≠ []) (h : ∀ c ∈ b, isWordCh c = true) :
    cut E ca hm b = cutBlock E ca hm b := by
  rw [cut_eq_scan]
  have := scan_word isWordCh (cutBlock E ca hm) (fun b => Gen.ok (cutSkip ca b)) b [] hb h (by simp)
  rw [List.append_nil] at this
  rw [this, scan_nil, Gen.andThen_ok_nil]

theorem cut_other_run (E : Env F) (ca hm : Bool) (b : Str) (hb : b ≠ []) (h : ∀ c ∈ b, isWordCh c = false) :
    cut E ca hm b = Gen.ok (cutSkip ca b) := by
  rw [cut_eq_scan]
  have := scan_nonword isWordCh (cutBlock E ca hm) (fun b => Gen.ok (cutSkip ca b)) b [] hb h (by simp)
  rw [List.append_nil] at this
  rw [this, scan_nil, Gen.andThen_ok_nil]

namespace Lazy
open Co

theorem cutBlocksL_filter (S : Sys F) (t : Nat) (ca hm io : Bool) (blks : List Str) :
    cutBlocksL S t ca hm io blks = cutBlocksL S t ca hm io (blks.filter (fun x => x ≠ [])) := by
  induction blks with
  | nil => rfl
  | cons b blks ih =>
    by_cases hb : b = []
    · rw [List.filter_cons_of_neg (by simpa using hb), ← ih, cutBlocksL, if_pos hb]
    · rw [List.filter_cons_of_pos (by simpa using hb), cutBlocksL, cutBlocksL, if_neg hb, if_neg hb, ih]

theorem drive_blocks (S : Sys F) (t : Nat) (ca hm io : Bool) (h : ca = true ∨ hm = false) (μ : Nat → World → World) (blks : List Str)
    (hu : ∀ b ∈ blks, b ≠ [] ∧ ((∀ c ∈ b, isWordCh c = true) ∨ (∀ c ∈ b, isWordCh c = false))) (n : Nat) (w : World)
    (hok : (drive μ (cutBlocksL S t ca hm io blks) n w).2.2 = .ok ()) :
    ∃ snaps : List World, snaps.length = blks.length ∧
      (drive μ (cutBlocksL S t ca hm io blks) n w).2.1 =
        (List.zipWith (fun v b => (cut (v.env S t) ca hm b).out) snaps blks).flatten ∧
      ∀ p ∈ snaps.zip blks, (∀ c ∈ p.2, isWordCh c = true) → (p.1.tok t).initialized = true := by
  induction blks generalizing n w with
  | nil => exact ⟨[], rfl, rfl, by simp⟩
  | cons b blks ih =>
    have hub := hu b List.mem_cons_self
    have ih' := ih (fun b hb => hu b (List.mem_cons_of_mem _ hb))
    unfold cutBlocksL at hok ⊢
    rw [if_neg hub.1] at hok ⊢
    rcases hub.2 with hw | hw
    · have hm' : reHanDefault.isMatch b = true := by
        cases b with
        | nil => exact absurd rfl hub.1
        | cons c b => simp only [reHanDefault, isMatch_plus]; exact hw c (by simp)
      simp only [hm', if_true] at hok ⊢
      rw [bind_def, drive_bind] at hok ⊢
      have hb := drive_cutBlockL S t ca hm io h b μ n w
      generalize drive μ (cutBlockL S t ca hm io b) n w = d at hb hok ⊢
      obtain ⟨w1, l, r⟩ := d
      cases r with
      | error e => simp at hok
      | ok u =>
        simp only [] at hok ⊢ hb
        obtain ⟨snaps, h1, h2, h3⟩ := ih' _ _ hok
        rcases checkInit_prim S ⟨fun _ _ _ _ _ => True, fun _ => True, fun _ _ => True, fun _ => True, fun _ => True⟩ w t io with ⟨e, hc, -⟩ | ⟨w', hc, hi, -⟩
        · rw [hc] at hb; simp [errOf] at hb
        · rw [hc] at hb
          refine ⟨w' :: snaps, by simp [h1], ?_, ?_⟩
          · rw [h2, hb.1, List.zipWith_cons_cons, List.flatten_cons, cut_word_run _ _ _ _ hub.1 hw]
          · intro p hp hpw
            rw [List.zip_cons_cons] at hp
            rcases List.mem_cons.mp hp with rfl | hp
            · exact hi
            · exact h3 p hp hpw
    · have hm' : reHanDefault.isMatch b = false := by
        cases b with
        | nil => exact absurd rfl hub.1
        | cons c b => simp only [reHanDefault, isMatch_plus]; exact hw c (by simp)
      simp only [hm', Bool.false_eq_true, if_false] at hok ⊢
      have hy := drive_yieldAll_out (α := Str) μ (cutSkip ca b) n w
      rw [bind_def, drive_bind] at hok ⊢
      generalize drive μ (Co.yieldAll (cutSkip ca b) : Co World Str Unit) n w = d at hy hok ⊢
      obtain ⟨w1, l, r⟩ := d
      simp only [Prod.mk.injEq] at hy
      obtain ⟨rfl, rfl⟩ := hy
      simp only [] at hok ⊢
      obtain ⟨snaps, h1, h2, h3⟩ := ih' _ _ hok
      refine ⟨w :: snaps, by simp [h1], ?_, ?_⟩
      · rw [h2, List.zipWith_cons_cons, List.flatten_cons, cut_other_run _ _ _ _ hub.1 hw]; rfl
      · intro p hp hpw
        rw [List.zip_cons_cons] at hp
        rcases List.mem_cons.mp hp with rfl | hp
        · obtain ⟨c, hc⟩ := List.exists_mem_of_ne_nil _ hub.1
          have := hpw c hc
          rw [hw c hc] at this
          exact Bool.noConfusion this
        · exact h3 p hp hpw

/-- Every maximal run of word characters, and every maximal run of other characters, is cut as in one state. -/
theorem drive_cutL_snapshots (S : Sys F) (t : Nat) (ca hm io : Bool) (h : ca = true ∨ hm = false) (μ : Nat → World → World)
    (s : PyText) (w : World) (hok : (drive μ (cutL S t ca hm s io) 0 w).2.2 = .ok ()) :
    ∃ snaps : List World,
      snaps.length = ((strdecode S.gbk s).splitBy (fun a b => isWordCh a == isWordCh b)).length ∧
      (drive μ (cutL S t ca hm s io) 0 w).2.1 =
        (List.zipWith (fun v b => (cut (v.env S t) ca hm b).out) snaps
          ((strdecode S.gbk s).splitBy (fun a b => isWordCh a == isWordCh b))).flatten ∧
      ∀ p ∈ snaps.zip ((strdecode S.gbk s).splitBy (fun a b => isWordCh a == isWordCh b)),
        (∀ c ∈ p.2, isWordCh c = true) → (p.1.tok t).initialized = true := by
  unfold cutL at hok ⊢
  rw [cutBlocksL_filter] at hok ⊢
  rw [reHanDefault, split_plus_chunks] at hok ⊢
  rw [← chunks_eq_splitBy]
  exact drive_blocks S t ca hm io h μ _ (fun b hb => ⟨chunks_ne_nil _ _ b hb, chunks_uniform _ _ b hb⟩) 0 w hok

/-- A text of word characters only: what the caller does once the first token has been yielded has no effect. -/
theorem drive_cutL_word (S : Sys F) (t : Nat) (ca hm io : Bool) (h : ca = true ∨ hm = false) (μ : Nat → World → World)
    (s : PyText) (w : World) (hs : ∀ c ∈ strdecode S.gbk s, isWordCh c = true) :
    (drive μ (cutL S t ca hm s io) 0 w).2.1 = (cutW S w t ca hm s io).2.out ∧
    errOf (drive μ (cutL S t ca hm s io) 0 w).2.2 = (cutW S w t ca hm s io).2.err := by
  rw [← sem_cutL]
  unfold cutL sem
  rw [cutBlocksL_filter, reHanDefault, split_plus_chunks]
  by_cases hne : strdecode S.gbk s = []
  · rw [hne]; exact ⟨rfl, rfl⟩
  rw [chunks_of_uniform _ _ hne true hs]
  have hm' : reHanDefault.isMatch (strdecode S.gbk s) = true := by
    revert hs hne
    cases strdecode S.gbk s with
    | nil => intro _ h; exact absurd rfl h
    | cons c b => intro hs _; simp only [reHanDefault, isMatch_plus]; exact hs c (by simp)
  unfold cutBlocksL
  rw [if_neg hne]
  simp only [hm', if_true]
  have h1 := drive_cutBlockL S t ca hm io h (strdecode S.gbk s) μ 0 w
  have h2 := drive_cutBlockL S t ca hm io h (strdecode S.gbk s) (fun _ w => w) 0 w
  rw [bind_def, drive_bind, drive_bind]
  rw [← h2.1, ← h2.2] at h1
  revert h1
  generalize drive μ (cutBlockL S t ca hm io (strdecode S.gbk s)) 0 w = a
  generalize drive (fun _ w => w) (cutBlockL S t ca hm io (strdecode S.gbk s)) 0 w = b
  obtain ⟨w1, l1, r1⟩ := a
  obtain ⟨w2, l2, r2⟩ := b
  cases r1 <;> cases r2 <;> simp [errOf, cutBlocksL, drive]

end Lazy
end Jieba
