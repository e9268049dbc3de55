import Verif.Proofs.Posseg
import Verif.Proofs.World
import Verif.Proofs.Cut
import Verif.Proofs.PosData
import Verif.Model.PosWorld
/-!
# Segmentation loses nothing in any state of the process

Whether or not the tokenizer has been initialised, and whether or not initialising succeeds.
-/

namespace Jieba
open Jieba.Spec

variable {F : Type _} [LinearOrder F]

theorem split_uniform (p : Ch → Bool) (s : Str) (b : Str) (hb : b ∈ (RE.grp 1 (.plus p)).split s) (hne : b ≠ []) :
    (∀ c ∈ b, p c = true) ∨ (∀ c ∈ b, p c = false) := by
  have : b ∈ chunks p s := by
    rw [← split_plus_chunks]
    exact List.mem_filter.mpr ⟨hb, by simpa using hne⟩
  exact chunks_uniform p s b this

theorem cutBlocksW_lossless (S : Sys F) (t : Nat) (hm io : Bool) (blks : List Str) (w : World) :
    Lossless (cutBlocksW S t false hm io w blks).2 blks.flatten := by
  induction blks generalizing w with
  | nil => exact Lossless.ok ⟨rfl, by simp⟩
  | cons b blks ih =>
    unfold cutBlocksW
    rw [List.flatten_cons]
    by_cases hb : b = []
    · rw [if_pos hb, hb]; exact ih w
    · rw [if_neg hb]
      by_cases hm' : reHanDefault.isMatch b = true
      · rw [if_pos hm']
        obtain ⟨⟨w', r⟩, hc⟩ : ∃ x, checkInit S w t io = x := ⟨_, rfl⟩
        rw [hc]
        cases r with
        | error e => exact Lossless.raise e _
        | ok u =>
          simp only []
          have hg : Lossless (cutBlock (w'.env S t) false hm b) b := by
            cases hm
            · exact cutDAGNoHMM_lossless _ _ _ _
            · exact cutDAG_lossless _ _ _ _ (fun s _ => hmm_lossless _ s) _
          have ha := hg.andThen (ih w')
          cases he : (cutBlock (w'.env S t) false hm b).err with
          | some e => simp only []; unfold Gen.andThen at ha; rw [he] at ha; exact ha
          | none => simp only []; exact ha
      · rw [if_neg hm', cutSkip_false]
        exact (Lossless.ok (charTokens_flatten b)).andThen (ih w)

/-- `cut` outside full mode, in every state of the process. -/
theorem cutW_lossless (S : Sys F) (w : World) (t : Nat) (hm : Bool) (s : PyText) (io : Bool) :
    Lossless (cutW S w t false hm s io).2 (strdecode S.gbk s) := by
  have := cutBlocksW_lossless S t hm io (reHanDefault.split (strdecode S.gbk s)) w
  rwa [show (reHanDefault.split (strdecode S.gbk s)).flatten = strdecode S.gbk s from RE.split_flatten _ rfl _] at this

namespace Pos

theorem cutBlocksPW_lossless (P : PSys F) (k : Nat) (hm io : Bool)
    (hd : hm = true → ∀ (p : PWorld) b, ∃ ws, words (cutDetail (p.env P k) b) = Gen.ok ws ∧ IsSegmentation ws b)
    (blks : List Str) (hu : ∀ b ∈ blks, b ≠ [] → (∀ c ∈ b, isWordChPos c = true) ∨ (∀ c ∈ b, isWordChPos c = false))
    (p : PWorld) : Lossless (words (cutBlocksPW P k hm io p blks).2) blks.flatten := by
  induction blks generalizing p with
  | nil => exact Lossless.ok (ws := []) ⟨rfl, by simp⟩
  | cons b blks ih =>
    have ih := ih (fun b hb => hu b (List.mem_cons_of_mem _ hb))
    unfold cutBlocksPW
    rw [List.flatten_cons]
    have hmatch := isMatch_plus isWordChPos 1 b
    by_cases hm' : reHanInternal.isMatch b = true
    · rw [if_pos hm']
      obtain ⟨⟨w', r⟩, hc⟩ : ∃ x, checkInit P.sys p.w (p.pos k).tok io = x := ⟨_, rfl⟩
      rw [hc]
      cases r with
      | error e => exact Lossless.raise e _
      | ok u =>
        simp only []
        have hb : ∀ c ∈ b, isWordChPos c = true := by
          cases b with
          | nil => simp
          | cons c u =>
            rcases hu (c :: u) List.mem_cons_self (by simp) with h | h
            · exact h
            · have h1 := h c List.mem_cons_self
              have h2 : isWordChPos c = true := by rw [← hm']; exact hmatch.symm
              rw [h1] at h2; cases h2
        have hg := cutBlock_lossless (({ p with w := w' } : PWorld).env P k) hm (fun h b => hd h _ b) b hb
        have ha := hg.andThen (ih { p with w := w' })
        cases he : (cutBlock (({ p with w := w' } : PWorld).env P k) hm b).err with
        | some e =>
          simp only []
          unfold Gen.andThen at ha
          rw [show (words (cutBlock (({ p with w := w' } : PWorld).env P k) hm b)).err = some e from he] at ha
          exact ha
        | none =>
          simp only []
          rw [words_andThen]; exact ha
    · rw [if_neg hm', words_andThen]
      have hs : cutSkip b = (charTokens b).map (fun w => (w, flagX)) := by
        apply cutSkip_eq
        cases b with
        | nil => simp
        | cons c u =>
          rcases hu (c :: u) List.mem_cons_self (by simp) with h | h
          · exact absurd (hmatch.trans (h c List.mem_cons_self)) hm'
          · exact h
      rw [hs, words_ok, List.map_map]
      have : Lossless (Gen.ok ((charTokens b).map (Prod.fst ∘ fun w => (w, flagX)))) b := by
        rw [show (Prod.fst ∘ fun w : Str => (w, flagX)) = id from rfl, List.map_id]
        exact Lossless.ok (charTokens_flatten b)
      exact this.andThen (ih p)

/-- `posseg.cut` with the shipped state tables, in every state of the process. -/
theorem cutPW_lossless (P : PSys F) (hT : PosData.Shipped P.tables) (hσ : ∀ s t l, (P.σ s t l).Perm l) (p : PWorld) (k : Nat)
    (hm : Bool) (s : PyText) (io : Bool) :
    Lossless (words (cutPW P p k hm s io).2) (strdecode P.sys.gbk s) := by
  have := cutBlocksPW_lossless P k hm io
    (fun _ p b => cutDetail_spec (p.env P k) (PosData.shipped_ok _ hT) (PosData.shipped_bmes _ hT) hσ b)
    (reHanInternal.split (strdecode P.sys.gbk s)) (split_uniform _ _) (moveTags p k)
  rwa [show (reHanInternal.split (strdecode P.sys.gbk s)).flatten = strdecode P.sys.gbk s from RE.split_flatten _ rfl _] at this

end Pos
end Jieba
