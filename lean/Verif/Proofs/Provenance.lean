import Verif.Props.Segmentation
/-!
# Where tokens of HMM segmentation come from
-/

set_option linter.unusedSectionVars false

namespace Jieba
open Jieba.Spec Jieba.Props

variable {F : Type _} [LinearOrder F]

theorem seg_chars {ws : List Str} {s : Str} (h : IsSegmentation ws s) (w : Str) (hw : w ∈ ws) : ∀ c ∈ w, c ∈ s := by
  intro c hc
  rw [← h.1]
  exact List.mem_flatten.mpr ⟨w, hw, hc⟩

/-- A token of `finalseg.cut`: only Han characters and not in the force-split set, or a single character, or no Han
character at all. -/
theorem finalseg_provenance (A : Arith F) (T : FinalSeg.Tables F) (force : List Str) (s : Str) :
    ∀ w ∈ (FinalSeg.cut A T force s).out,
      ((∀ c ∈ w, isHan c = true) ∧ w ∉ force) ∨ w.length = 1 ∨ ∀ c ∈ w, isHan c = false := by
  intro w hw
  unfold FinalSeg.cut at hw
  rw [show reHan = .grp 1 (.plus isHan) from rfl] at hw
  rw [forEach_split_plus isHan s _ (by rw [if_neg (by rw [isMatch_plus]; simp)]; rfl)] at hw
  obtain ⟨b, hb, h⟩ := forEach_out_mem _ _ _ hw
  have hne := chunks_ne_nil isHan s b hb
  by_cases hm : (RE.grp 1 (.plus isHan)).isMatch b = true
  · rw [if_pos hm] at h
    obtain ⟨ws, h1, h2⟩ := FinalSeg.hmmCut_spec A T b hne
    rw [h1] at h
    simp only [Gen.mapOut, Gen.ok_out, List.mem_flatMap] at h
    obtain ⟨v, hv, hw⟩ := h
    have hu : ∀ c ∈ b, isHan c = true := by
      rcases chunks_uniform isHan s b hb with hu | hu
      · exact hu
      · exfalso
        rw [isMatch_eq_any isHan 1 b hne (Or.inr hu)] at hm
        obtain ⟨c, hc, h'⟩ := List.any_eq_true.mp hm
        rw [hu c hc] at h'; exact Bool.noConfusion h'
    split at hw
    · next hf =>
      simp at hw; subst hw
      left
      exact ⟨fun c hc => hu c (seg_chars h2 w hv c hc), hf⟩
    · simp at hw; obtain ⟨a, -, rfl⟩ := hw; right; left; rfl
  · rw [if_neg hm] at h
    right; right
    have hu : ∀ c ∈ b, isHan c = false := by
      rcases chunks_uniform isHan s b hb with hu | hu
      · exfalso
        rw [isMatch_eq_any isHan 1 b hne (Or.inl hu)] at hm
        apply hm
        cases b with
        | nil => exact absurd rfl hne
        | cons c u => simp [hu c (by simp)]
      · exact hu
    simp at h
    intro c hc
    apply hu
    have : (reSkipFinal.split b).flatten = b := RE.split_flatten _ rfl b
    rw [← this]
    exact List.mem_flatten.mpr ⟨w, h.1, hc⟩

theorem regroup_mem (freq : Freq) (hmm : Str → Gen Str) (ws : List Str) (buf : Str) :
    ∀ w ∈ (regroup freq hmm buf ws).out, w ∈ ws ∨ w.length = 1 ∨ ∃ u, w ∈ (hmm u).out := by
  have hflush : ∀ buf, ∀ w ∈ (flushBuf freq hmm buf).out, w.length = 1 ∨ ∃ u, w ∈ (hmm u).out := by
    intro buf w hw
    unfold flushBuf at hw
    split at hw
    · simp at hw
    split at hw
    · next h => simp at hw; subst hw; exact Or.inl h
    split at hw
    · exact Or.inr ⟨buf, hw⟩
    · simp at hw; obtain ⟨c, -, rfl⟩ := hw; exact Or.inl rfl
  induction ws generalizing buf with
  | nil => intro w hw; exact Or.inr (hflush buf w hw)
  | cons v ws ih =>
    intro w hw
    unfold regroup at hw
    split at hw
    · rcases ih _ w hw with h | h
      · left; simp [h]
      · right; exact h
    · unfold Gen.andThen at hw
      split at hw
      · right; exact hflush buf w hw
      · simp only [Gen.ok_err, Gen.ok_out] at hw
        rcases List.mem_append.mp hw with h | h
        · right; exact hflush buf w h
        · rcases List.mem_append.mp h with h | h
          · simp at h; subst h; left; simp
          · rcases ih _ w h with h | h
            · left; simp [h]
            · right; exact h

/-- Tokens of `cut(text, HMM=True)`. -/
theorem hmm_provenance (E : Env F) (s : Str) :
    ∀ w ∈ (cut E false true s).out,
      DictWord E.freq w ∨ w.length = 1 ∨ w = [0x0D, 0x0A] ∨ ((∀ c ∈ w, isHan c = true) ∧ w ∉ E.force) ∨
        ∀ c ∈ w, isHan c = false := by
  intro w hw
  rw [cut_accurate_eq_scan] at hw
  obtain ⟨b, -, -, ⟨-, h⟩ | ⟨-, h⟩⟩ := scan_out_mem _ _ _ _ _ hw
  · unfold cutBlock cutDAG at h
    simp only [Bool.false_eq_true, if_false, if_true] at h
    cases hr : calcRoute E.A E.freq E.total b (getDAG E.freq b) with
    | error e => rw [hr] at h; simp at h
    | ok route =>
      rw [hr] at h
      simp only [Gen.ofExcept_ok] at h
      rw [dagCutLoop_eq _ _ b route (routeWF_of_calc _ _ _ _ _ hr) _ _ _ (by omega)] at h
      rcases regroup_mem _ _ _ _ w h with h | h | ⟨u, h⟩
      · rcases pathFrom_mem _ _ _ _ _ hr _ _ w h with h | h
        · exact Or.inl h
        · exact Or.inr (Or.inl h)
      · exact Or.inr (Or.inl h)
      · rcases finalseg_provenance E.A E.tables E.force u w h with h | h | h
        · exact Or.inr (Or.inr (Or.inr (Or.inl h)))
        · exact Or.inr (Or.inl h)
        · exact Or.inr (Or.inr (Or.inr (Or.inr h)))
  · rcases charTokens_mem b w h with h | h
    · exact Or.inr (Or.inl h)
    · exact Or.inr (Or.inr (Or.inl h))

/-- A word with a Han character and more than one character that is neither in the dictionary nor allowed by the
force-split set is never output in accurate mode. -/
theorem not_output (E : Env F) (hm : Bool) (s w : Str) (h1 : ¬ DictWord E.freq w) (h2 : w ∈ E.force)
    (hl : 2 ≤ w.length) (hh : ∃ c ∈ w, isHan c = true) : w ∉ (cut E false hm s).out := by
  intro hw
  obtain ⟨c, hc, hcH⟩ := hh
  cases hm with
  | false =>
    rcases C03_no_hmm_token_provenance E s w hw with h | h | h | ⟨-, h⟩
    · exact h1 h
    · omega
    · subst h; simp at hc; rcases hc with rfl | rfl <;> simp [isHan] at hcH
    · have := h c hc
      simp [isAlnum, isLower, isUpper, isDigit, isHan] at this hcH
      unfold Ch at *
      omega
  | true =>
    rcases hmm_provenance E s w hw with h | h | h | ⟨-, h⟩ | h
    · exact h1 h
    · omega
    · subst h; simp at hc; rcases hc with rfl | rfl <;> simp [isHan] at hcH
    · exact h h2
    · rw [h c hc] at hcH; exact Bool.noConfusion hcH

end Jieba
