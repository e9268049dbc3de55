import Verif.Spec.Tagged
import Verif.Proofs.Posseg
import Verif.Proofs.Path
/-!
# Helper lemmas: which tags the words of a block get
-/

set_option linter.unusedSectionVars false

namespace Jieba.Pos
open Jieba Jieba.Spec

variable {F : Type _} [LinearOrder F]

theorem reEng1_letter (w : Str) (h : (0x0A : Ch) ∉ w) : reEng1.isMatch w = true ↔ IsLetter w := by
  rw [reEng1_isMatch w h]
  unfold reEng IsLetter
  rw [isMatch_cls]
  match w with
  | [] => simp
  | [c] => simp
  | c :: d :: w => simp

/-- Pairs for a run of single letters. -/
def engRun (r : List Str) (qs : List Pair) : Prop := qs = [(r.flatten, flagEng)]

theorem flatten_ne_nil_of_letters (r : List Str) (hr : r ≠ []) (h : ∀ w ∈ r, w ≠ []) : r.flatten ≠ [] := by
  cases r with
  | nil => exact absurd rfl hr
  | cons w r => simp [h w (by simp)]

theorem noHmmLoop_tagged (tab : PyDict Str Str) (s : Str) (hs : (0x0A : Ch) ∉ s) (route : List (F × Nat))
    (hr : RouteWF s route) (fuel x : Nat) (hf : s.length - x ≤ fuel) :
    ∀ r : List Str, (∀ w ∈ r, IsLetter w) → ∃ ts, noHmmLoop tab s route fuel x r.flatten = Gen.ok ts ∧
      Tagged IsLetter (tagOf tab) engRun (r ++ pathFrom s route fuel x) ts := by
  have hend : ∀ r : List Str, (∀ w ∈ r, IsLetter w) →
      Tagged IsLetter (tagOf tab) engRun r (if r.flatten = [] then [] else [(r.flatten, flagEng)]) := by
    intro r h
    by_cases hr : r = []
    · subst hr; exact .nil
    · rw [if_neg (flatten_ne_nil_of_letters r hr (by intro w hw; obtain ⟨c, rfl, -⟩ := h w hw; simp))]
      have := Tagged.run (tag := tagOf tab) (R := engRun) r [] _ _ hr h (by simp) rfl .nil
      simpa using this
  induction fuel generalizing x with
  | zero =>
    intro r h
    exact ⟨_, rfl, by simpa [pathFrom] using hend r h⟩
  | succ fuel ih =>
    intro r h
    unfold noHmmLoop pathFrom
    by_cases hx : x < s.length
    · rw [if_pos hx, if_pos hx]
      obtain ⟨e, h1, h2, h3⟩ := hr x hx
      rw [h1]
      simp only []
      have hnl : (0x0A : Ch) ∉ slice s x (e.2 + 1) := fun h => hs (mem_of_mem_slice _ _ _ _ h)
      by_cases hm : reEng1.isMatch (slice s x (e.2 + 1)) = true
      · rw [if_pos hm]
        have hl := (reEng1_letter _ hnl).mp hm
        obtain ⟨ts, g1, g2⟩ := ih (e.2 + 1) (by omega) (r ++ [slice s x (e.2 + 1)]) (by
          intro w hw
          rcases List.mem_append.mp hw with hw | hw
          · exact h w hw
          · simp at hw; subst hw; exact hl)
        exact ⟨ts, by simpa using g1, by simpa using g2⟩
      · rw [if_neg hm]
        have hl : ¬ IsLetter (slice s x (e.2 + 1)) := fun hl => hm ((reEng1_letter _ hnl).mpr hl)
        obtain ⟨ts, g1, g2⟩ := ih (e.2 + 1) (by omega) [] (by simp)
        simp only [List.flatten_nil] at g1
        rw [g1]
        refine ⟨_, rfl, ?_⟩
        have hw := Tagged.word (tag := tagOf tab) (R := engRun) _ _ _ hl (by simpa using g2)
        by_cases hr0 : r = []
        · subst hr0
          simpa using hw
        · rw [if_neg (flatten_ne_nil_of_letters r hr0 (by intro w hw; obtain ⟨c, rfl, -⟩ := h w hw; simp))]
          have := Tagged.run (tag := tagOf tab) (R := engRun) r _ _ _ hr0 h (by intro w hw'; simp at hw'; subst hw'; exact hl) rfl hw
          simpa using this
    · rw [if_neg hx, if_neg hx]
      exact ⟨_, rfl, by simpa using hend r h⟩

/-- Pairs for a run of single characters: one character alone gets its tag; a longer run that is a dictionary word is output
character by character with tags; any other is up to the HMM. -/
def charRun (freq : Freq) (tag : Str → Str) (detail : Str → List Pair) (r : List Str) (qs : List Pair) : Prop :=
  qs = if r.length = 1 ∨ DictWord freq r.flatten then r.map (fun w => (w, tag w)) else detail r.flatten

theorem flushBuf_run (E : PEnv F) (detail : Str → List Pair) (hd : ∀ b, cutDetail E b = Gen.ok (detail b)) (r : List Str)
    (hne : r ≠ []) (hr : ∀ w ∈ r, w.length = 1) :
    ∃ qs, flushBuf E r.flatten = Gen.ok qs ∧ charRun E.freq (tagOf E.tab) detail r qs := by
  obtain ⟨h1, h2⟩ := flatten_singles r hr
  have h0 : r.flatten ≠ [] := by
    intro e; rw [e] at h1; simp at h1; exact hne (List.length_eq_zero_iff.mp (by simpa using h1.symm))
  refine ⟨_, ?_, rfl⟩
  unfold flushBuf
  rw [if_neg h0, h1]
  have ht : E.freq.truthy r.flatten = true ↔ DictWord E.freq r.flatten := by
    unfold Freq.truthy DictWord; cases PyDict.get? E.freq r.flatten <;> simp
  by_cases hl : r.length = 1
  · rw [if_pos hl, if_pos (Or.inl hl)]
    match r, hl with
    | [w], _ => simp
  · rw [if_neg hl]
    by_cases hd' : E.freq.truthy r.flatten = true
    · rw [if_neg (by simp [hd']), if_pos (Or.inr (ht.mp hd'))]
      congr 1
      have := congrArg (List.map (fun w => (w, tagOf E.tab w))) h2
      rw [List.map_map] at this
      exact this
    · rw [if_pos (by simpa using hd'), if_neg (by rintro (h | h); exact hl h; exact hd' (ht.mpr h)), hd]

theorem dagCutLoop_tagged (E : PEnv F) (detail : Str → List Pair) (hd : ∀ b, cutDetail E b = Gen.ok (detail b)) (s : Str)
    (route : List (F × Nat)) (hr : RouteWF s route) (fuel x : Nat) (hf : s.length - x ≤ fuel) :
    ∀ r : List Str, (∀ w ∈ r, w.length = 1) → ∃ ts, dagCutLoop E s route fuel x r.flatten = Gen.ok ts ∧
      Tagged (fun w => w.length = 1) (tagOf E.tab) (charRun E.freq (tagOf E.tab) detail) (r ++ pathFrom s route fuel x) ts := by
  have hend : ∀ r : List Str, (∀ w ∈ r, w.length = 1) → ∃ ts, flushBuf E r.flatten = Gen.ok ts ∧
      Tagged (fun w => w.length = 1) (tagOf E.tab) (charRun E.freq (tagOf E.tab) detail) r ts := by
    intro r h
    by_cases hr : r = []
    · subst hr; exact ⟨[], rfl, .nil⟩
    · obtain ⟨qs, h1, h2⟩ := flushBuf_run E detail hd r hr h
      refine ⟨qs, h1, ?_⟩
      have := Tagged.run (tag := tagOf E.tab) r [] _ _ hr h (by simp) h2 .nil
      simpa using this
  induction fuel generalizing x with
  | zero =>
    intro r h
    obtain ⟨ts, h1, h2⟩ := hend r h
    exact ⟨ts, h1, by simpa [pathFrom] using h2⟩
  | succ fuel ih =>
    intro r h
    unfold dagCutLoop pathFrom
    by_cases hx : x < s.length
    · rw [if_pos hx, if_pos hx]
      obtain ⟨e, h1, h2, h3⟩ := hr x hx
      rw [h1]
      simp only []
      have hl : (slice s x (e.2 + 1)).length = e.2 + 1 - x := slice_length _ _ _ (by omega)
      by_cases hm : e.2 + 1 - x = 1
      · rw [if_pos hm]
        obtain ⟨ts, g1, g2⟩ := ih (e.2 + 1) (by omega) (r ++ [slice s x (e.2 + 1)]) (by
          intro w hw
          rcases List.mem_append.mp hw with hw | hw
          · exact h w hw
          · simp at hw; subst hw; omega)
        exact ⟨ts, by simpa using g1, by simpa using g2⟩
      · rw [if_neg hm]
        obtain ⟨ts, g1, g2⟩ := ih (e.2 + 1) (by omega) [] (by simp)
        simp only [List.flatten_nil] at g1
        rw [g1]
        have hw := Tagged.word (single := fun w : Str => w.length = 1) (tag := tagOf E.tab) (R := charRun E.freq (tagOf E.tab) detail) (slice s x (e.2 + 1)) _ _ (by omega)
          (by simpa using g2)
        by_cases hr0 : r = []
        · subst hr0
          exact ⟨_, rfl, by simpa [flushBuf] using hw⟩
        · obtain ⟨qs, k1, k2⟩ := flushBuf_run E detail hd r hr0 h
          rw [k1]
          refine ⟨_, rfl, ?_⟩
          have := Tagged.run (tag := tagOf E.tab) r _ _ _ hr0 h (by intro w hw'; simp at hw'; subst hw'; omega) k2 hw
          simpa using this
    · rw [if_neg hx, if_neg hx]
      obtain ⟨ts, h1, h2⟩ := hend r h
      exact ⟨ts, h1, by simpa using h2⟩

end Jieba.Pos
