import Verif.Model.FinalSeg
import Verif.Spec.Text
import Verif.Spec.Tags
import Verif.Proofs.Regex
import Mathlib.Order.Basic
/-!
# Lemmas about the HMM segmenter
-/

set_option linter.unusedSectionVars false

namespace Jieba.FinalSeg
open Jieba Jieba.Spec

variable {F : Type _} [LinearOrder F]

/-- `max` of two tuples is one of them and its score is at least both. -/
theorem maxSt_two (x y : F × St) : (maxSt x [y] = x ∨ maxSt x [y] = y) ∧ x.1 ≤ (maxSt x [y]).1 ∧ y.1 ≤ (maxSt x [y]).1 := by
  unfold maxSt pyMax
  simp only [List.foldl_cons, List.foldl_nil]
  by_cases h : tupLt (fun a b : St => decide (a.rank < b.rank)) x y = true
  · rw [if_pos h]
    refine ⟨Or.inr rfl, ?_, le_refl _⟩
    unfold tupLt at h
    simp at h
    rcases h with h | h
    · exact le_of_lt h
    · exact le_of_eq h.1
  · rw [if_neg h]
    refine ⟨Or.inl rfl, le_refl _, ?_⟩
    unfold tupLt at h
    simp at h
    exact h.1

theorem prevStatus_mayFollow (y0 y : St) :
    mayFollow y0 y = true ↔ y0 = (prevStatus y).1 ∨ y0 = (prevStatus y).2 := by
  cases y0 <;> cases y <;> simp [mayFollow, prevStatus]

/-- Structural part of the invariant on a Viterbi column: each stored path is a chain of the right length and end. -/
def ColStruct (V : Four (F × List St)) (n : Nat) : Prop :=
  ∀ y, (V.get y).2.length = n ∧ (V.get y).2.getLast? = some y ∧
    (V.get y).2.IsChain (fun a b => mayFollow a b = true)

@[simp] theorem Four.get_mk' {α} (f : St → α) (y : St) : (Four.mk' f).get y = f y := by cases y <;> rfl

theorem colStruct_init (A : Arith F) (T : Tables F) (c : Ch) : ColStruct (viterbiInit A T c) 1 := by
  intro y; simp [viterbiInit]

theorem isChain_append_singleton {R : St → St → Prop} (l : List St) (y0 y : St) (h : l.IsChain R)
    (hl : l.getLast? = some y0) (hr : R y0 y) : (l ++ [y]).IsChain R := by
  rw [List.isChain_append]
  refine ⟨h, by simp, ?_⟩
  intro a ha b hb
  simp at hb; subst hb
  rw [hl] at ha; simp at ha; subst ha; exact hr

theorem step_best (A : Arith F) (T : Tables F) (V : Four (F × List St)) (c : Ch) (y : St) :
    ∃ y0, mayFollow y0 y = true ∧
      ((viterbiStep A T V c).get y) =
        (A.add (A.add (V.get y0).1 ((T.trans y0 y).getD T.minFloat)) ((T.emit y c).getD T.minFloat),
          (V.get y0).2 ++ [y]) ∧
      ∀ y1, mayFollow y1 y = true →
        A.add (A.add (V.get y1).1 ((T.trans y1 y).getD T.minFloat)) ((T.emit y c).getD T.minFloat) ≤
          ((viterbiStep A T V c).get y).1 := by
  simp only [viterbiStep, Four.get_mk']
  have h := maxSt_two
    (A.add (A.add (V.get (prevStatus y).1).1 ((T.trans (prevStatus y).1 y).getD T.minFloat))
      ((T.emit y c).getD T.minFloat), (prevStatus y).1)
    (A.add (A.add (V.get (prevStatus y).2).1 ((T.trans (prevStatus y).2 y).getD T.minFloat))
      ((T.emit y c).getD T.minFloat), (prevStatus y).2)
  refine ⟨(maxSt
    (A.add (A.add (V.get (prevStatus y).1).1 ((T.trans (prevStatus y).1 y).getD T.minFloat))
      ((T.emit y c).getD T.minFloat), (prevStatus y).1)
    [(A.add (A.add (V.get (prevStatus y).2).1 ((T.trans (prevStatus y).2 y).getD T.minFloat))
      ((T.emit y c).getD T.minFloat), (prevStatus y).2)]).2, ?_, ?_, ?_⟩
  · rw [prevStatus_mayFollow]
    rcases h.1 with h | h <;> rw [h] <;> simp
  · rcases h.1 with h | h <;> rw [h]
  · intro y1 hy1
    rw [prevStatus_mayFollow] at hy1
    rcases hy1 with rfl | rfl
    · exact h.2.1
    · exact h.2.2

theorem colStruct_step (A : Arith F) (T : Tables F) (V : Four (F × List St)) (c : Ch) (n : Nat)
    (h : ColStruct V n) : ColStruct (viterbiStep A T V c) (n + 1) := by
  intro y
  obtain ⟨y0, h0, heq, -⟩ := step_best A T V c y
  rw [heq]
  obtain ⟨h1, h2, h3⟩ := h y0
  refine ⟨by simp [h1], by simp, isChain_append_singleton _ y0 y h3 h2 h0⟩

theorem colStruct_foldl (A : Arith F) (T : Tables F) (cs : Str) (V : Four (F × List St)) (n : Nat)
    (h : ColStruct V n) : ColStruct (cs.foldl (viterbiStep A T) V) (n + cs.length) := by
  induction cs generalizing V n with
  | nil => exact h
  | cons c cs ih =>
    have := ih _ _ (colStruct_step A T V c n h)
    simp only [List.foldl_cons, List.length_cons]
    have e : n + (cs.length + 1) = n + 1 + cs.length := by omega
    rw [e]; exact this

/-- The Viterbi result always exists for a non-empty block; its tags are one per character and form a complete tagging. -/
theorem viterbi_struct (A : Arith F) (T : Tables F) (c : Ch) (cs : Str) :
    ∃ p tags, viterbi A T (c :: cs) = .ok (p, tags) ∧ tags.length = (c :: cs).length ∧ ValidTags tags := by
  unfold viterbi
  simp only
  have h := colStruct_foldl A T cs _ 1 (colStruct_init A T c)
  have hm := maxSt_two
    (((cs.foldl (viterbiStep A T) (viterbiInit A T c)).get .E).1, St.E)
    (((cs.foldl (viterbiStep A T) (viterbiInit A T c)).get .S).1, St.S)
  refine ⟨_, _, rfl, ?_, ?_, ?_⟩
  · have := (h (maxSt (((cs.foldl (viterbiStep A T) (viterbiInit A T c)).get .E).1, St.E)
      [(((cs.foldl (viterbiStep A T) (viterbiInit A T c)).get .S).1, St.S)]).2).1
    rw [this]; simp; omega
  · exact (h _).2.2
  · intro t ht
    rw [(h _).2.1] at ht
    simp at ht; subst ht
    rcases hm.1 with h | h <;> rw [h] <;> simp

/-! ## Optimality -/

theorem tagScore_snoc (A : Arith F) (T : Tables F) (l : List (Ch × St)) (c0 : Ch) (y0 : St) (c : Ch) (y : St)
    (h : l.getLast? = some (c0, y0)) :
    tagScore A T (l ++ [(c, y)]) =
      A.add (A.add (tagScore A T l) ((T.trans y0 y).getD T.minFloat)) ((T.emit y c).getD T.minFloat) := by
  have key : ∀ (r : List (Ch × St)) (p : F × St),
      (r.foldl (fun (p : F × St) (q : Ch × St) =>
        (A.add (A.add p.1 ((T.trans p.2 q.2).getD T.minFloat)) ((T.emit q.2 q.1).getD T.minFloat), q.2)) p).2 =
      ((r.getLast?).map Prod.snd).getD p.2 := by
    intro r
    induction r with
    | nil => intro p; simp
    | cons q r ih => intro p; rw [List.foldl_cons, ih]; cases r with
        | nil => simp
        | cons q' r => simp [List.getLast?_cons_cons]; rw [List.getLast?_cons]; simp
  cases l with
  | nil => simp at h
  | cons q r =>
    obtain ⟨c1, y1⟩ := q
    simp only [List.cons_append, tagScore, List.foldl_append, List.foldl_cons, List.foldl_nil]
    rw [key]
    have : ((r.getLast?).map Prod.snd).getD y1 = y0 := by
      cases r with
      | nil => simp at h; simp [h.2]
      | cons q' r => rw [List.getLast?_cons_cons] at h; rw [h]; simp
    simp only [this]

/-- Invariant: column entry `y` holds the score of its path, which is best among all chains ending in `y`. -/
def ColOpt (A : Arith F) (T : Tables F) (V : Four (F × List St)) (obs : Str) : Prop :=
  ∀ y, (V.get y).1 = tagScore A T (obs.zip (V.get y).2) ∧
    ∀ tags : List St, tags.length = obs.length → tags.IsChain (fun a b => mayFollow a b = true) →
      tags.getLast? = some y → tagScore A T (obs.zip tags) ≤ (V.get y).1

theorem colOpt_init (A : Arith F) (T : Tables F) (c : Ch) : ColOpt A T (viterbiInit A T c) [c] := by
  intro y
  refine ⟨by simp [viterbiInit, tagScore], ?_⟩
  intro tags hl _ hlast
  match tags, hl with
  | [t], _ =>
    simp at hlast; subst hlast
    simp [viterbiInit, tagScore]

theorem getLast?_zip (obs : Str) (tags : List St) (hl : tags.length = obs.length) (y : St) (h : tags.getLast? = some y) :
    ∃ c, (obs.zip tags).getLast? = some (c, y) := by
  have hne : tags ≠ [] := by rintro rfl; simp at h
  have hne' : obs ≠ [] := by rintro rfl; simp at hl; exact hne hl
  rw [List.getLast?_eq_some_getLast hne] at h
  simp at h
  refine ⟨obs.getLast hne', ?_⟩
  have e : obs.zip tags = obs.dropLast.zip tags.dropLast ++ [(obs.getLast hne', tags.getLast hne)] := by
    conv_lhs => rw [← List.dropLast_concat_getLast hne, ← List.dropLast_concat_getLast hne']
    rw [List.zip_append (by simp [hl])]; rfl
  rw [e, h]; simp

theorem colOpt_step (A : Arith F) (T : Tables F) (hA : MonoAdd A) (V : Four (F × List St)) (obs : Str) (c : Ch)
    (hS : ColStruct V obs.length) (h : ColOpt A T V obs) : ColOpt A T (viterbiStep A T V c) (obs ++ [c]) := by
  intro y
  obtain ⟨y0, h0, heq, hmax⟩ := step_best A T V c y
  constructor
  · rw [heq]
    obtain ⟨h1, h2, h3⟩ := hS y0
    rw [List.zip_append (by rw [h1])]
    obtain ⟨c0, hc0⟩ := getLast?_zip obs _ h1 y0 h2
    rw [show [c].zip [y] = [(c, y)] from rfl, tagScore_snoc A T _ c0 y0 c y hc0, ← (h y0).1]
  · intro tags hl hch hlast
    have hne : tags ≠ [] := by rintro rfl; simp at hl
    have hdl : tags = tags.dropLast ++ [y] := by
      conv_lhs => rw [← List.dropLast_concat_getLast hne]
      rw [List.getLast?_eq_some_getLast hne] at hlast
      simp at hlast; rw [hlast]
    have hlen : tags.dropLast.length = obs.length := by simp [hl]
    have hobs : obs ≠ [] := by
      rintro rfl
      obtain ⟨h1, h2, h3⟩ := hS .B
      simp at h1; rw [h1] at h2; simp at h2
    have hne2 : tags.dropLast ≠ [] := by
      intro e; rw [e] at hlen; simp at hlen; exact hobs (List.length_eq_zero_iff.mp hlen.symm)
    rw [hdl] at hch
    rw [List.isChain_append] at hch
    have hy1 := hch.2.2 (tags.dropLast.getLast hne2) (by rw [List.getLast?_eq_some_getLast hne2]; rfl) y (by simp)
    rw [hdl, List.zip_append (by rw [hlen]), show [c].zip [y] = [(c, y)] from rfl]
    obtain ⟨c1, hc1⟩ := getLast?_zip obs tags.dropLast hlen (tags.dropLast.getLast hne2)
      (List.getLast?_eq_some_getLast hne2)
    rw [tagScore_snoc A T _ c1 _ c y hc1]
    refine le_trans ?_ (hmax _ hy1)
    apply hA.left
    apply hA.left
    exact (h _).2 _ hlen hch.1 (List.getLast?_eq_some_getLast hne2)

theorem colOpt_foldl (A : Arith F) (T : Tables F) (hA : MonoAdd A) (cs : Str) (V : Four (F × List St)) (obs : Str)
    (hS : ColStruct V obs.length) (h : ColOpt A T V obs) :
    ColOpt A T (cs.foldl (viterbiStep A T) V) (obs ++ cs) := by
  induction cs generalizing V obs with
  | nil => simpa using h
  | cons c cs ih =>
    have := ih (viterbiStep A T V c) (obs ++ [c]) (by simpa using colStruct_step A T V c _ hS)
      (colOpt_step A T hA V obs c hS h)
    simpa using this

theorem viterbi_opt (A : Arith F) (T : Tables F) (hA : MonoAdd A) (c : Ch) (cs : Str) :
    ∃ p tags, viterbi A T (c :: cs) = .ok (p, tags) ∧ p = tagScore A T ((c :: cs).zip tags) ∧
      ∀ tags' : List St, tags'.length = (c :: cs).length → ValidTags tags' →
        tagScore A T ((c :: cs).zip tags') ≤ p := by
  have hS := colStruct_foldl A T cs _ 1 (colStruct_init A T c)
  have h := colOpt_foldl A T hA cs _ [c] (colStruct_init A T c) (colOpt_init A T c)
  have hm := maxSt_two
    (((cs.foldl (viterbiStep A T) (viterbiInit A T c)).get .E).1, St.E)
    (((cs.foldl (viterbiStep A T) (viterbiInit A T c)).get .S).1, St.S)
  unfold viterbi
  refine ⟨_, _, rfl, ?_, ?_⟩
  · rcases hm.1 with e | e <;> simp only [e]
    · exact (h .E).1
    · exact (h .S).1
  · intro tags' hl hv
    have hne : tags' ≠ [] := by rintro rfl; simp at hl
    have hlast := List.getLast?_eq_some_getLast hne
    have hc := (h (tags'.getLast hne)).2 tags' (by simpa using hl) hv.chain hlast
    refine le_trans hc ?_
    rcases hv.closed _ hlast with e | e <;> rw [e]
    · exact hm.2.1
    · exact hm.2.2

/-! ## Cutting by tags -/

theorem cutLoop_flatten (sent : Str) (rest : List (Ch × St)) (i begin nexti : Nat)
    (hrest : rest.map Prod.fst = sent.drop i) (hi : i ≤ sent.length) (hn : nexti ≤ i)
    (hin : ∀ t, (rest.map Prod.snd).head? = some t → (t = .M ∨ t = .E) → begin = nexti)
    (hout : ∀ t, (rest.map Prod.snd).head? = some t → (t = .B ∨ t = .S) → nexti = i)
    (hnil : rest = [] → nexti = i)
    (hv : ValidTags (rest.map Prod.snd)) :
    (cutLoop sent rest i begin nexti).flatten = sent.drop nexti ∧ ∀ w ∈ cutLoop sent rest i begin nexti, w ≠ [] := by
  induction rest generalizing i begin nexti with
  | nil =>
    have := hnil rfl; subst this
    simp at hrest
    unfold cutLoop
    rw [if_neg (by omega)]
    simp; omega
  | cons q rest ih =>
    obtain ⟨c, pos⟩ := q
    have hilt : i < sent.length := by
      by_contra hcon
      have : sent.drop i = [] := List.drop_eq_nil_of_le (by omega)
      rw [this] at hrest; simp at hrest
    rw [List.drop_eq_getElem_cons hilt, List.map_cons] at hrest
    simp only [List.cons.injEq] at hrest
    obtain ⟨hc, hrest'⟩ := hrest
    have hv' : ValidTags (rest.map Prod.snd) := by
      refine ⟨?_, ?_⟩
      · have := hv.chain; rw [List.map_cons] at this; exact this.of_cons
      · intro t ht
        apply hv.closed
        rw [List.map_cons, List.getLast?_cons, ht]; rfl
    have hnext : ∀ t, (rest.map Prod.snd).head? = some t → mayFollow pos t = true := by
      intro t ht
      have := hv.chain
      cases rest with
      | nil => simp at ht
      | cons q' rest =>
        simp at ht; subst ht
        simp only [List.map_cons, List.isChain_cons_cons] at this
        exact this.1
    have hlast : rest = [] → pos = .E ∨ pos = .S := by
      rintro rfl; exact hv.closed pos (by simp)
    cases pos with
    | B =>
      have e := hout .B (by simp) (Or.inl rfl)
      unfold cutLoop
      refine ih (i + 1) i nexti hrest' (by omega) (by omega) ?_ ?_ ?_ hv'
      · intros; exact e.symm
      · intro t ht h
        have := hnext t ht
        rcases h with rfl | rfl <;> simp [mayFollow] at this
      · intro h; rcases hlast h with h | h <;> cases h
    | M =>
      have e := hin .M (by simp) (Or.inl rfl)
      unfold cutLoop
      refine ih (i + 1) begin nexti hrest' (by omega) (by omega) ?_ ?_ ?_ hv'
      · intros; exact e
      · intro t ht h
        have := hnext t ht
        rcases h with rfl | rfl <;> simp [mayFollow] at this
      · intro h; rcases hlast h with h | h <;> cases h
    | E =>
      have e := hin .E (by simp) (Or.inr rfl)
      unfold cutLoop
      have := ih (i + 1) begin (i + 1) hrest' (by omega) (by omega) (by
          intro t ht h
          have := hnext t ht
          rcases h with rfl | rfl <;> simp [mayFollow] at this) (fun _ _ _ => rfl) (fun _ => rfl) hv'
      subst e
      refine ⟨?_, ?_⟩
      · rw [List.flatten_cons, this.1, slice_append_drop _ _ _ (by omega)]
      · intro w hw
        rcases List.mem_cons.mp hw with rfl | hw
        · exact slice_ne_nil _ _ _ (by omega) (by omega)
        · exact this.2 w hw
    | S =>
      have e := hout .S (by simp) (Or.inr rfl)
      unfold cutLoop
      have := ih (i + 1) begin (i + 1) hrest' (by omega) (by omega) (by
          intro t ht h
          have := hnext t ht
          rcases h with rfl | rfl <;> simp [mayFollow] at this) (fun _ _ _ => rfl) (fun _ => rfl) hv'
      subst e
      refine ⟨?_, ?_⟩
      · rw [List.flatten_cons, this.1, List.drop_eq_getElem_cons hilt, hc]; rfl
      · intro w hw
        rcases List.mem_cons.mp hw with rfl | hw
        · simp
        · exact this.2 w hw

theorem flatten_map_singleton {α} (w : List α) : (w.map (fun c => [c])).flatten = w := by
  induction w with
  | nil => rfl
  | cons a w ih => simp [ih]

/-- `__cut` on a non-empty block: never raises, lossless, no empty words. -/
theorem hmmCut_spec (A : Arith F) (T : Tables F) (sent : Str) (h : sent ≠ []) :
    ∃ ws, hmmCut A T sent = Gen.ok ws ∧ IsSegmentation ws sent := by
  cases sent with
  | nil => exact absurd rfl h
  | cons c cs =>
    obtain ⟨p, tags, heq, hl, hv⟩ := viterbi_struct A T c cs
    refine ⟨_, by unfold hmmCut; rw [heq]; rfl, ?_⟩
    have hsnd : ((c :: cs).zip tags).map Prod.snd = tags := List.map_snd_zip (by rw [hl])
    have := cutLoop_flatten (c :: cs) ((c :: cs).zip tags) 0 0 0
      (by rw [List.map_fst_zip (by rw [hl])]; rfl)
      (by simp) (by simp) (by simp) (by simp) (by simp) (by rw [hsnd]; exact hv)
    exact ⟨by simpa using this.1, this.2⟩

/-- What one block contributes to `finalseg.cut`. -/
theorem cut_block_spec (A : Arith F) (T : Tables F) (force : List Str) (blk : Str) :
    ∃ ws, (if reHan.isMatch blk then
        (hmmCut A T blk).mapOut (fun word => if word ∉ force then [word] else word.map (fun c => [c]))
      else Gen.ok ((reSkipFinal.split blk).filter (fun x => x ≠ []))) = Gen.ok ws ∧ IsSegmentation ws blk := by
  by_cases hm : reHan.isMatch blk = true
  · rw [if_pos hm]
    have hne : blk ≠ [] := by rintro rfl; simp [reHan, isMatch_plus] at hm
    obtain ⟨ws, hws, hseg⟩ := hmmCut_spec A T blk hne
    rw [hws]
    refine ⟨_, rfl, ?_, ?_⟩
    · have : ∀ l : List Str, (l.flatMap (fun word => if word ∉ force then [word] else word.map (fun c => [c]))).flatten
          = l.flatten := by
        intro l
        induction l with
        | nil => rfl
        | cons w l ih =>
          rw [List.flatMap_cons, List.flatten_append, ih, List.flatten_cons]
          congr 1
          split
          · simp
          · exact flatten_map_singleton w
      rw [this, Gen.ok_out, hseg.1]
    · intro w hw
      rw [List.mem_flatMap] at hw
      obtain ⟨v, hv, hw⟩ := hw
      split at hw
      · simp at hw; subst hw; exact hseg.2 _ hv
      · simp at hw; obtain ⟨a, _, rfl⟩ := hw; simp
  · rw [if_neg hm]
    refine ⟨_, rfl, ?_, ?_⟩
    · have : ∀ l : List Str, (l.filter (fun x => x ≠ [])).flatten = l.flatten := by
        intro l
        induction l with
        | nil => rfl
        | cons w l ih => by_cases h : w = [] <;> simp_all
      rw [this]
      exact RE.split_flatten _ rfl blk
    · intro w hw; simp at hw; exact hw.2

theorem forEach_segmentation {l : List Str} {f : Str → Gen Str}
    (h : ∀ b ∈ l, ∃ ws, f b = Gen.ok ws ∧ IsSegmentation ws b) :
    ∃ ws, Gen.forEach l f = Gen.ok ws ∧ IsSegmentation ws l.flatten := by
  induction l with
  | nil => exact ⟨[], rfl, rfl, by simp⟩
  | cons b l ih =>
    obtain ⟨ws1, h1, h2⟩ := h b (by simp)
    obtain ⟨ws2, h3, h4⟩ := ih (fun b' hb' => h b' (by simp [hb']))
    refine ⟨ws1 ++ ws2, by simp [h1, h3], by simp [h2.1, h4.1], ?_⟩
    intro w hw
    rcases List.mem_append.mp hw with hw | hw
    · exact h2.2 w hw
    · exact h4.2 w hw

/-- `finalseg.cut` never raises on text, loses nothing and yields no empty token. -/
theorem cut_spec (A : Arith F) (T : Tables F) (force : List Str) (s : Str) :
    ∃ ws, cut A T force s = Gen.ok ws ∧ IsSegmentation ws s := by
  unfold cut
  have := forEach_segmentation (l := reHan.split s) (fun b _ => cut_block_spec A T force b)
  rwa [show (reHan.split s).flatten = s from RE.split_flatten _ rfl s] at this

end Jieba.FinalSeg
