import Verif.Proofs.FinalSeg
/-!
# Helper lemmas: which of several best taggings the HMM segmenter takes
-/

set_option linter.unusedSectionVars false

namespace Jieba.FinalSeg
open Jieba Jieba.Spec

variable {F : Type _} [LinearOrder F]

theorem rank_letter (x y : St) : x.rank < y.rank ↔ tagLetter x < tagLetter y := by
  cases x <;> cases y <;> decide

theorem rank_tri (x y : St) : x.rank < y.rank ∨ x = y ∨ y.rank < x.rank := by
  cases x <;> cases y <;> decide

theorem maxSt_tie (x y : F × St) : (x.1 = (maxSt x [y]).1 → x.2 = (maxSt x [y]).2 ∨ tagLetter x.2 < tagLetter (maxSt x [y]).2) ∧
    (y.1 = (maxSt x [y]).1 → y.2 = (maxSt x [y]).2 ∨ tagLetter y.2 < tagLetter (maxSt x [y]).2) := by
  unfold maxSt pyMax
  simp only [List.foldl_cons, List.foldl_nil]
  by_cases h : tupLt (fun a b : St => decide (a.rank < b.rank)) x y = true
  · rw [if_pos h]
    refine ⟨fun he => ?_, fun _ => Or.inl rfl⟩
    unfold tupLt at h
    simp only [Bool.or_eq_true, decide_eq_true_eq, Bool.and_eq_true] at h
    rcases h with h | ⟨-, h⟩
    · rw [he] at h; exact absurd h (lt_irrefl _)
    · exact Or.inr ((rank_letter _ _).mp h)
  · rw [if_neg h]
    refine ⟨fun _ => Or.inl rfl, fun he => ?_⟩
    unfold tupLt at h
    simp only [Bool.or_eq_true, decide_eq_true_eq, Bool.and_eq_true, not_or, not_and] at h
    have h2 := h.2 he.symm
    rcases rank_tri x.2 y.2 with h3 | h3 | h3
    · exact absurd h3 h2
    · exact Or.inl h3.symm
    · exact Or.inr ((rank_letter _ _).mp h3)

theorem step_tie (A : Arith F) (T : Tables F) (V : Four (F × List St)) (c : Ch) (y : St) :
    ∃ y0, mayFollow y0 y = true ∧
      ((viterbiStep A T V c).get y) =
        (A.add (A.add (V.get y0).1 ((T.trans y0 y).getD T.minFloat)) ((T.emit y c).getD T.minFloat),
          (V.get y0).2 ++ [y]) ∧
      ∀ y1, mayFollow y1 y = true →
        A.add (A.add (V.get y1).1 ((T.trans y1 y).getD T.minFloat)) ((T.emit y c).getD T.minFloat) =
          ((viterbiStep A T V c).get y).1 → y1 = y0 ∨ tagLetter y1 < tagLetter y0 := by
  simp only [viterbiStep, Four.get_mk']
  have h := maxSt_two
    (A.add (A.add (V.get (prevStatus y).1).1 ((T.trans (prevStatus y).1 y).getD T.minFloat))
      ((T.emit y c).getD T.minFloat), (prevStatus y).1)
    (A.add (A.add (V.get (prevStatus y).2).1 ((T.trans (prevStatus y).2 y).getD T.minFloat))
      ((T.emit y c).getD T.minFloat), (prevStatus y).2)
  have ht := maxSt_tie
    (A.add (A.add (V.get (prevStatus y).1).1 ((T.trans (prevStatus y).1 y).getD T.minFloat))
      ((T.emit y c).getD T.minFloat), (prevStatus y).1)
    (A.add (A.add (V.get (prevStatus y).2).1 ((T.trans (prevStatus y).2 y).getD T.minFloat))
      ((T.emit y c).getD T.minFloat), (prevStatus y).2)
  refine ⟨(maxSt
    (A.add (A.add (V.get (prevStatus y).1).1 ((T.trans (prevStatus y).1 y).getD T.minFloat))
      ((T.emit y c).getD T.minFloat), (prevStatus y).1)
    [(A.add (A.add (V.get (prevStatus y).2).1 ((T.trans (prevStatus y).2 y).getD T.minFloat))
      ((T.emit y c).getD T.minFloat), (prevStatus y).2)]).2, ?_, ?_, ?_⟩
  · rw [prevStatus_mayFollow]
    rcases h.1 with h | h <;> rw [h] <;> simp
  · rcases h.1 with h | h <;> rw [h]
  · intro y1 hy1
    rw [prevStatus_mayFollow] at hy1
    rcases hy1 with rfl | rfl
    · exact ht.1
    · exact ht.2

/-- Invariant: among the chains with the score of the column entry, its path is the largest from the end. -/
def ColTie (A : Arith F) (T : Tables F) (V : Four (F × List St)) (obs : Str) : Prop :=
  ∀ y, ∀ tags : List St, tags.length = obs.length → tags.IsChain (fun a b => mayFollow a b = true) →
      tags.getLast? = some y → tagScore A T (obs.zip tags) = (V.get y).1 → tags = (V.get y).2 ∨ LastLetterLarger (V.get y).2 tags

theorem lastLetterLarger_snoc {a b : List St} (h : LastLetterLarger a b) (y : St) : LastLetterLarger (a ++ [y]) (b ++ [y]) := by
  obtain ⟨p, q, r, x, z, h1, h2, h3⟩ := h
  exact ⟨p, q, r ++ [y], x, z, by rw [h1]; simp, by rw [h2]; simp, h3⟩

theorem colTie_step (A : Arith F) (hst : ∀ a b c : F, a < b → A.add a c < A.add b c) (T : Tables F)
    (V : Four (F × List St)) (obs : Str) (c : Ch)
    (hS : ColStruct V obs.length) (ho : ColOpt A T V obs) (h : ColTie A T V obs) : ColTie A T (viterbiStep A T V c) (obs ++ [c]) := by
  intro y tags hl hch hlast heq
  obtain ⟨y0, h0, hval, htie⟩ := step_tie A T V c y
  obtain ⟨y0', h0', hval', hmax⟩ := step_best A T V c y
  have hne : tags ≠ [] := by rintro rfl; simp at hl
  have hdl : tags = tags.dropLast ++ [y] := by
    conv_lhs => rw [← List.dropLast_concat_getLast hne]
    rw [List.getLast?_eq_some_getLast hne] at hlast
    simp at hlast; rw [hlast]
  have hlen : tags.dropLast.length = obs.length := by simp [hl]
  have hobs : obs ≠ [] := by
    rintro rfl
    obtain ⟨h1, h2, h3⟩ := hS .B
    simp at h1; rw [h1] at h2; simp at h2
  have hne2 : tags.dropLast ≠ [] := by
    intro e; rw [e] at hlen; simp at hlen; exact hobs (List.length_eq_zero_iff.mp hlen.symm)
  rw [hdl] at hch
  rw [List.isChain_append] at hch
  generalize hy1e : tags.dropLast.getLast hne2 = y1 at *
  have hy1l : tags.dropLast.getLast? = some y1 := by rw [List.getLast?_eq_some_getLast hne2, hy1e]
  have hy1 := hch.2.2 y1 hy1l y (by simp)
  rw [hdl, List.zip_append (by rw [hlen]), show [c].zip [y] = [(c, y)] from rfl] at heq
  obtain ⟨c1, hc1⟩ := getLast?_zip obs tags.dropLast hlen y1 hy1l
  rw [tagScore_snoc A T _ c1 _ c y hc1] at heq
  have hle := (ho y1).2 _ hlen hch.1 hy1l
  have hm := hmax y1 hy1
  have hsc : tagScore A T (obs.zip tags.dropLast) = (V.get y1).1 := by
    rcases lt_or_eq_of_le hle with hlt | he
    · exfalso
      have := hst _ _ ((T.emit y c).getD T.minFloat) (hst _ _ ((T.trans y1 y).getD T.minFloat) hlt)
      rw [heq] at this
      exact absurd (lt_of_lt_of_le this hm) (lt_irrefl _)
    · exact he
  rw [hsc] at heq
  rw [hval, hdl]
  simp only
  rcases htie y1 hy1 heq with rfl | hlt
  · rcases h y1 tags.dropLast hlen hch.1 hy1l hsc with e | e
    · left; rw [← e]
    · right; exact lastLetterLarger_snoc e y
  · right
    refine ⟨(V.get y0).2.dropLast, tags.dropLast.dropLast, [y], y0, y1, ?_, ?_, hlt⟩
    · have h2 := (hS y0).2.1
      have hne3 : (V.get y0).2 ≠ [] := by intro e; rw [e] at h2; simp at h2
      rw [List.getLast?_eq_some_getLast hne3] at h2
      injection h2 with h2
      conv_lhs => rw [← List.dropLast_concat_getLast hne3, h2]
      simp
    · conv_lhs => rw [← List.dropLast_concat_getLast hne2, hy1e]
      simp

theorem colTie_foldl (A : Arith F) (hA : MonoAdd A) (hst : ∀ a b c : F, a < b → A.add a c < A.add b c) (T : Tables F)
    (cs : Str) (V : Four (F × List St)) (obs : Str)
    (hS : ColStruct V obs.length) (ho : ColOpt A T V obs) (h : ColTie A T V obs) :
    ColTie A T (cs.foldl (viterbiStep A T) V) (obs ++ cs) := by
  induction cs generalizing V obs with
  | nil => simpa using h
  | cons c cs ih =>
    have := ih (viterbiStep A T V c) (obs ++ [c]) (by simpa using colStruct_step A T V c _ hS)
      (colOpt_step A T hA V obs c hS ho) (colTie_step A hst T V obs c hS ho h)
    simpa using this

theorem viterbi_tie (A : Arith F) (hA : MonoAdd A) (hst : ∀ a b c : F, a < b → A.add a c < A.add b c) (T : Tables F)
    (c : Ch) (cs : Str) :
    ∃ p tags, viterbi A T (c :: cs) = .ok (p, tags) ∧
      ∀ tags' : List St, tags'.length = (c :: cs).length → ValidTags tags' →
        tagScore A T ((c :: cs).zip tags') = p → tags' = tags ∨ LastLetterLarger tags tags' := by
  have hS := colStruct_foldl A T cs _ 1 (colStruct_init A T c)
  have ho := colOpt_foldl A T hA cs _ [c] (colStruct_init A T c) (colOpt_init A T c)
  have h := colTie_foldl A hA hst T cs (viterbiInit A T c) [c] (colStruct_init A T c) (colOpt_init A T c) (by
    intro y tags hl _ hlast _
    left
    match tags, hl with
    | [t], _ => simp at hlast; subst hlast; simp [viterbiInit])
  have hm := maxSt_two
    (((cs.foldl (viterbiStep A T) (viterbiInit A T c)).get .E).1, St.E)
    (((cs.foldl (viterbiStep A T) (viterbiInit A T c)).get .S).1, St.S)
  have ht := maxSt_tie
    (((cs.foldl (viterbiStep A T) (viterbiInit A T c)).get .E).1, St.E)
    (((cs.foldl (viterbiStep A T) (viterbiInit A T c)).get .S).1, St.S)
  unfold viterbi
  refine ⟨_, _, rfl, ?_⟩
  intro tags' hl hv heq
  generalize hV : cs.foldl (viterbiStep A T) (viterbiInit A T c) = V at *
  generalize hB : maxSt ((V.get .E).1, St.E) [((V.get .S).1, St.S)] = best at *
  have hne : tags' ≠ [] := by rintro rfl; simp at hl
  have hlast := List.getLast?_eq_some_getLast hne
  generalize tags'.getLast hne = t at hlast
  have hc := (ho t).2 tags' (by simpa using hl) hv.chain hlast
  rw [show [c] ++ cs = c :: cs from rfl, heq] at hc
  have hbt : (V.get t).1 = best.1 ∧ (t = best.2 ∨ tagLetter t < tagLetter best.2) := by
    rcases hv.closed _ hlast with e | e <;> subst e
    · have e1 := le_antisymm hm.2.1 hc
      exact ⟨e1, ht.1 e1⟩
    · have e1 := le_antisymm hm.2.2 hc
      exact ⟨e1, ht.2 e1⟩
  rcases hbt.2 with e | e
  · rw [← e]
    exact h t tags' (by simpa using hl) hv.chain hlast (by rw [hbt.1]; exact heq)
  · right
    have h2 := (hS best.2).2.1
    have hne3 : (V.get best.2).2 ≠ [] := by intro e; rw [e] at h2; simp at h2
    rw [List.getLast?_eq_some_getLast hne3] at h2
    injection h2 with h2
    rw [List.getLast?_eq_some_getLast hne] at hlast
    injection hlast with hlast
    refine ⟨(V.get best.2).2.dropLast, tags'.dropLast, [], best.2, t, ?_, ?_, e⟩
    · conv_lhs => rw [← List.dropLast_concat_getLast hne3, h2]
    · conv_lhs => rw [← List.dropLast_concat_getLast hne, hlast]

end Jieba.FinalSeg
