import Verif.Proofs.Ieee
import Verif.Proofs.Cut
import Verif.Proofs.Dag
/-!
# The bounded exponents make no difference to segmentation
-/

set_option linter.unusedSectionVars false

namespace Jieba
open Jieba.FinalSeg (St Four viterbiInit viterbiStep viterbi)

variable (log : Nat → ℚ) (over : ℚ → ℚ)

theorem pyMax_mem' {α : Type _} (lt : α → α → Bool) (x : α) (xs : List α) : pyMax lt x xs ∈ x :: xs := by
  unfold pyMax
  induction xs generalizing x with
  | nil => simp
  | cons y ys ih =>
    rw [List.foldl_cons]
    have := ih (if lt x y then y else x)
    rcases List.mem_cons.mp this with h | h
    · rw [h]; split <;> simp
    · exact List.mem_cons_of_mem _ (List.mem_cons_of_mem _ h)

theorem mapM_congr_mem {α β ε : Type _} (l : List α) (f g : α → Except ε β) (h : ∀ a ∈ l, f a = g a) : l.mapM f = l.mapM g := by
  induction l with
  | nil => rfl
  | cons a l ih =>
    rw [List.mapM_cons, List.mapM_cons, h a (by simp), ih (fun b hb => h b (List.mem_cons_of_mem _ hb))]

/-- The numbers in use and their logarithms. -/
structure LogRange (freq : Freq) (total : Int) (N : ℕ) : Prop where
  logs : ∀ n : ℕ, 1 ≤ n → n ≤ N → Safe 1 (log n)
  total : total ≤ N
  freqs : ∀ w v, freq.get? w = some v → v ≤ N

theorem freqOr1_le {freq : Freq} {total : Int} {N : ℕ} (h : LogRange log freq total N) (ht : 0 < total) (w : Str) : freqOr1 freq w ≤ N := by
  have := h.total
  unfold freqOr1
  split
  · next v hv => have := h.freqs w v hv; split <;> omega
  · omega

theorem edgeScore_eq {freq : Freq} {total : Int} {N : ℕ} (h : LogRange log freq total N) (ht : 0 < total) (s : Str) (k : ℕ) (hk : 4 * k + 4 ≤ 2 ^ 53)
    (tail : List (ℚ × Nat)) (htail : ∀ r ∈ tail, Safe (4 * k) r.1) (idx x : Nat) :
    edgeScore (ieeeArith log over) freq (log total.toNat) s tail idx x = edgeScore (dblArith log) freq (log total.toNat) s tail idx x ∧
      ∀ r, edgeScore (dblArith log) freq (log total.toNat) s tail idx x = .ok r → Safe (4 * k + 4) r.1 := by
  have e1 : (ieeeArith log over).pylog = (dblArith log).pylog := rfl
  simp only [edgeScore, e1]
  have hle := freqOr1_le log h ht (slice s idx (x + 1))
  by_cases hp : 0 < freqOr1 freq (slice s idx (x + 1))
  · have e2 : (dblArith log).pylog (freqOr1 freq (slice s idx (x + 1))) = .ok (log (freqOr1 freq (slice s idx (x + 1))).toNat) := by
      unfold Arith.pylog; rw [if_pos hp]; rfl
    rw [e2]
    simp only [bind, Except.bind]
    by_cases hx : x < idx
    · rw [if_pos hx, if_pos hx]
      exact ⟨rfl, by simp⟩
    · rw [if_neg hx, if_neg hx]
      cases ht' : tail[x - idx]? with
      | none => exact ⟨rfl, by simp⟩
      | some r =>
        have hr := htail r (List.mem_of_getElem? ht')
        have h1 : Safe 1 (log (freqOr1 freq (slice s idx (x + 1))).toNat) := h.logs _ (by omega) (by omega)
        have h2 : Safe 1 (log total.toNat) := h.logs _ (by omega) (by have := h.total; omega)
        obtain ⟨a1, a2⟩ := safe_sub over h1 h2 (by norm_num)
        obtain ⟨b1, b2⟩ := safe_add over a2 hr (by omega)
        simp only [ieeeArith, dblArith, a1, b1]
        refine ⟨trivial, ?_⟩
        intro r' hr'
        injection hr' with hr'
        subst hr'
        exact b2.mono (by omega)
  · have e2 : (dblArith log).pylog (freqOr1 freq (slice s idx (x + 1))) = .error .valueError := by
      unfold Arith.pylog; rw [if_neg hp]
    rw [e2]
    exact ⟨rfl, by simp [bind, Except.bind]⟩

theorem calcLoop_eq {freq : Freq} {total : Int} {N : ℕ} (h : LogRange log freq total N) (ht : 0 < total) (s : Str) (dag : List (List Nat))
    (n : Nat) (tail : List (ℚ × Nat)) (k : ℕ) (hk : 4 * (k + n) ≤ 2 ^ 53) (htail : ∀ r ∈ tail, Safe (4 * k) r.1) :
    calcLoop (ieeeArith log over) freq (log total.toNat) s dag n tail = calcLoop (dblArith log) freq (log total.toNat) s dag n tail := by
  induction n generalizing tail k with
  | zero => rfl
  | succ idx ih =>
    unfold calcLoop
    cases hd : dag[idx]? with
    | none => rfl
    | some L =>
      simp only
      have hkk : 4 * k + 4 ≤ 2 ^ 53 := by omega
      rw [mapM_congr_mem L _ _ (fun x _ => (edgeScore_eq log over h ht s k hkk tail htail idx x).1)]
      cases hm : L.mapM (edgeScore (dblArith log) freq (log total.toNat) s tail idx) with
      | error e => rfl
      | ok cands =>
        simp only [bind, Except.bind]
        cases hb : maxTup cands with
        | error e => rfl
        | ok best =>
          simp only
          refine ih (best :: tail) (k + 1) (by omega) ?_
          have hbest : best ∈ cands := by
            cases cands with
            | nil => simp [maxTup] at hb
            | cons c cs =>
              simp only [maxTup] at hb
              injection hb with hb
              rw [← hb]
              exact pyMax_mem' _ _ _
          intro r hr
          rcases List.mem_cons.mp hr with rfl | hr
          · obtain ⟨x, -, hx⟩ := (mapM_except_ok L _ cands hm).2.2 r hbest
            exact ((edgeScore_eq log over h ht s k hkk tail htail idx x).2 r hx).mono (by omega)
          · exact (htail r hr).mono (by omega)

theorem calcRoute_eq {freq : Freq} {total : Int} {N : ℕ} (h : LogRange log freq total N) (s : Str) (hs : s.length ≤ 2 ^ 50) (dag : List (List Nat)) :
    calcRoute (ieeeArith log over) freq total s dag = calcRoute (dblArith log) freq total s dag := by
  unfold calcRoute
  have e1 : (ieeeArith log over).pylog = (dblArith log).pylog := rfl
  rw [e1]
  by_cases ht : 0 < total
  · have e2 : (dblArith log).pylog total = .ok (log total.toNat) := by unfold Arith.pylog; rw [if_pos ht]; rfl
    rw [e2]
    simp only [bind, Except.bind]
    refine calcLoop_eq log over h ht s dag s.length _ 0 (by omega) ?_
    intro r hr
    simp at hr
    subst hr
    exact safe_zero _
  · have e2 : (dblArith log).pylog total = .error .valueError := by unfold Arith.pylog; rw [if_neg ht]
    rw [e2]
    rfl

/-! ## The HMM -/

/-- The numbers of the tables are doubles, at most 2^350. -/
structure SafeTables (T : FinalSeg.Tables ℚ) : Prop where
  start : ∀ y, Safe 1 (T.start y)
  trans : ∀ y y' v, T.trans y y' = some v → Safe 1 v
  emit : ∀ y c v, T.emit y c = some v → Safe 1 v
  min : Safe 1 T.minFloat

theorem SafeTables.emitD {T : FinalSeg.Tables ℚ} (h : SafeTables T) (y : St) (c : Ch) : Safe 1 ((T.emit y c).getD T.minFloat) := by
  cases he : T.emit y c with
  | none => exact h.min
  | some v => exact h.emit y c v he

theorem SafeTables.transD {T : FinalSeg.Tables ℚ} (h : SafeTables T) (y y' : St) : Safe 1 ((T.trans y y').getD T.minFloat) := by
  cases he : T.trans y y' with
  | none => exact h.min
  | some v => exact h.trans y y' v he

theorem four_mk_get {α : Type _} (f : St → α) (y : St) : (Four.mk' f).get y = f y := by cases y <;> rfl

theorem hmmInit_eq {T : FinalSeg.Tables ℚ} (h : SafeTables T) (c : Ch) :
    viterbiInit (ieeeArith log over) T c = viterbiInit (dblArith log) T c ∧ ∀ y, Safe 4 ((viterbiInit (dblArith log) T c).get y).1 := by
  have key : ∀ y, rndIeee over (T.start y + (T.emit y c).getD T.minFloat) = rnd (T.start y + (T.emit y c).getD T.minFloat) ∧
      Safe 3 (rnd (T.start y + (T.emit y c).getD T.minFloat)) := by
    intro y
    obtain ⟨a1, a2⟩ := safe_add over (h.start y) (h.emitD y c) (by norm_num)
    exact ⟨a1, a2.mono (by norm_num)⟩
  constructor
  · unfold viterbiInit
    congr 1
    funext y
    simp only [ieeeArith, dblArith, (key y).1]
  · intro y
    unfold viterbiInit
    rw [four_mk_get]
    exact (key y).2.mono (by norm_num)

theorem hmmStep_eq {T : FinalSeg.Tables ℚ} (h : SafeTables T) (V : Four (ℚ × List St)) (k : ℕ) (hk : 4 * k + 4 ≤ 2 ^ 53)
    (hV : ∀ y, Safe (4 * k) (V.get y).1) (c : Ch) :
    viterbiStep (ieeeArith log over) T V c = viterbiStep (dblArith log) T V c ∧ ∀ y, Safe (4 * (k + 1)) ((viterbiStep (dblArith log) T V c).get y).1 := by
  have key : ∀ y0 y, rndIeee over (rndIeee over ((V.get y0).1 + (T.trans y0 y).getD T.minFloat) + (T.emit y c).getD T.minFloat) =
        rnd (rnd ((V.get y0).1 + (T.trans y0 y).getD T.minFloat) + (T.emit y c).getD T.minFloat) ∧
      Safe (4 * (k + 1)) (rnd (rnd ((V.get y0).1 + (T.trans y0 y).getD T.minFloat) + (T.emit y c).getD T.minFloat)) := by
    intro y0 y
    obtain ⟨a1, a2⟩ := safe_add over (hV y0) (h.transD y0 y) (by omega)
    obtain ⟨b1, b2⟩ := safe_add over a2 (h.emitD y c) (by omega)
    rw [a1, b1]
    exact ⟨rfl, b2.mono (by omega)⟩
  constructor
  · unfold viterbiStep
    congr 1
    funext y
    simp only [ieeeArith, dblArith, (key _ y).1]
  · intro y
    unfold viterbiStep
    rw [four_mk_get]
    simp only
    have hm := pyMax_mem' (tupLt (fun a b : St => decide (a.rank < b.rank)))
      ((dblArith log).add ((dblArith log).add (V.get (FinalSeg.prevStatus y).1).1 ((T.trans (FinalSeg.prevStatus y).1 y).getD T.minFloat)) ((T.emit y c).getD T.minFloat), (FinalSeg.prevStatus y).1)
      [((dblArith log).add ((dblArith log).add (V.get (FinalSeg.prevStatus y).2).1 ((T.trans (FinalSeg.prevStatus y).2 y).getD T.minFloat)) ((T.emit y c).getD T.minFloat), (FinalSeg.prevStatus y).2)]
    unfold FinalSeg.maxSt
    rcases List.mem_cons.mp hm with hm | hm
    · rw [hm]; exact (key _ y).2
    · rw [List.mem_singleton.mp hm]; exact (key _ y).2

theorem hmmViterbi_eq {T : FinalSeg.Tables ℚ} (h : SafeTables T) (s : Str) (hs : s.length ≤ 2 ^ 50) :
    viterbi (ieeeArith log over) T s = viterbi (dblArith log) T s := by
  cases s with
  | nil => rfl
  | cons c cs =>
    unfold viterbi
    obtain ⟨h1, h2⟩ := hmmInit_eq log over h c
    have key : ∀ (cs : Str) (k : ℕ) (V : Four (ℚ × List St)), 4 * (k + cs.length) ≤ 2 ^ 53 → (∀ y, Safe (4 * k) (V.get y).1) →
        cs.foldl (viterbiStep (ieeeArith log over) T) V = cs.foldl (viterbiStep (dblArith log) T) V := by
      intro cs
      induction cs with
      | nil => intros; rfl
      | cons c cs ih =>
        intro k V hk hV
        rw [List.length_cons] at hk
        obtain ⟨g1, g2⟩ := hmmStep_eq log over h V k (by omega) hV c
        rw [List.foldl_cons, List.foldl_cons, g1]
        exact ih (k + 1) _ (by omega) g2
    simp only [h1, key cs 1 _ (by rw [List.length_cons] at hs; omega) h2]

theorem mem_split_length (a : RE) (h : a.noGroups = true) (s b : Str) (hb : b ∈ (RE.grp 1 a).split s) : b.length ≤ s.length := by
  rw [← RE.split_flatten a h s]
  rw [List.length_flatten]
  exact List.single_le_sum (fun _ _ => Nat.zero_le _) _ (List.mem_map_of_mem hb)

theorem forEach_congr_mem {α β : Type _} (l : List α) (f g : α → Gen β) (h : ∀ a ∈ l, f a = g a) : Gen.forEach l f = Gen.forEach l g := by
  induction l with
  | nil => rfl
  | cons a l ih =>
    unfold Gen.forEach
    rw [h a (by simp), ih (fun b hb => h b (List.mem_cons_of_mem _ hb))]

theorem finalCut_eq {T : FinalSeg.Tables ℚ} (h : SafeTables T) (force : List Str) (s : Str) (hs : s.length ≤ 2 ^ 50) :
    FinalSeg.cut (ieeeArith log over) T force s = FinalSeg.cut (dblArith log) T force s := by
  unfold FinalSeg.cut
  apply forEach_congr_mem
  intro b hb
  have := mem_split_length _ rfl s b hb
  unfold FinalSeg.hmmCut
  rw [hmmViterbi_eq log over h b (by omega)]

theorem flushBuf_eq (freq : Freq) (hmm hmm' : Str → Gen Str) (n : ℕ) (h : ∀ b, b.length ≤ n → hmm b = hmm' b) (b : Str) (hb : b.length ≤ n) :
    flushBuf freq hmm b = flushBuf freq hmm' b := by
  unfold flushBuf
  rw [h b hb]

theorem dagCutLoop_hmm_congr (freq : Freq) (hmm hmm' : Str → Gen Str) (s : Str) (route : List (ℚ × Nat)) (n : ℕ) (h : ∀ b, b.length ≤ n → hmm b = hmm' b)
    (fuel x : Nat) (buf : Str) (hb : buf.length + fuel ≤ n) : dagCutLoop freq hmm s route fuel x buf = dagCutLoop freq hmm' s route fuel x buf := by
  induction fuel generalizing x buf with
  | zero => exact flushBuf_eq freq hmm hmm' n h buf (by omega)
  | succ fuel ih =>
    unfold dagCutLoop
    have hf := flushBuf_eq freq hmm hmm' n h buf (by omega)
    by_cases hx : x < s.length
    · rw [if_pos hx, if_pos hx]
      cases route[x]? with
      | none => rfl
      | some r =>
        simp only
        by_cases hy : r.2 + 1 - x = 1
        · rw [if_pos hy, if_pos hy]
          apply ih
          have : (slice s x (r.2 + 1)).length ≤ 1 := by
            unfold slice
            simp only [List.length_take, List.length_drop]
            omega
          rw [List.length_append]
          omega
        · rw [if_neg hy, if_neg hy, hf, ih (r.2 + 1) [] (by simp only [List.length_nil]; omega)]
    · rw [if_neg hx, if_neg hx, hf]

theorem cutDAG_ieee {freq : Freq} {total : Int} {N : ℕ} (h : LogRange log freq total N) (hmm hmm' : Str → Gen Str) (b : Str) (hb : b.length ≤ 2 ^ 50)
    (hh : ∀ b', b'.length ≤ b.length → hmm b' = hmm' b') :
    cutDAG (ieeeArith log over) freq total hmm b = cutDAG (dblArith log) freq total hmm' b := by
  unfold cutDAG
  rw [calcRoute_eq log over h b hb]
  cases calcRoute (dblArith log) freq total b (getDAG freq b) with
  | error e => rfl
  | ok route => exact dagCutLoop_hmm_congr freq hmm hmm' b route b.length hh b.length 0 [] (by rw [List.length_nil, Nat.zero_add])

theorem cutDAGNoHMM_ieee {freq : Freq} {total : Int} {N : ℕ} (h : LogRange log freq total N) (b : Str) (hb : b.length ≤ 2 ^ 50) :
    cutDAGNoHMM (ieeeArith log over) freq total b = cutDAGNoHMM (dblArith log) freq total b := by
  unfold cutDAGNoHMM
  rw [calcRoute_eq log over h b hb]

theorem cutBlock_ieee {freq : Freq} {total : Int} {N : ℕ} (h : LogRange log freq total N) (T : FinalSeg.Tables ℚ) (hT : SafeTables T)
    (force : List Str) (ca hmm : Bool) (b : Str) (hb : b.length ≤ 2 ^ 50) :
    cutBlock ⟨ieeeArith log over, freq, total, T, force⟩ ca hmm b = cutBlock ⟨dblArith log, freq, total, T, force⟩ ca hmm b := by
  unfold cutBlock
  rw [cutDAGNoHMM_ieee log over h b hb]
  rw [cutDAG_ieee log over h (Env.hmm ⟨ieeeArith log over, freq, total, T, force⟩) (Env.hmm ⟨dblArith log, freq, total, T, force⟩) b hb
    (fun b' hb' => finalCut_eq log over hT force b' (hb'.trans hb))]

theorem cut_ieee_eq {freq : Freq} {total : Int} {N : ℕ} (h : LogRange log freq total N) (T : FinalSeg.Tables ℚ) (hT : SafeTables T)
    (force : List Str) (ca hmm : Bool) (s : Str) (hs : s.length ≤ 2 ^ 50) :
    cut ⟨ieeeArith log over, freq, total, T, force⟩ ca hmm s = cut ⟨dblArith log, freq, total, T, force⟩ ca hmm s := by
  unfold cut
  apply forEach_congr_mem
  intro b hb
  have hl : b.length ≤ s.length := mem_split_length (.plus isWordCh) rfl s b hb
  rw [cutBlock_ieee log over h T hT force ca hmm b (hl.trans hs)]

end Jieba
