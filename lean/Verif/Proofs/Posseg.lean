import Verif.Proofs.Cut
import Verif.Proofs.Parallel
import Verif.Proofs.PosTotal
/-!
# Helper lemmas: segmentation with POS tags
-/

set_option linter.unusedSectionVars false

namespace Jieba.Pos
open Jieba Jieba.Spec

variable {F : Type _} [LinearOrder F]

/-- The words of a generator of pairs. -/
def words (g : Gen Pair) : Gen Str := ⟨g.out.map Prod.fst, g.err⟩

@[simp] theorem words_ok (l : List Pair) : words (Gen.ok l) = Gen.ok (l.map Prod.fst) := rfl
@[simp] theorem words_raise (e : PyErr) : words (Gen.raise e) = Gen.raise e := rfl

theorem words_andThen (g h : Gen Pair) : words (Gen.andThen g h) = Gen.andThen (words g) (words h) := by
  obtain ⟨go, ge⟩ := g
  cases ge <;> simp [Gen.andThen, words]

theorem words_forEach {α} (l : List α) (f : α → Gen Pair) :
    words (Gen.forEach l f) = Gen.forEach l (fun a => words (f a)) := by
  induction l with
  | nil => rfl
  | cons a l ih => rw [Gen.forEach_cons, words_andThen, ih]; rfl

theorem words_ofExcept {α} (x : Except PyErr α) (k : α → Gen Pair) :
    words (Gen.ofExcept x k) = Gen.ofExcept x (fun a => words (k a)) := by
  cases x <;> rfl

/-! ## The HMM -/

theorem cutLoop_spec (sent : Str) (pos : List PState) (hpos : pos.length = sent.length)
    (rest : List (Ch × PState)) (i begin nexti : Nat)
    (hrest : rest.map Prod.fst = sent.drop i) (hi : i ≤ sent.length) (hn : nexti ≤ i)
    (hin : ∀ t, (rest.map Prod.snd).head? = some t → ¬ (t.1 = chB ∨ t.1 = chS) → begin = nexti)
    (hout : ∀ t, (rest.map Prod.snd).head? = some t → (t.1 = chB ∨ t.1 = chS) → nexti = i)
    (hv : (rest.map Prod.snd).IsChain (fun x y => mayFollowPos x.1 y.1 = true)) :
    ∃ ws, cutLoop sent pos rest i begin nexti = Gen.ok ws ∧ (ws.map Prod.fst).flatten = sent.drop nexti ∧
      ∀ w ∈ ws, w.1 ≠ [] := by
  induction rest generalizing i begin nexti with
  | nil =>
    unfold cutLoop
    by_cases h : nexti < sent.length
    · rw [if_pos h, List.getElem?_eq_getElem (by omega)]
      refine ⟨_, rfl, by simp, ?_⟩
      intro w hw
      simp at hw; subst hw
      simp; omega
    · rw [if_neg h]
      exact ⟨_, rfl, by simp; omega, by simp⟩
  | cons q rest ih =>
    obtain ⟨c, p⟩ := q
    have hilt : i < sent.length := by
      by_contra hcon
      have : sent.drop i = [] := List.drop_eq_nil_of_le (by omega)
      rw [this] at hrest; simp at hrest
    rw [List.drop_eq_getElem_cons hilt, List.map_cons] at hrest
    simp only [List.cons.injEq] at hrest
    obtain ⟨hc, hrest'⟩ := hrest
    have hv' : (rest.map Prod.snd).IsChain (fun x y => mayFollowPos x.1 y.1 = true) := by
      have := hv; rw [List.map_cons] at this; exact this.of_cons
    have hnext : ∀ t, (rest.map Prod.snd).head? = some t → mayFollowPos p.1 t.1 = true := by
      intro t ht
      cases rest with
      | nil => simp at ht
      | cons q' rest =>
        simp at ht; subst ht
        simp only [List.map_cons, List.isChain_cons_cons] at hv
        exact hv.1
    have hnB : chB ≠ chE ∧ chB ≠ chS ∧ chB ≠ chM ∧ chE ≠ chS ∧ chE ≠ chM ∧ chS ≠ chM := by decide
    obtain ⟨n1, n2, n3, n4, n5, n6⟩ := hnB
    unfold cutLoop
    by_cases hB : p.1 = chB
    · rw [if_pos hB]
      have e := hout p (by simp) (Or.inl hB)
      refine ih (i + 1) i nexti hrest' (by omega) (by omega) ?_ ?_ hv'
      · intros; exact e.symm
      · intro t ht h
        have := hnext t ht
        unfold mayFollowPos at this
        simp only [hB, decide_true, Bool.true_or, if_true, Bool.or_eq_true, decide_eq_true_eq] at this
        rcases h with h | h <;> rcases this with h' | h' <;> simp_all
    rw [if_neg hB]
    by_cases hE : p.1 = chE
    · rw [if_pos hE]
      have e := hin p (by simp) (by rw [hE]; intro h; rcases h with h | h; exact n1 h.symm; exact n4 h)
      obtain ⟨ws, h1, h2, h3⟩ := ih (i + 1) begin (i + 1) hrest' (by omega) (by omega) (by
          intro t ht h
          have := hnext t ht
          unfold mayFollowPos at this
          simp [hE, n1.symm, n5] at this
          exact absurd this h) (fun _ _ _ => rfl) hv'
      subst e
      refine ⟨_, by rw [h1]; rfl, ?_, ?_⟩
      · simp only [Gen.ok_out, List.map_append, List.map_cons, List.map_nil, List.flatten_append, h2]
        simp [slice_append_drop _ _ _ (show begin ≤ i + 1 by omega)]
      · intro w hw
        rcases List.mem_append.mp hw with hw | hw
        · simp at hw; subst hw
          exact slice_ne_nil _ _ _ (by omega) (by omega)
        · exact h3 w hw
    rw [if_neg hE]
    by_cases hS : p.1 = chS
    · rw [if_pos hS]
      have e := hout p (by simp) (Or.inr hS)
      obtain ⟨ws, h1, h2, h3⟩ := ih (i + 1) begin (i + 1) hrest' (by omega) (by omega) (by
          intro t ht h
          have := hnext t ht
          unfold mayFollowPos at this
          simp [hS, n2.symm, n4.symm, n6] at this
          exact absurd this h) (fun _ _ _ => rfl) hv'
      subst e
      refine ⟨_, by rw [h1]; rfl, ?_, ?_⟩
      · simp only [Gen.ok_out, List.map_append, List.map_cons, List.map_nil, List.flatten_append, h2]
        rw [List.drop_eq_getElem_cons hilt]; simp [hc]
      · intro w hw
        rcases List.mem_append.mp hw with hw | hw
        · simp at hw; subst hw; simp
        · exact h3 w hw
    rw [if_neg hS]
    have e := hin p (by simp) (by tauto)
    refine ih (i + 1) begin nexti hrest' (by omega) (by omega) ?_ ?_ hv'
    · intros; exact e
    · intro t ht h
      have := hnext t ht
      unfold mayFollowPos at this
      by_cases hM : p.1 = chM
      · simp [hM] at this
        rcases h with h | h <;> rcases this with h' | h' <;> simp_all
      · simp [hB, hM, hE, hS] at this

/-- `__cut` on a non-empty block: never raises, lossless, no empty words. -/
theorem hmmCut_spec (E : PEnv F) (hT : TablesOK E.tables) (hB : TransBMES E.tables)
    (hσ : ∀ s t l, (E.σ s t l).Perm l) (sent : Str) (h : sent ≠ []) :
    ∃ ws, hmmCut E sent = Gen.ok ws ∧ (ws.map Prod.fst).flatten = sent ∧ ∀ w ∈ ws, w.1 ≠ [] := by
  obtain ⟨p, route, heq, hl, hv⟩ := viterbi_ok E.A E.tables hT (E.σ sent) (hσ sent) sent h
  have hsnd : (sent.zip route).map Prod.snd = route := List.map_snd_zip (by rw [hl])
  obtain ⟨ws, h1, h2, h3⟩ := cutLoop_spec sent route hl (sent.zip route) 0 0 0
    (by rw [List.map_fst_zip (by rw [hl])]; rfl)
    (by simp) (by simp) (by simp) (by simp) (by rw [hsnd]; exact hv.imp (fun x y hxy => hB.follow x y hxy))
  exact ⟨ws, by unfold hmmCut; rw [heq]; exact h1, by simpa using h2, h3⟩

theorem map_skipPair_fst (l : List Str) : (l.map skipPair).map Prod.fst = l := by
  induction l with
  | nil => rfl
  | cons x l ih =>
    simp only [List.map_cons, ih]
    congr 1
    unfold skipPair
    split <;> [rfl; split <;> rfl]

theorem flatten_filter_ne_nil (l : List Str) : (l.filter (fun x => x ≠ [])).flatten = l.flatten := by
  induction l with
  | nil => rfl
  | cons w l ih => by_cases h : w = [] <;> simp_all

/-- `__cut_detail`: never raises, lossless, no empty words. -/
theorem cutDetail_spec (E : PEnv F) (hT : TablesOK E.tables) (hB : TransBMES E.tables)
    (hσ : ∀ s t l, (E.σ s t l).Perm l) (s : Str) :
    ∃ ws, words (cutDetail E s) = Gen.ok ws ∧ IsSegmentation ws s := by
  unfold cutDetail
  rw [words_forEach]
  have := FinalSeg.forEach_segmentation (l := reHan.split s) (f := fun blk => words (
    if reHan.isMatch blk then hmmCut E blk
    else Gen.ok (((reSkipDetail.split blk).filter (fun x => x ≠ [])).map skipPair))) (by
      intro b _
      by_cases hm : reHan.isMatch b = true
      · rw [if_pos hm]
        obtain ⟨ws, h1, h2, h3⟩ := hmmCut_spec E hT hB hσ b
          (by rintro rfl; simp [reHan, isMatch_plus] at hm)
        refine ⟨_, by rw [h1]; rfl, h2, ?_⟩
        intro w hw
        obtain ⟨q, hq, rfl⟩ := List.mem_map.mp hw
        exact h3 q hq
      · rw [if_neg hm]
        refine ⟨_, rfl, ?_, ?_⟩
        · simp only [Gen.ok_out]
          rw [map_skipPair_fst, flatten_filter_ne_nil]
          exact RE.split_flatten _ rfl b
        · intro w hw
          simp only [Gen.ok_out] at hw
          rw [map_skipPair_fst] at hw
          simp at hw; exact hw.2)
  rwa [show (reHan.split s).flatten = s from RE.split_flatten _ rfl s] at this

/-! ## The block cutters against those of the plain tokenizer -/

theorem words_flushBuf (E : PEnv F) (buf : Str) :
    words (flushBuf E buf) = Jieba.flushBuf E.freq (fun b => words (cutDetail E b)) buf := by
  unfold flushBuf Jieba.flushBuf
  split
  · rfl
  split
  · rfl
  split
  · rfl
  · rw [words_ok, List.map_map]; rfl

theorem words_dagCutLoop (E : PEnv F) (s : Str) (route : List (F × Nat)) (fuel x : Nat) (buf : Str) :
    words (dagCutLoop E s route fuel x buf) =
      Jieba.dagCutLoop E.freq (fun b => words (cutDetail E b)) s route fuel x buf := by
  induction fuel generalizing x buf with
  | zero => exact words_flushBuf E buf
  | succ fuel ih =>
    unfold dagCutLoop Jieba.dagCutLoop
    split
    · cases route[x]? with
      | none => rfl
      | some r =>
        simp only []
        split
        · exact ih _ _
        · rw [words_andThen, words_andThen, words_flushBuf, ih]; rfl
    · exact words_flushBuf E buf

theorem words_cutDAG (E : PEnv F) (s : Str) :
    words (cutDAG E s) = Jieba.cutDAG E.A E.freq E.total (fun b => words (cutDetail E b)) s := by
  unfold cutDAG Jieba.cutDAG
  rw [words_ofExcept]
  congr 1
  funext route
  exact words_dagCutLoop E s route _ _ _

theorem reEng1_isMatch (w : Str) (h : (0x0A : Ch) ∉ w) :
    reEng1.isMatch w = (reEng.isMatch w && w.length == 1) := by
  unfold reEng1 reEng
  rw [isMatch_cls]
  match w with
  | [] => rfl
  | [c] => by_cases hc : isAlnum c = true <;> simp [RE.isMatch, RE.pmatch, RE.run, hc]
  | c :: d :: w =>
    simp at h
    have : ¬ (d = 0x0A ∧ w = []) := fun h' => h.2.1 h'.1.symm
    by_cases hc : isAlnum c = true <;> simp [RE.isMatch, RE.pmatch, RE.run, hc, this]

theorem mem_of_mem_slice {α} (s : List α) (i j : Nat) (c : α) (h : c ∈ slice s i j) : c ∈ s := by
  unfold slice at h
  exact List.mem_of_mem_take (List.mem_of_mem_drop h)

theorem words_noHmmLoop (tab : PyDict Str Str) (s : Str) (hs : (0x0A : Ch) ∉ s) (route : List (F × Nat)) (fuel x : Nat)
    (buf : Str) : words (noHmmLoop tab s route fuel x buf) = Jieba.noHmmLoop s route fuel x buf := by
  induction fuel generalizing x buf with
  | zero => unfold noHmmLoop Jieba.noHmmLoop; split <;> rfl
  | succ fuel ih =>
    unfold noHmmLoop Jieba.noHmmLoop
    split
    · cases route[x]? with
      | none => rfl
      | some r =>
        simp only []
        rw [reEng1_isMatch _ (fun h => hs (mem_of_mem_slice _ _ _ _ h))]
        split
        · exact ih _ _
        · rw [words_andThen, ih]
          congr 1
          split <;> rfl
    · split <;> rfl

theorem words_cutDAGNoHMM (E : PEnv F) (s : Str) (hs : (0x0A : Ch) ∉ s) :
    words (cutDAGNoHMM E s) = Jieba.cutDAGNoHMM E.A E.freq E.total s := by
  unfold cutDAGNoHMM Jieba.cutDAGNoHMM
  rw [words_ofExcept]
  congr 1
  funext route
  exact words_noHmmLoop E.tab s hs route _ _ _

/-! ## Blocks without word characters -/

theorem isWordChPos_nl : isWordChPos 0x0A = false := by decide

theorem not_num_of_nonword (c : Ch) (h : isWordChPos c = false) : (c == 0x2E || isDigit c) = false ∧ isAlnum c = false := by
  simp only [isWordChPos, isAlnum, Bool.or_eq_false_iff] at *
  tauto

theorem mem_pieces {a : RE} (ha : a.noGroups = true) {s x : Str} {c : Ch} (hx : x ∈ (RE.grp 1 a).split s) (hc : c ∈ x) : c ∈ s := by
  rw [← RE.split_flatten a ha s]
  exact List.mem_flatten.mpr ⟨x, hx, hc⟩

/-- Blocks without word characters: every character is tagged 'x'. -/
theorem cutSkip_eq (blk : Str) (h : ∀ c ∈ blk, isWordChPos c = false) :
    cutSkip blk = (charTokens blk).map (fun w => (w, flagX)) := by
  rw [← cutSkip_false]
  unfold cutSkip Jieba.cutSkip
  rw [List.map_flatMap]
  apply List.flatMap_congr
  intro x hx
  have hx' : ∀ c ∈ x, isWordChPos c = false := fun c hc => h c (mem_pieces rfl hx hc)
  split
  · rfl
  · simp only [Bool.not_false, if_true, List.map_map]
    apply List.map_congr_left
    intro c hc
    obtain ⟨h1, -⟩ := not_num_of_nonword c (hx' c hc)
    have h3 : reEngPos.isMatch x = false := by
      unfold reEngPos
      rw [isMatch_plus']
      cases x with
      | nil => rfl
      | cons d x => exact (not_num_of_nonword d (hx' d (by simp))).2
    have h4 : reNum.isMatch [c] = false := by
      unfold reNum
      rw [isMatch_plus']; exact h1
    simp [h3, h4]

theorem cutSkip_nil : cutSkip [] = [] := by decide

/-! ## The whole text -/

theorem cut_eq_scan (E : PEnv F) (hm : Bool) (s : Str) :
    cut E hm s = scan isWordChPos (cutBlock E hm) (fun b => Gen.ok ((charTokens b).map (fun w => (w, flagX)))) s := by
  unfold cut scan reHanInternal
  rw [forEach_split_plus _ _ _ (by rw [if_neg (by simp [isMatch_plus]), cutSkip_nil])]
  apply Gen.forEach_congr
  intro b hb
  have hne := chunks_ne_nil _ _ b hb
  have hu := chunks_uniform _ _ b hb
  rw [isMatch_eq_any _ _ b hne hu]
  split
  · rfl
  · rename_i hany
    rw [cutSkip_eq]
    rcases hu with h | h
    · exfalso; apply hany
      cases b with
      | nil => exact absurd rfl hne
      | cons c u => simp [h c (by simp)]
    · exact h

theorem words_scan (p : Ch → Bool) (fW fN : Str → Gen Pair) (s : Str) :
    words (scan p fW fN s) = scan p (fun b => words (fW b)) (fun b => words (fN b)) s := by
  unfold scan
  rw [words_forEach]
  apply Gen.forEach_congr
  intro b _
  split <;> rfl

theorem words_cut (E : PEnv F) (hm : Bool) (s : Str) :
    words (cut E hm s) = scan isWordChPos (fun b => words (cutBlock E hm b)) (fun b => Gen.ok (charTokens b)) s := by
  rw [cut_eq_scan, words_scan]
  congr 1
  funext b
  simp [Function.comp_def]

theorem nl_notMem (b : Str) (h : ∀ c ∈ b, isWordChPos c = true) : (0x0A : Ch) ∉ b := by
  intro hb
  have := h _ hb
  rw [isWordChPos_nl] at this
  exact Bool.noConfusion this

theorem cutBlock_lossless (E : PEnv F) (hm : Bool)
    (hd : hm = true → ∀ b, ∃ ws, words (cutDetail E b) = Gen.ok ws ∧ IsSegmentation ws b) (b : Str)
    (hb : ∀ c ∈ b, isWordChPos c = true) : Lossless (words (cutBlock E hm b)) b := by
  cases hm
  · change Lossless (words (cutDAGNoHMM E b)) b
    rw [words_cutDAGNoHMM E b (nl_notMem b hb)]
    exact Jieba.cutDAGNoHMM_lossless _ _ _ _
  · change Lossless (words (cutDAG E b)) b
    rw [words_cutDAG]
    apply Jieba.cutDAG_lossless
    intro u _
    obtain ⟨ws, h1, h2⟩ := hd rfl u
    rw [h1]; exact Lossless.ok h2

theorem cut_lossless (E : PEnv F) (hm : Bool)
    (hd : hm = true → ∀ b, ∃ ws, words (cutDetail E b) = Gen.ok ws ∧ IsSegmentation ws b) (s : Str) :
    Lossless (words (cut E hm s)) s := by
  rw [words_cut]
  apply scan_lossless
  · intro b _ hb; exact cutBlock_lossless E hm hd b hb
  · intro b _ _; exact Lossless.ok (charTokens_flatten b)

/-! ## Lines -/

theorem isWordChPos_of_lineBreak (c : Ch) (h : isLineBreak c = true) : isWordChPos c = false := by
  have := isWordCh_of_lineBreak c h
  simp only [isWordCh, isWordChPos, Bool.or_eq_false_iff] at *
  tauto

theorem cut_lines (E : PEnv F) (hm : Bool) (s : Str) :
    cut E hm s = Gen.forEach (splitlinesKeep s) (cut E hm) := by
  refine forEach_splitlines (cut E hm) rfl ?_ s
  intro a b c hc hcr
  simp only [cut_eq_scan]
  apply scan_split_space isWordChPos (cutBlock E hm) (fun b => (charTokens b).map (fun w => (w, flagX))) rfl c
    (isWordChPos_of_lineBreak c hc)
  intro u v hv
  rw [← List.map_append, show u ++ c :: v = (u ++ [c]) ++ v by simp]
  congr 1
  apply charTokens_append
  intro x y hx hy hxy
  simp at hx
  subst hx
  exact hcr ⟨hxy.1, by rw [hv y hy, hxy.2]⟩

end Jieba.Pos
