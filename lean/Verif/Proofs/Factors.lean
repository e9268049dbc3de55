import Verif.Proofs.Search
import Verif.Proofs.PosWords
import Verif.Spec.Factors
/-!
# Lemmas: only the strings that occur in the text are looked up
-/

set_option linter.unusedSectionVars false

namespace Jieba
open Jieba.Spec

variable {F : Type _} [LinearOrder F]

theorem slice_infix (s : Str) (i j : Nat) : slice s i j <:+: s := by
  unfold slice
  exact (List.drop_suffix _ _).isInfix.trans (List.take_prefix _ _).isInfix

theorem mem_flatten_infix (l : List Str) (b : Str) (h : b ∈ l) : b <:+: l.flatten := by
  obtain ⟨p, q, rfl⟩ := List.append_of_mem h
  exact ⟨p.flatten, q.flatten, by simp⟩

theorem block_infix (a : RE) (h : a.noGroups = true) (s b : Str) (hb : b ∈ (RE.grp 1 a).split s) : b <:+: s := by
  have := mem_flatten_infix _ b hb
  rwa [RE.split_flatten a h s] at this

theorem Spec.AgreeOn.mono {d d' : Freq} {s t : Str} (h : AgreeOn d d' s) (ht : t <:+: s) : AgreeOn d d' t :=
  fun v hv hi => h v hv (hi.trans ht)

theorem truthy_stored (d : Freq) (v : Str) : d.truthy v = (stored d v != 0) := by
  unfold Freq.truthy stored
  cases PyDict.get? d v <;> simp

theorem freqOr1_stored (d : Freq) (v : Str) : freqOr1 d v = if stored d v = 0 then 1 else stored d v := by
  unfold freqOr1 stored
  cases PyDict.get? d v <;> simp

theorem Spec.AgreeOn.truthy {d d' : Freq} {s : Str} (h : AgreeOn d d' s) (v : Str) (hv : v ≠ []) (hi : v <:+: s) :
    d.truthy v = d'.truthy v := by
  rw [truthy_stored, truthy_stored, h v hv hi]

theorem getDAG_agree {d d' : Freq} (hp : PrefixClosed d) (hp' : PrefixClosed d') {s : Str} (h : AgreeOn d d' s) :
    getDAG d s = getDAG d' s := by
  unfold getDAG
  apply List.map_congr_left
  intro k hk
  have hk : k < s.length := List.mem_range.mp hk
  rw [dagRow_exact d hp s k hk, dagRow_exact d' hp' s k hk]
  have : (List.range' k (s.length - k)).filter (fun j => d.truthy (slice s k (j + 1))) =
      (List.range' k (s.length - k)).filter (fun j => d'.truthy (slice s k (j + 1))) := by
    apply List.filter_congr
    intro j hj
    rw [List.mem_range'_1] at hj
    exact h.truthy _ (slice_ne_nil _ _ _ (by omega) hk) (slice_infix _ _ _)
  rw [this]

theorem mapM_congr_mem {α β} {ε} (l : List α) (f g : α → Except ε β) (h : ∀ a ∈ l, f a = g a) : l.mapM f = l.mapM g := by
  induction l with
  | nil => rfl
  | cons a l ih =>
    rw [List.mapM_cons, List.mapM_cons, h a (by simp), ih (fun b hb => h b (by simp [hb]))]

theorem calcRoute_agree {d d' : Freq} {s : Str} (h : AgreeOn d d' s) (A : Arith F) (total : Int) :
    calcRoute A d total s (getDAG d s) = calcRoute A d' total s (getDAG d s) := by
  have hl : ∀ lt n tail, calcLoop A d lt s (getDAG d s) n tail = calcLoop A d' lt s (getDAG d s) n tail := by
    intro lt n
    induction n with
    | zero => intro tail; rfl
    | succ n ih =>
      intro tail
      unfold calcLoop
      by_cases hn : n < s.length
      · rw [getDAG_get d s n hn]
        simp only [ih]
        rw [mapM_congr_mem _ _ _ (fun x hx => ?_)]
        have hb := (dagRow_bounds d s n hn).2 x hx
        unfold edgeScore; dsimp only
        rw [freqOr1_stored, freqOr1_stored, h _ (slice_ne_nil _ _ _ (by omega) hn) (slice_infix _ _ _)]
      · rw [List.getElem?_eq_none (by simp [getDAG]; omega)]
  unfold calcRoute
  simp only [hl]

theorem route_agree {d d' : Freq} (hp : PrefixClosed d) (hp' : PrefixClosed d') {s : Str} (h : AgreeOn d d' s) (A : Arith F)
    (total : Int) : calcRoute A d total s (getDAG d s) = calcRoute A d' total s (getDAG d' s) := by
  rw [calcRoute_agree h, getDAG_agree hp hp' h]

/-- The pending characters and the rest of the text are a part of the text. -/
theorem buf_step (s buf : Str) (x y : Nat) (h : buf ++ s.drop x <:+ s) (hy : y - x = 1) :
    (buf ++ slice s x y) ++ s.drop y <:+ s := by
  rw [List.append_assoc, slice_append_drop _ _ _ (by omega)]
  exact h

theorem buf_infix (s buf : Str) (x : Nat) (h : buf ++ s.drop x <:+ s) : buf <:+: s :=
  (List.prefix_append buf _).isInfix.trans h.isInfix

theorem dagCutLoop_agree {d d' : Freq} {s : Str} (h : AgreeOn d d' s) (hmm hmm' : Str → Gen Str)
    (hh : ∀ b, b <:+: s → hmm b = hmm' b) (route : List (F × Nat)) (fuel x : Nat) (buf : Str) (hb : buf ++ s.drop x <:+ s) :
    dagCutLoop d hmm s route fuel x buf = dagCutLoop d' hmm' s route fuel x buf := by
  have hf : ∀ buf, buf <:+: s → flushBuf d hmm buf = flushBuf d' hmm' buf := by
    intro buf hi
    unfold flushBuf
    by_cases he : buf = []
    · rw [if_pos he, if_pos he]
    · rw [if_neg he, if_neg he, h.truthy buf he hi, hh buf hi]
  induction fuel generalizing x buf with
  | zero => exact hf buf (buf_infix s buf x hb)
  | succ n ih =>
    unfold dagCutLoop
    rw [hf buf (buf_infix s buf x hb)]
    cases route[x]? with
    | none => rfl
    | some r =>
      simp only
      rw [ih (r.2 + 1) [] (by simpa using List.drop_suffix _ _)]
      by_cases hy : r.2 + 1 - x = 1
      · rw [ih (r.2 + 1) _ (buf_step s buf x _ hb hy)]
      · simp only [if_neg hy]

theorem mapOut_congr {α β} (g : Gen α) (f f' : α → List β) (h : ∀ a ∈ g.out, f a = f' a) : g.mapOut f = g.mapOut f' := by
  have : g.out.flatMap f = g.out.flatMap f' := by
    rw [List.flatMap_def, List.flatMap_def, List.map_congr_left h]
  unfold Gen.mapOut
  rw [this]

theorem hmmCut_infix (A : Arith F) (T : FinalSeg.Tables F) (b w : Str) (hw : w ∈ (FinalSeg.hmmCut A T b).out) : w <:+: b := by
  by_cases hb : b = []
  · subst hb; simp [FinalSeg.hmmCut, FinalSeg.viterbi, Gen.raise] at hw
  · obtain ⟨ws, h1, h2⟩ := FinalSeg.hmmCut_spec A T b hb
    rw [h1] at hw
    have := mem_flatten_infix ws w hw
    rwa [h2.1] at this

theorem Spec.EnvAgreeOn.mono {E E' : Env F} {s t : Str} (h : EnvAgreeOn E E' s) (ht : t <:+: s) : EnvAgreeOn E E' t :=
  ⟨h.A, h.total, h.tables, h.closed, h.closed', h.freq.mono ht, fun v hv => h.force v (hv.trans ht)⟩

theorem Spec.EnvAgreeOn.hmm {E E' : Env F} {s : Str} (h : EnvAgreeOn E E' s) (b : Str) (hb : b <:+: s) : E.hmm b = E'.hmm b := by
  unfold Env.hmm FinalSeg.cut
  rw [h.A, h.tables]
  apply Gen.forEach_congr
  intro blk hblk
  have hi := (block_infix _ rfl _ _ hblk).trans hb
  split
  · apply mapOut_congr
    intro w hw
    simp only [h.force w ((hmmCut_infix _ _ _ _ hw).trans hi)]
  · rfl

theorem Spec.EnvAgreeOn.cut {E E' : Env F} {s : Str} (h : EnvAgreeOn E E' s) (ca hm : Bool) : cut E ca hm s = cut E' ca hm s := by
  unfold Jieba.cut
  apply Gen.forEach_congr
  intro blk hblk
  have h := h.mono (block_infix _ rfl _ _ hblk)
  have : cutBlock E ca hm blk = cutBlock E' ca hm blk := by
    unfold cutBlock cutAll cutDAG cutDAGNoHMM
    rw [route_agree h.closed h.closed' h.freq, getDAG_agree h.closed h.closed' h.freq, h.A, h.total]
    have : ∀ route, dagCutLoop E.freq E.hmm blk route blk.length 0 [] = dagCutLoop E'.freq E'.hmm blk route blk.length 0 [] :=
      fun route => dagCutLoop_agree (F := F) h.freq _ _ h.hmm route _ _ _ (by simp)
    simp only [this]
  rw [this]

theorem cut_word_infix (E : Env F) (hm : Bool) (s w : Str) (hw : w ∈ (cut E false hm s).out) : w <:+: s :=
  (mem_flatten_infix _ w hw).trans (cut_lossless E hm s).isPrefix.isInfix

theorem grams_agree {d d' : Freq} {w : Str} (h : AgreeOn d d' w) (n : Nat) (hn : 0 < n) : grams d n w = grams d' n w := by
  unfold grams
  by_cases hl : n < w.length
  · rw [if_pos hl, if_pos hl]
    apply List.filter_congr
    intro g hg
    rw [List.mem_map] at hg
    obtain ⟨i, hi, rfl⟩ := hg
    rw [List.mem_range] at hi
    exact h.truthy _ (slice_ne_nil _ _ _ (by omega) (by omega)) (slice_infix _ _ _)
  · rw [if_neg hl, if_neg hl]

theorem gramSpans_agree {d d' : Freq} {w : Str} (h : AgreeOn d d' w) (n : Nat) (hn : 0 < n) (o : Nat) :
    gramSpans d n w o = gramSpans d' n w o := by
  unfold gramSpans
  by_cases hl : n < w.length
  · rw [if_pos hl, if_pos hl]
    congr 1
    apply List.filter_congr
    intro i hi
    rw [List.mem_range] at hi
    exact h.truthy _ (slice_ne_nil _ _ _ (by omega) (by omega)) (slice_infix _ _ _)
  · rw [if_neg hl, if_neg hl]

theorem Spec.EnvAgreeOn.cutForSearch {E E' : Env F} {s : Str} (h : EnvAgreeOn E E' s) (hm : Bool) :
    cutForSearch E hm s = cutForSearch E' hm s := by
  unfold Jieba.cutForSearch
  rw [← h.cut]
  apply mapOut_congr
  intro w hw
  have hf := h.freq.mono (cut_word_infix _ _ _ _ hw)
  rw [grams_agree hf 2 (by omega), grams_agree hf 3 (by omega)]

theorem tokenizeLoop_agree {d d' : Freq} (search : Bool) (ws : List Str) (h : ∀ w ∈ ws, AgreeOn d d' w) (o : Nat) :
    tokenizeLoop d search ws o = tokenizeLoop d' search ws o := by
  induction ws generalizing o with
  | nil => rfl
  | cons w ws ih =>
    unfold tokenizeLoop
    rw [ih (fun x hx => h x (by simp [hx])), gramSpans_agree (h w (by simp)) 2 (by omega), gramSpans_agree (h w (by simp)) 3 (by omega)]

theorem Spec.EnvAgreeOn.tokenize {E E' : Env F} {s : Str} (h : EnvAgreeOn E E' s) (search hm : Bool) :
    tokenize E search hm s = tokenize E' search hm s := by
  unfold Jieba.tokenize
  simp only [← h.cut]
  rw [tokenizeLoop_agree search _ (fun w hw => h.freq.mono (cut_word_infix _ _ _ _ hw))]

/-! ## posseg -/

namespace Pos

theorem noHmmLoop_agree {tab tab' : PyDict Str Str} {s : Str} (h : ∀ v, v <:+: s → tagOf tab v = tagOf tab' v)
    (route : List (F × Nat)) (fuel x : Nat) (buf : Str) :
    noHmmLoop tab s route fuel x buf = noHmmLoop tab' s route fuel x buf := by
  induction fuel generalizing x buf with
  | zero => rfl
  | succ n ih => unfold noHmmLoop; simp only [ih, h _ (slice_infix s _ _)]

theorem PEnvAgreeOn.tag {E E' : PEnv F} {s : Str} (h : PEnvAgreeOn E E' s) (v : Str) (hv : v <:+: s) :
    tagOf E.tab v = tagOf E'.tab v := h.tab v hv

theorem PEnvAgreeOn.mono {E E' : PEnv F} {s t : Str} (h : PEnvAgreeOn E E' s) (ht : t <:+: s) : PEnvAgreeOn E E' t :=
  ⟨h.A, h.total, h.tables, h.σ, h.closed, h.closed', h.freq.mono ht, fun v hv => h.tab v (hv.trans ht)⟩

theorem dagCutLoop_agree {E E' : PEnv F} {s : Str} (h : PEnvAgreeOn E E' s)
    (route : List (F × Nat)) (fuel x : Nat) (buf : Str) (hb : buf ++ s.drop x <:+ s) :
    dagCutLoop E s route fuel x buf = dagCutLoop E' s route fuel x buf := by
  have hd : cutDetail E = cutDetail E' := by
    funext b
    unfold cutDetail hmmCut
    rw [h.A, h.tables, h.σ]
  have hf : ∀ buf, buf <:+: s → flushBuf E buf = flushBuf E' buf := by
    intro buf hi
    unfold flushBuf
    by_cases he : buf = []
    · rw [if_pos he, if_pos he]
    · rw [if_neg he, if_neg he, h.freq.truthy buf he hi, PEnvAgreeOn.tag h buf hi, hd]
      have : buf.map (fun c => ([c], tagOf E.tab [c])) = buf.map (fun c => ([c], tagOf E'.tab [c])) := by
        apply List.map_congr_left
        intro c hc
        have hci : [c] <:+: buf := by
          obtain ⟨p, q, hpq⟩ := List.append_of_mem hc
          exact ⟨p, q, by simp [hpq]⟩
        rw [PEnvAgreeOn.tag h [c] (hci.trans hi)]
      rw [this]
  induction fuel generalizing x buf with
  | zero => exact hf buf (buf_infix s buf x hb)
  | succ n ih =>
    unfold dagCutLoop
    rw [hf buf (buf_infix s buf x hb)]
    cases route[x]? with
    | none => rfl
    | some r =>
      simp only
      rw [ih (r.2 + 1) [] (by simpa using List.drop_suffix _ _), PEnvAgreeOn.tag h _ (slice_infix s _ _)]
      by_cases hy : r.2 + 1 - x = 1
      · rw [ih (r.2 + 1) _ (buf_step s buf x _ hb hy)]
      · simp only [if_neg hy]

theorem PEnvAgreeOn.cut {E E' : PEnv F} {s : Str} (h : PEnvAgreeOn E E' s) (hm : Bool) : cut E hm s = cut E' hm s := by
  unfold Pos.cut
  apply Gen.forEach_congr
  intro blk hblk
  have h := PEnvAgreeOn.mono h (block_infix _ rfl _ _ hblk)
  have : cutBlock E hm blk = cutBlock E' hm blk := by
    unfold cutBlock cutDAG cutDAGNoHMM
    rw [route_agree h.closed h.closed' h.freq, h.A, h.total]
    have : ∀ route, dagCutLoop E blk route blk.length 0 [] = dagCutLoop E' blk route blk.length 0 [] :=
      fun route => dagCutLoop_agree h route _ _ _ (by simp)
    simp only [this, noHmmLoop_agree (PEnvAgreeOn.tag h)]
  rw [this]

end Pos
end Jieba
