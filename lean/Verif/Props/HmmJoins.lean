import Verif.Props.Segmentation
import Verif.Props.Posseg

/-! # C117: the HMM only joins single characters -/

namespace Jieba.Spec

/-- `coarse` arises from `fine` by joining neighbours, and only pieces of one character are joined. -/
def JoinsSingles (fine coarse : List Str) : Prop :=
  ∃ gs : List (List Str), gs.flatten = fine ∧ gs.map List.flatten = coarse ∧
    ∀ g ∈ gs, g.length = 1 ∨ (2 ≤ g.length ∧ ∀ w ∈ g, w.length = 1)

end Jieba.Spec

namespace Jieba.Props
open Jieba.Spec
variable {F : Type _} [LinearOrder F]

theorem joinsSingles_refl (ws : List Str) : JoinsSingles ws ws := by
  refine ⟨ws.map (fun w => [w]), ?_, ?_, ?_⟩
  · induction ws with
    | nil => rfl
    | cons w ws ih => simp_all
  · rw [List.map_map]
    conv_rhs => rw [← List.map_id ws]
    apply List.map_congr_left
    intro w _
    simp
  · intro g hg
    obtain ⟨w, _, rfl⟩ := List.mem_map.mp hg
    exact Or.inl rfl

theorem joinsSingles_append {a b c d : List Str} (h1 : JoinsSingles a b) (h2 : JoinsSingles c d) :
    JoinsSingles (a ++ c) (b ++ d) := by
  obtain ⟨g1, x1, y1, z1⟩ := h1
  obtain ⟨g2, x2, y2, z2⟩ := h2
  refine ⟨g1 ++ g2, by simp [x1, x2], by simp [y1, y2], ?_⟩
  intro g hg
  rcases List.mem_append.mp hg with h | h
  · exact z1 g h
  · exact z2 g h

theorem flatten_chars (u : Str) : (u.map (fun c => [c])).flatten = u := by
  induction u with
  | nil => rfl
  | cons c u ih => rw [List.map_cons, List.flatten_cons, ih]; rfl

theorem joinsSingles_chars (us : List Str) (hne : ∀ u ∈ us, u ≠ []) :
    JoinsSingles (us.flatten.map (fun c => [c])) us := by
  refine ⟨us.map (fun u => u.map (fun c => [c])), ?_, ?_, ?_⟩
  · induction us with
    | nil => rfl
    | cons u us ih =>
      have := ih (fun x hx => hne x (by simp [hx]))
      rw [List.map_cons, List.flatten_cons, List.flatten_cons, List.map_append, this]
  · rw [List.map_map]
    conv_rhs => rw [← List.map_id us]
    apply List.map_congr_left
    intro u _
    show (u.map (fun c => [c])).flatten = u
    exact flatten_chars u
  · intro g hg
    obtain ⟨u, hu, rfl⟩ := List.mem_map.mp hg
    have h0 : u.length ≠ 0 := fun h => hne u hu (List.length_eq_zero_iff.mp h)
    by_cases h : u.length = 1
    · exact Or.inl (by simpa using h)
    · refine Or.inr ⟨by simp; omega, ?_⟩
      intro w hw
      obtain ⟨c, _, rfl⟩ := List.mem_map.mp hw
      rfl

theorem joinsSingles_of_regrouped (freq : Freq) (hmm : Str → List Str) (hh : ∀ b, IsSegmentation (hmm b) b)
    {path ts : List Str} (h : Regrouped (fun w => w.length = 1) (runTokens freq hmm) path ts) :
    JoinsSingles path ts := by
  induction h with
  | nil => exact joinsSingles_refl []
  | word w ps ts _ _ ih => exact joinsSingles_append (joinsSingles_refl [w]) ih
  | run r ps ts _ h2 _ _ ih =>
    apply joinsSingles_append _ ih
    unfold runTokens
    split
    · exact joinsSingles_refl r
    · have h := joinsSingles_chars (hmm r.flatten) (hh r.flatten).2
      rw [(hh r.flatten).1, (flatten_singles r h2).2] at h
      exact h

theorem joinsSingles_forEach {α} (l : List α) (f g : α → Gen Str)
    (h : ∀ a ∈ l, ∃ x y, f a = Gen.ok x ∧ g a = Gen.ok y ∧ JoinsSingles x y) :
    ∃ x y, Gen.forEach l f = Gen.ok x ∧ Gen.forEach l g = Gen.ok y ∧ JoinsSingles x y := by
  induction l with
  | nil => exact ⟨[], [], rfl, rfl, joinsSingles_refl []⟩
  | cons a l ih =>
    obtain ⟨x, y, h1, h2, h3⟩ := h a (by simp)
    obtain ⟨x', y', h1', h2', h3'⟩ := ih (fun b hb => h b (by simp [hb]))
    refine ⟨x ++ x', y ++ y', ?_, ?_, joinsSingles_append h3 h3'⟩
    · rw [Gen.forEach_cons, h1, h1']; simp
    · rw [Gen.forEach_cons, h2, h2']; simp

/-- The two block cutters, with any lossless sub-segmenter in place of the HMM. -/
theorem joinsSingles_blocks (A : Arith F) (freq : Freq) (total : Int) (hn : NonNeg freq) (ht : 0 < total)
    (hmm : Str → List Str) (hh : ∀ b, IsSegmentation (hmm b) b) (s : Str) (hs : ∀ c ∈ s, isAlnum c = false) :
    ∃ x y, cutDAGNoHMM A freq total s = Gen.ok x ∧
      cutDAG A freq total (fun b => Gen.ok (hmm b)) s = Gen.ok y ∧ JoinsSingles x y := by
  obtain ⟨route, hroute⟩ := calcRoute_total A freq hn total ht s
  have hr := routeWF_of_calc _ _ _ _ _ hroute
  obtain ⟨h1, h2⟩ := pathFrom_flatten s route hr s.length 0 (by omega)
  obtain ⟨ts, h3, h4⟩ := regroup_regrouped_aux freq hmm _ h2 [] (by simp)
  refine ⟨mergeEng [] (pathFrom s route s.length 0), ts, ?_, ?_, ?_⟩
  · unfold cutDAGNoHMM
    simp only [hroute, Gen.ofExcept_ok]
    exact noHmmLoop_eq s route hr _ _ _ (by omega)
  · unfold cutDAG
    simp only [hroute, Gen.ofExcept_ok]
    rw [dagCutLoop_eq _ _ s route hr _ _ _ (by omega)]
    exact h3
  · have e := regrouped_no_single (mergeEng_regrouped (pathFrom s route s.length 0)) (by
      rintro w hw ⟨c, rfl, hc⟩
      have : c ∈ s := by
        have h1' : (pathFrom s route s.length 0).flatten = s := by simpa using h1
        rw [← h1']; exact List.mem_flatten.mpr ⟨_, hw, by simp⟩
      rw [hs c this] at hc; exact Bool.noConfusion hc)
    rw [e]
    exact joinsSingles_of_regrouped freq hmm hh (by simpa using h4)

/-- C117: on a text without ASCII letters and digits `cut` with the HMM yields the tokens of `cut` without the HMM,
except that neighbouring tokens of one character may be joined. -/
theorem C117_hmm_only_joins (E : Env F) (hn : NonNeg E.freq) (ht : 0 < E.total) (s : Str)
    (hs : ∀ c ∈ s, isAlnum c = false) :
    ∃ x y, cut E false false s = Gen.ok x ∧ cut E false true s = Gen.ok y ∧ JoinsSingles x y := by
  rw [cut_accurate_eq_scan, cut_accurate_eq_scan]
  unfold scan
  apply joinsSingles_forEach
  intro b hb
  have hb' : ∀ c ∈ b, isAlnum c = false := fun c hc => hs c (by
    rw [← chunks_flatten isWordCh s]; exact List.mem_flatten.mpr ⟨b, hb, hc⟩)
  split
  · have hh : ∀ b, IsSegmentation (hmmTokens E b) b := by
      intro b
      obtain ⟨ws, h1, h2⟩ := FinalSeg.cut_spec E.A E.tables E.force b
      have : E.hmm b = Gen.ok ws := h1
      unfold hmmTokens
      rw [this]; exact h2
    have := joinsSingles_blocks E.A E.freq E.total hn ht (hmmTokens E) hh b hb'
    rw [← hmm_eq] at this
    exact this
  · exact ⟨_, _, rfl, rfl, joinsSingles_refl _⟩

/-- The hypotheses are met, and the HMM does join: 北京/人/来 becomes 北京/人来. -/
example : NonNeg sampleEnv.freq ∧ 0 < sampleEnv.total ∧ (∀ c ∈ lit ['北', '京', '人', '来'], isAlnum c = false) ∧
    (cut sampleEnv false false (lit ['北', '京', '人', '来'])).out = [lit ['北', '京'], lit ['人'], lit ['来']] ∧
    (cut sampleEnv false true (lit ['北', '京', '人', '来'])).out = [lit ['北', '京'], lit ['人', '来']] :=
  ⟨sample_nonNeg, by decide, by decide, by decide +kernel, by decide +kernel⟩

/-- A dictionary in which the letters are frequent and their combination is rare. -/
def lettersEnv : Env Int := ⟨intArith, [(lit ['a'], 64), (lit ['b'], 64), (lit ['a', 'b'], 1)], 129, sampleTables, []⟩

/-- C117 fails with ASCII letters: without the HMM they are put together, with the HMM the same letters stay apart when
together they are a word of the dictionary. -/
theorem C117_letters_may_split :
    ∃ E : Env Int, NonNeg E.freq ∧ 0 < E.total ∧
      (cut E false false (lit ['a', 'b'])).out = [lit ['a', 'b']] ∧
      (cut E false true (lit ['a', 'b'])).out = [lit ['a'], lit ['b']] :=
  ⟨lettersEnv, nonNeg_of_all _ (by decide), by decide, by decide +kernel, by decide +kernel⟩

/-- C117: so every token of more than one character of `cut` without the HMM is also a token of `cut` with the HMM. -/
theorem C117_long_tokens_survive (E : Env F) (hn : NonNeg E.freq) (ht : 0 < E.total) (s : Str)
    (hs : ∀ c ∈ s, isAlnum c = false) (w : Str) (hw : w ∈ (cut E false false s).out) (hl : 2 ≤ w.length) :
    w ∈ (cut E false true s).out := by
  obtain ⟨x, y, h1, h2, gs, h3, h4, h5⟩ := C117_hmm_only_joins E hn ht s hs
  rw [h1] at hw
  rw [h2]
  have hw' : w ∈ x := hw
  rw [← h3] at hw'
  obtain ⟨g, hg, hwg⟩ := List.mem_flatten.mp hw'
  show w ∈ y
  rw [← h4]
  refine List.mem_map.mpr ⟨g, hg, ?_⟩
  rcases h5 g hg with h | h
  · obtain ⟨v, rfl⟩ := List.length_eq_one_iff.mp h
    simp_all
  · have := h.2 w hwg
    omega

/-- C117: with the HMM there are never more tokens. -/
theorem C117_no_more_tokens (E : Env F) (hn : NonNeg E.freq) (ht : 0 < E.total) (s : Str)
    (hs : ∀ c ∈ s, isAlnum c = false) :
    (cut E false true s).out.length ≤ (cut E false false s).out.length := by
  obtain ⟨x, y, h1, h2, gs, h3, h4, h5⟩ := C117_hmm_only_joins E hn ht s hs
  rw [h1, h2]
  show y.length ≤ x.length
  rw [← h3, ← h4, List.length_map, List.length_flatten]
  clear h3 h4
  induction gs with
  | nil => simp
  | cons g gs ih =>
    have h := h5 g (by simp)
    have := ih (fun g hg => h5 g (by simp [hg]))
    simp only [List.length_cons, List.map_cons, List.sum_cons]
    omega

/-- C117 for the words of `posseg.cut`, with the shipped states, transitions and character table. -/
theorem C117_posseg (E : Pos.PEnv F) (hT : PosData.Shipped E.tables)
    (hσ : ∀ s t l, (E.σ s t l).Perm l) (hn : NonNeg E.freq) (ht : 0 < E.total) (s : Str)
    (hs : ∀ c ∈ s, isAlnum c = false) :
    ∃ x y, Pos.words (Pos.cut E false s) = Gen.ok x ∧ Pos.words (Pos.cut E true s) = Gen.ok y ∧ JoinsSingles x y := by
  rw [Pos.words_cut, Pos.words_cut]
  unfold scan
  apply joinsSingles_forEach
  intro b hb
  have hb' : ∀ c ∈ b, isAlnum c = false := fun c hc => hs c (by
    rw [← chunks_flatten isWordChPos s]; exact List.mem_flatten.mpr ⟨b, hb, hc⟩)
  split
  · rename_i hany
    have hw : ∀ c ∈ b, isWordChPos c = true := by
      rcases chunks_uniform isWordChPos s b hb with h | h
      · exact h
      · obtain ⟨c, hc, hc'⟩ := List.any_eq_true.mp hany
        rw [h c hc] at hc'; exact Bool.noConfusion hc'
    have hd := Pos.cutDetail_spec E (PosData.shipped_ok _ hT) (PosData.shipped_bmes _ hT) hσ
    choose hmm e1 e2 using hd
    have := joinsSingles_blocks E.A E.freq E.total hn ht hmm e2 b hb'
    rw [show (fun b => Gen.ok (hmm b)) = (fun b => Pos.words (Pos.cutDetail E b)) from funext (fun b => (e1 b).symm)] at this
    rw [← Pos.words_cutDAG, ← Pos.words_cutDAGNoHMM E b (Pos.nl_notMem b hw)] at this
    exact this
  · exact ⟨_, _, rfl, rfl, joinsSingles_refl _⟩

/-- The hypotheses of `C117_posseg` are met. -/
example : ∃ E : Pos.PEnv Int, PosData.Shipped E.tables ∧ (∀ s t l, (E.σ s t l).Perm l) ∧ NonNeg E.freq ∧
    0 < E.total ∧ ∀ c ∈ lit ['北', '京', '人', '来', '。'], isAlnum c = false :=
  ⟨{ samplePEnv with tables := constTables 0 }, constTables_shipped 0, fun _ _ _ => List.Perm.refl _,
    sample_nonNeg, by decide, by decide⟩

end Jieba.Props
