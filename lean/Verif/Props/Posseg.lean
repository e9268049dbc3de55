import Verif.Proofs.Posseg
import Verif.Proofs.PosData
import Verif.Props.Segmentation
import Verif.Props.Parallel
/-!
# C40, C41, C42, C44, C45, C46: segmentation with part-of-speech tags
-/

set_option linter.unusedSectionVars false

namespace Jieba.Props
open Jieba Jieba.Spec Jieba.Pos Jieba.PosData

variable {F : Type _} [LinearOrder F]

/-! ## Concrete tables -/

/-- The shipped tables with the same probability everywhere. -/
def constTables (p : F) : Tables F where
  charStates := PosData.chars.map charEntry
  start := states.map (fun s => (s, p))
  trans := (states.zip (PosData.trans.map (fun n => (unpack n).map stateAt))).map (fun kv => (kv.1, kv.2.map (fun y => (y, p))))
  emit := states.map (fun s => (s, []))
  minFloat := p

/-- `Shipped` is satisfiable. -/
theorem constTables_shipped (p : F) : Shipped (constTables p) where
  start := by simp [constTables, PyDict.keys, Function.comp_def]
  emit := by simp [constTables, PyDict.keys, Function.comp_def]
  trans := by simp [constTables, PyDict.keys, Function.comp_def]
  chars := rfl

/-- Four states with the tag 'n', two with the tag 'v'. -/
def smallTables : Tables Int where
  charStates := [(0x5B66, [(chE, lit ['n']), (chS, lit ['n'])])]
  start := [((chB, lit ['n']), -1), ((chE, lit ['n']), -90), ((chM, lit ['n']), -90), ((chS, lit ['n']), -2), ((chS, lit ['v']), -2)]
  trans := [((chB, lit ['n']), [((chE, lit ['n']), -1), ((chM, lit ['n']), -3)]),
    ((chE, lit ['n']), [((chB, lit ['n']), -2), ((chS, lit ['v']), -2), ((chS, lit ['n']), -2)]),
    ((chM, lit ['n']), [((chE, lit ['n']), -1), ((chM, lit ['n']), -2)]),
    ((chS, lit ['n']), [((chB, lit ['n']), -2), ((chS, lit ['v']), -2)]),
    ((chS, lit ['v']), [((chB, lit ['n']), -2), ((chS, lit ['n']), -2)])]
  emit := [((chB, lit ['n']), [(0x5927, -1)]), ((chE, lit ['n']), [(0x5B66, -1)]), ((chM, lit ['n']), []),
    ((chS, lit ['n']), [(0x6211, -3)]), ((chS, lit ['v']), [(0x6765, -1)])]
  minFloat := -100

def samplePEnv : PEnv Int where
  A := intArith
  freq := sampleFreq
  total := 161
  tables := smallTables
  tab := [(lit ['北', '京', '大', '学'], lit ['n', 't']), (lit ['T', '恤'], lit ['n'])]
  σ := fun _ _ l => l

/-! ## C40 -/

/-- C40: with the shipped state tables (any probabilities), any dictionary, any tags and any iteration order of sets, the
words of `posseg.cut` are non-empty and join to the text. -/
theorem C40_posseg_lossless (E : PEnv F) (hT : Shipped E.tables) (hσ : ∀ s t l, (E.σ s t l).Perm l) (hmm : Bool) (s : Str) :
    (∀ p ∈ (Pos.cut E hmm s).out, p.1 ≠ []) ∧ ((Pos.cut E hmm s).out.map Prod.fst).flatten <+: s ∧
      ((Pos.cut E hmm s).err = none → ((Pos.cut E hmm s).out.map Prod.fst).flatten = s) := by
  have := Pos.cut_lossless E hmm (fun _ b => cutDetail_spec E (shipped_ok _ hT) (shipped_bmes _ hT) hσ b) s
  exact ⟨fun p hp => this.nonempty p.1 (List.mem_map_of_mem hp), this.isPrefix, this.complete⟩

/-- C40 without HMM needs nothing about the tables. -/
theorem C40_posseg_lossless_no_hmm (E : PEnv F) (s : Str) :
    (∀ p ∈ (Pos.cut E false s).out, p.1 ≠ []) ∧ ((Pos.cut E false s).out.map Prod.fst).flatten <+: s ∧
      ((Pos.cut E false s).err = none → ((Pos.cut E false s).out.map Prod.fst).flatten = s) := by
  have := Pos.cut_lossless E false (by simp) s
  exact ⟨fun p hp => this.nonempty p.1 (List.mem_map_of_mem hp), this.isPrefix, this.complete⟩

/-- With a non-negative dictionary and a positive total nothing is raised. -/
theorem C40_posseg_total (E : PEnv F) (hT : Shipped E.tables) (hσ : ∀ s t l, (E.σ s t l).Perm l) (hn : NonNeg E.freq)
    (ht : 0 < E.total) (hmm : Bool) (s : Str) : (Pos.cut E hmm s).err = none := by
  rw [show (Pos.cut E hmm s).err = (words (Pos.cut E hmm s)).err from rfl, words_cut]
  unfold scan
  apply forEach_err_none
  intro b hb
  split
  · obtain ⟨route, hr⟩ := calcRoute_total E.A E.freq hn E.total ht b
    have hwf := routeWF_of_calc E.A E.freq E.total b route hr
    cases hmm
    · have hu : ∀ c ∈ b, isWordChPos c = true := by
        rename_i hany
        rcases chunks_uniform _ _ b hb with h | h
        · exact h
        · obtain ⟨c, hc, h'⟩ := List.any_eq_true.mp hany
          rw [h c hc] at h'; exact Bool.noConfusion h'
      change (words (Pos.cutDAGNoHMM E b)).err = none
      rw [words_cutDAGNoHMM E b (nl_notMem b hu)]
      unfold Jieba.cutDAGNoHMM
      rw [hr, Gen.ofExcept_ok, noHmmLoop_eq b route hwf _ _ _ (by omega)]; rfl
    · change (words (Pos.cutDAG E b)).err = none
      rw [words_cutDAG]
      unfold Jieba.cutDAG
      rw [hr, Gen.ofExcept_ok, dagCutLoop_eq _ _ b route hwf _ _ _ (by omega)]
      have hd := cutDetail_spec E (shipped_ok _ hT) (shipped_bmes _ hT) hσ
      have hf : ∀ buf, (Jieba.flushBuf E.freq (fun b => words (cutDetail E b)) buf).err = none := by
        intro buf
        unfold Jieba.flushBuf
        split
        · rfl
        split
        · rfl
        split
        · obtain ⟨ws, h, -⟩ := hd buf; simp only [h]; rfl
        · rfl
      generalize pathFrom b route b.length 0 = ws
      generalize ([] : Str) = buf
      induction ws generalizing buf with
      | nil => exact hf buf
      | cons w ws ih =>
        unfold regroup
        split
        · exact ih _
        · rw [Gen.andThen_err_none, Gen.andThen_err_none]
          exact ⟨hf _, rfl, ih _⟩
  · rfl

example : Pos.cut samplePEnv true (lit ['我', '来', '大', '学', '2', '.', '5', '%', ' ', '北', '京', '大', '学', 'T', '恤']) =
    Gen.ok [(lit ['我'], lit ['n']), (lit ['来'], lit ['v']), (lit ['大', '学'], lit ['x']), (lit ['2', '.', '5'], lit ['m']),
      (lit ['%'], lit ['x']), (lit [' '], lit ['x']), (lit ['北', '京', '大', '学'], lit ['n', 't']),
      (lit ['T', '恤'], lit ['n'])] := by decide +kernel

example : ∃ E : PEnv Int, Shipped E.tables ∧ (∀ s t l, (E.σ s t l).Perm l) ∧ NonNeg E.freq ∧ 0 < E.total :=
  ⟨{ samplePEnv with tables := constTables 0 }, constTables_shipped 0, fun _ _ _ => List.Perm.refl _,
    by intro w v h; revert h; simp only [samplePEnv, sampleFreq, PyDict.get?]
       repeat' (split; · (intro h; simp at h; omega))
       simp, by decide⟩

/-! ## C41 -/

theorem hmmCut_order (E : PEnv F) (hT : (PyDict.keys E.tables.trans).Nodup) (σ' : Str → Nat → List PState → List PState)
    (h1 : ∀ s t l, (E.σ s t l).Perm l) (h2 : ∀ s t l, (σ' s t l).Perm l) :
    hmmCut { E with σ := σ' } = hmmCut E := by
  funext s
  unfold hmmCut
  simp only []
  rw [viterbi_order E.A E.tables hT (E.σ s) (σ' s) (h1 s) (h2 s) s]

/-- C41: the pairs do not depend on the order in which sets are iterated, which may even change from step to step. -/
theorem C41_hash_order_irrelevant (E : PEnv F) (hT : (PyDict.keys E.tables.trans).Nodup)
    (σ' : Str → Nat → List PState → List PState)
    (h1 : ∀ s t l, (E.σ s t l).Perm l) (h2 : ∀ s t l, (σ' s t l).Perm l) (hmm : Bool) (s : Str) :
    Pos.cut { E with σ := σ' } hmm s = Pos.cut E hmm s := by
  have hd : cutDetail { E with σ := σ' } = cutDetail E := by
    funext b; unfold cutDetail; rw [hmmCut_order E hT σ' h1 h2]
  have hf : Pos.flushBuf { E with σ := σ' } = Pos.flushBuf E := by
    funext b; unfold Pos.flushBuf; rw [hd]
  have hl : Pos.dagCutLoop { E with σ := σ' } = Pos.dagCutLoop E := by
    funext b route fuel
    induction fuel with
    | zero => funext x buf; unfold Pos.dagCutLoop; rw [hf]
    | succ fuel ih => funext x buf; unfold Pos.dagCutLoop; rw [hf, ih]
  have hc : Pos.cutBlock { E with σ := σ' } = Pos.cutBlock E := by
    funext hm b
    unfold Pos.cutBlock Pos.cutDAG
    rw [hl]; rfl
  unfold Pos.cut
  rw [hc]

/-- For the score and state sequence themselves. -/
theorem C41_viterbi_order_irrelevant (A : Arith F) (T : Tables F) (hT : (PyDict.keys T.trans).Nodup)
    (σ₁ σ₂ : Nat → List PState → List PState) (h1 : ∀ t l, (σ₁ t l).Perm l) (h2 : ∀ t l, (σ₂ t l).Perm l) (obs : Str) :
    viterbi A T σ₁ obs = viterbi A T σ₂ obs := viterbi_order A T hT σ₁ σ₂ h1 h2 obs

/-- Two orders (as given and reversed) and a text whose columns have several states. -/
example : (PyDict.keys smallTables.trans).Nodup ∧
    ∃ p, viterbi intArith smallTables (fun _ l => l) (lit ['大', '学', '来']) = .ok (p, [(chB, lit ['n']), (chE, lit ['n']), (chS, lit ['v'])]) ∧
      viterbi intArith smallTables (fun _ l => l.reverse) (lit ['大', '学', '来']) = .ok (p, [(chB, lit ['n']), (chE, lit ['n']), (chS, lit ['v'])]) := by
  refine ⟨by decide, ((-7 : Int) : WithBot Int), ?_, ?_⟩ <;> decide +kernel

/-! ## C42 -/

/-- C42: with the shipped states, transitions and character table the Viterbi algorithm succeeds on every non-empty text, with
a finite score, one state per character, and only transitions of the table. -/
theorem C42_viterbi_never_fails (A : Arith F) (T : Tables F) (hT : Shipped T) (σ : Nat → List PState → List PState)
    (hσ : ∀ t l, (σ t l).Perm l) (obs : Str) (hne : obs ≠ []) :
    ∃ (p : F) (route : List PState), viterbi A T σ obs = .ok ((p : WithBot F), route) ∧ route.length = obs.length ∧
      route.IsChain (Edge T) := viterbi_ok A T (shipped_ok _ hT) σ hσ obs hne

/-- It does fail on the empty text (which `__cut_detail` never passes). -/
theorem C42_empty_text (A : Arith F) (T : Tables F) (σ : Nat → List PState → List PState) :
    viterbi A T σ [] = .error .indexError := rfl

example : Shipped (constTables (0 : Int)) := constTables_shipped 0

/-! ## C44 -/

/-- C44: a token containing a character outside the word characters is that character alone (or CR LF), with flag 'x'. -/
theorem C44_nonword_is_x (E : PEnv F) (hmm : Bool) (hT : hmm = true → Shipped E.tables) (hσ : ∀ s t l, (E.σ s t l).Perm l)
    (s : Str) : ∀ p ∈ (Pos.cut E hmm s).out, (∃ c ∈ p.1, isWordChPos c = false) →
      p.2 = flagX ∧ (p.1.length = 1 ∨ p.1 = [0x0D, 0x0A]) := by
  intro p hp ⟨c, hc, hcw⟩
  rw [Pos.cut_eq_scan] at hp
  obtain ⟨b, -, -, ⟨hb, h⟩ | ⟨-, h⟩⟩ := scan_out_mem _ _ _ _ _ hp
  · exfalso
    have hl := cutBlock_lossless E hmm (fun hm b => cutDetail_spec E (shipped_ok _ (hT hm)) (shipped_bmes _ (hT hm)) hσ b) b hb
    have hcb : c ∈ b := hl.isPrefix.subset (List.mem_flatten.mpr ⟨p.1, List.mem_map_of_mem h, hc⟩)
    rw [hb c hcb] at hcw
    exact Bool.noConfusion hcw
  · simp only [Gen.ok_out, List.mem_map] at h
    obtain ⟨w, hw, rfl⟩ := h
    exact ⟨rfl, charTokens_mem b w hw⟩

/-- C44: the branches for numbers and English in that part of the code are never taken. -/
theorem C44_branches_unreachable (s blk x : Str) (hblk : blk ∈ reHanInternal.split s) (hm : reHanInternal.isMatch blk = false)
    (hx : x ∈ reSkipDefault.split blk) : (∀ c ∈ x, reNum.isMatch [c] = false) ∧ reEngPos.isMatch x = false := by
  by_cases hne : blk = []
  · subst hne
    have : x = [] := by simpa [RE.split, RE.splitGo] using hx
    subst this
    exact ⟨by simp, rfl⟩
  · have hin : blk ∈ chunks isWordChPos s := by
      rw [← split_plus_chunks]
      exact List.mem_filter.mpr ⟨hblk, by simpa using hne⟩
    have hu := chunks_uniform _ _ blk hin
    unfold reHanInternal at hm
    rw [isMatch_eq_any _ _ blk hne hu] at hm
    have hall : ∀ c ∈ blk, isWordChPos c = false := by
      intro c hc
      have := List.any_eq_false.mp hm c hc
      simpa using this
    have hx' : ∀ c ∈ x, isWordChPos c = false := fun c hc => hall c (mem_pieces rfl hx hc)
    constructor
    · intro c hc
      unfold reNum
      rw [isMatch_plus']; exact (not_num_of_nonword c (hx' c hc)).1
    · unfold reEngPos
      rw [isMatch_plus']
      cases x with
      | nil => rfl
      | cons d x => exact (not_num_of_nonword d (hx' d (by simp))).2

/-- '%' is such a character for the POS tokenizer (it is a word character for the plain one). -/
example : ∃ p ∈ (Pos.cut samplePEnv true (lit ['大', '%', '\r', '\n'])).out, ∃ c ∈ p.1, isWordChPos c = false := by
  decide +kernel

/-! ## C45 -/

/-- C45: for every text and outcome of the worker pool, if serial tagging returns the pairs `ts` then so does parallel tagging;
if serial tagging raises, parallel tagging raises an exception that one of the lines raises. -/
theorem C45_parallel_posseg (E : PEnv F) (hmm : Bool) (s : Str) (g : Gen Pair) (h : Pos.PCut E hmm s g) :
    (∀ ts, Pos.cut E hmm s = Gen.ok ts → g = Gen.ok ts) ∧
    ((Pos.cut E hmm s).err ≠ none → ∃ lines, KeptLines s lines ∧ ∃ line ∈ lines, ∃ e, (Pos.cut E hmm line).err = some e ∧ g = Gen.raise e) := by
  obtain ⟨r, hr, rfl⟩ := h
  rw [Pos.cut_lines E hmm s]
  have := poolMap_spec _ (Pos.cut E hmm) r hr
  exact ⟨this.1, fun he => ⟨_, splitlinesKeep_spec s, this.2 he⟩⟩

example : ∃ g, Pos.PCut samplePEnv true (lit ['大', '学', '\r', '\n', '来', '\n', '我']) g :=
  ⟨_, _, (pool_outcome _ _).choose_spec, rfl⟩

/-! ## C46 -/

theorem chunks_congr (p q : Ch → Bool) (s : Str) (h : ∀ c ∈ s, p c = q c) : chunks p s = chunks q s := by
  induction s with
  | nil => rfl
  | cons c s ih =>
    have ih := ih (fun x hx => h x (by simp [hx]))
    rcases chunks_cons p c s with ⟨rfl, h1⟩ | ⟨d, b, bs, h1, h2⟩
    · rw [h1]; rfl
    · rcases chunks_cons q c s with ⟨rfl, h3⟩ | ⟨d', b', bs', h3, h4⟩
      · simp [chunks] at h1
      · rw [ih, h3] at h1
        simp only [List.cons.injEq] at h1
        obtain ⟨⟨rfl, rfl⟩, rfl⟩ := h1
        have hd : d' ∈ s := by
          have := chunks_head q s d' b' bs' h3
          cases s with
          | nil => simp at this
          | cons e s => simp at this; simp [this]
        rw [h2, h4, h c (by simp), h d' (by simp [hd])]

/-- C46: without HMM, the words of `posseg.cut` are those of `cut`, for texts without '%' and '-', and the same exceptions
are raised. -/
theorem C46_posseg_words_are_cut (E : PEnv F) (tables : FinalSeg.Tables F) (force : List Str) (s : Str)
    (h1 : (0x25 : Ch) ∉ s) (h2 : (0x2D : Ch) ∉ s) :
    (Pos.cut E false s).out.map Prod.fst = (Jieba.cut ⟨E.A, E.freq, E.total, tables, force⟩ false false s).out ∧
      (Pos.cut E false s).err = (Jieba.cut ⟨E.A, E.freq, E.total, tables, force⟩ false false s).err := by
  have key : words (Pos.cut E false s) = Jieba.cut ⟨E.A, E.freq, E.total, tables, force⟩ false false s := by
    rw [words_cut, cut_accurate_eq_scan]
    have hpq : ∀ c ∈ s, isWordChPos c = isWordCh c := by
      intro c hc
      have e1 : c ≠ 0x25 := fun h => h1 (h ▸ hc)
      have e2 : c ≠ 0x2D := fun h => h2 (h ▸ hc)
      have f1 : (c == 0x25) = false := by simpa using e1
      have f2 : (c == 0x2D) = false := by simpa using e2
      unfold isWordChPos isWordCh
      rw [f1, f2]; simp
    unfold scan
    rw [chunks_congr _ _ s hpq]
    apply Gen.forEach_congr
    intro b hb
    have hbs : ∀ c ∈ b, c ∈ s := by
      intro c hc
      rw [← chunks_flatten isWordCh s]
      exact List.mem_flatten.mpr ⟨b, hb, hc⟩
    have : b.any isWordChPos = b.any isWordCh := by
      rw [Bool.eq_iff_iff, List.any_eq_true, List.any_eq_true]
      constructor
      · rintro ⟨c, hc, h⟩; exact ⟨c, hc, by rw [← hpq c (hbs c hc)]; exact h⟩
      · rintro ⟨c, hc, h⟩; exact ⟨c, hc, by rw [hpq c (hbs c hc)]; exact h⟩
    rw [this]
    split
    · rename_i hany
      rcases chunks_uniform _ _ b hb with h | h
      · apply words_cutDAGNoHMM
        exact nl_notMem b (fun c hc => by rw [hpq c (hbs c hc)]; exact h c hc)
      · obtain ⟨c, hc, h'⟩ := List.any_eq_true.mp hany
        rw [h c hc] at h'; exact Bool.noConfusion h'
    · rfl
  exact ⟨congrArg Gen.out key, congrArg Gen.err key⟩

/-- C46, the restriction is needed: a dictionary word containing '-' is cut differently. -/
theorem C46_hyphen_differs :
    (Pos.cut { samplePEnv with freq := [(lit ['T'], 0), (lit ['T', '-'], 0), (lit ['T', '-', '恤'], 8)] } false
        (lit ['T', '-', '恤'])).out.map Prod.fst = [lit ['T'], lit ['-'], lit ['恤']] ∧
      (Jieba.cut { sampleEnv with freq := [(lit ['T'], 0), (lit ['T', '-'], 0), (lit ['T', '-', '恤'], 8)] } false false
        (lit ['T', '-', '恤'])).out = [lit ['T', '-', '恤']] := by
  decide +kernel

example : (0x25 : Ch) ∉ lit ['a', 'b', '北', '京', '大', '学', ' '] ∧ (0x2D : Ch) ∉ lit ['a', 'b', '北', '京', '大', '学', ' '] ∧
    (Pos.cut samplePEnv false (lit ['a', 'b', '北', '京', '大', '学', ' '])).out =
      [(lit ['a', 'b'], flagEng), (lit ['北', '京', '大', '学'], lit ['n', 't']), (lit [' '], flagX)] := by decide +kernel

end Jieba.Props
