import Verif.Proofs.PosUnknownRun
import Verif.Props.PosWorld
import Verif.Props.Doubles
/-!
# C100: characters that the POS tagger does not know, with the floats that Python has
-/

set_option linter.unusedSectionVars false

namespace Jieba.Props
open Jieba Jieba.Spec Jieba.Pos Jieba.PosData

/-- C100: in a run of Han characters, the states of a character without emission probabilities, of all characters behind it and of the one
before it do not depend on any probability: two tables that differ only in these give the same. -/
theorem C100_probabilities_lost (log : Nat → ℚ) (T T' : Tables ℚ) (hT : PosModerate T) (hT' : PosModerate T') (hS : TablesOK T) (hS' : TablesOK T')
    (hs : SameShape T T') (σ σ' : Nat → List PState → List PState) (hσ : ∀ t l, (σ t l).Perm l) (hσ' : ∀ t l, (σ' t l).Perm l)
    (a : Str) (c : Ch) (b : Str) (hc : NoEmission T c) (hlen : (a ++ c :: b).length ≤ 2 ^ 50) :
    ∃ v ys ys' tl, viterbi (dblArith log) T σ (a ++ c :: b) = .ok (v, ys ++ tl) ∧ viterbi (dblArith log) T' σ' (a ++ c :: b) = .ok (v, ys' ++ tl) ∧
      ys.length = a.length - 1 ∧ ys'.length = a.length - 1 := by
  obtain ⟨v, ys, ys', tl, h1, h2, h3⟩ := viterbi_merged (log := log) hT hT' hs hS hS' σ σ' hσ hσ' a c hc b hlen
  have len : ∀ (T : Tables ℚ) (hS : TablesOK T) (σ : Nat → List PState → List PState) (hσ : ∀ t l, (σ t l).Perm l) (ys : List PState),
      viterbi (dblArith log) T σ (a ++ c :: b) = .ok (v, ys ++ tl) → ys.length = a.length - 1 := by
    intro T hS σ hσ ys h
    obtain ⟨p, route, e, hl, -⟩ := viterbi_ok (dblArith log) T hS σ hσ (a ++ c :: b) (by simp)
    rw [h] at e
    injection e with e
    injection e with e1 e2
    rw [← e2] at hl
    simp only [List.length_append, List.length_cons] at hl
    omega
  exact ⟨v, ys, ys', tl, h1, h2, len T hS σ hσ ys h1, len T' hS' σ' hσ' ys' h2⟩

/-- C100: a run of Han characters that the tables do not mention is cut into single characters, tagged 'x' and 'zg' in turn. -/
theorem C100_strange_run (log : Nat → ℚ) (E : PEnv ℚ) (hA : E.A = dblArith log) (hT : PosModerate E.tables) (hS : Shipped E.tables)
    (h0 : ShippedStart E.tables) (hσ : ∀ s t l, (E.σ s t l).Perm l) (s : Str) (hne : s ≠ []) (hhan : ∀ c ∈ s, isHan c = true)
    (hs : ∀ c ∈ s, Strange E.tables c) (hlen : s.length ≤ 2 ^ 50) :
    cutDetail E s = Gen.ok ((s.map (fun c => [c])).zip (turns s.length)) := by
  obtain ⟨v, hv⟩ := viterbi_turns (log := log) hT hS h0 (E.σ s) (hσ s) s hne hs hlen
  have hw : hmmCut E s = Gen.ok ((s.map (fun c => [c])).zip (turns s.length)) := by
    rw [← wordsByStates_singles s _ (turns_length _)]
    have hl : ((turns s.length).map (fun g => (chS, g))).length = s.length := by rw [List.length_map, turns_length]
    have hsnd : (s.zip ((turns s.length).map (fun g => (chS, g)))).map Prod.snd = (turns s.length).map (fun g => (chS, g)) :=
      List.map_snd_zip (by rw [hl])
    obtain ⟨p, route, e, -, hch⟩ := viterbi_ok (dblArith log) E.tables (shipped_ok _ hS) (E.σ s) (hσ s) s hne
    rw [hv] at e
    injection e with e
    injection e with e1 e2
    subst e2
    unfold hmmCut
    rw [hA, hv]
    exact cutLoop_pairs s _ hl [] _ [] 0 rfl (by intros; rfl) (by intros; rfl)
      (by rw [hsnd]; exact hch.imp (fun x y hxy => (shipped_bmes _ hS).follow x y hxy))
  rw [cutDetail_eq_scan]
  have := scan_word isHan (hmmCut E) (fun blk => Gen.ok (((reSkipDetail.split blk).filter (fun x => x ≠ [])).map skipPair)) s [] hne hhan (by simp)
  rw [List.append_nil] at this
  rw [this, hw, scan_nil, Gen.andThen_ok_nil]

theorem single_words (A : Arith ℚ) (freq : Freq) (total : Int) (s : Str) (path : List Str) (h : IsBest A freq total s path)
    (hd : ∀ w, DictWord freq w → w <:+: s → w.length ≤ 1) : (∀ w ∈ path, w.length = 1) ∧ path.flatten = s := by
  induction path generalizing s with
  | nil => exact ⟨by simp, by simpa [IsBest] using h.symm⟩
  | cons w path ih =>
    obtain ⟨h1, h2, -⟩ := h
    obtain ⟨n1, n2, n3⟩ := h1
    have e : w ++ s.drop w.length = s := by
      obtain ⟨r, hr⟩ := n2
      rw [← hr, List.drop_left]
    have hsub : s.drop w.length <:+: s := (List.drop_suffix _ _).isInfix
    obtain ⟨g1, g2⟩ := ih _ h2 (fun x hx hi => hd x hx (hi.trans hsub))
    constructor
    · intro x hx
      rcases List.mem_cons.mp hx with rfl | hx
      · rcases n3 with h3 | h3
        · have := hd x h3 n2.isInfix
          have := List.length_pos_iff.mpr n1
          omega
        · exact h3.1
      · exact g1 x hx
    · rw [List.flatten_cons, g2, e]

/-- C100: so are texts of two or more such characters by `posseg.cut`, if no dictionary word of two or more characters occurs in the text. -/
theorem C100_strange_text (log : Nat → ℚ) (E : PEnv ℚ) (hA : E.A = dblArith log) (hT : PosModerate E.tables) (hS : Shipped E.tables)
    (h0 : ShippedStart E.tables) (hσ : ∀ s t l, (E.σ s t l).Perm l) (hp : PrefixClosed E.freq) (hn : NonNeg E.freq) (ht : 0 < E.total)
    (s : Str) (h2 : 2 ≤ s.length) (hhan : ∀ c ∈ s, isHan c = true) (hs : ∀ c ∈ s, Strange E.tables c)
    (hd : ∀ w, DictWord E.freq w → w <:+: s → w.length ≤ 1) (hlen : s.length ≤ 2 ^ 50) :
    Pos.cut E true s = Gen.ok ((s.map (fun c => [c])).zip (turns s.length)) := by
  have hne : s ≠ [] := by rintro rfl; simp at h2
  have hM : MonoAdd E.A := by rw [hA]; exact dbl_mono log
  obtain ⟨route, hr⟩ := calcRoute_total E.A E.freq hn E.total ht s
  have hwf := routeWF_of_calc E.A E.freq E.total s route hr
  obtain ⟨r, -, -, hbest, -⟩ := route_best E.A hM E.freq hp E.total s route hr s.length 0 s.length (by omega) (by simp) (le_refl _)
  have hd1 : ∀ b, cutDetail E b = Gen.ok (cutDetail E b).out := by
    intro b
    obtain ⟨qs, h3, -⟩ := cutDetail_pairs E hM (shipped_ok _ hS) (shipped_bmes _ hS) hσ b
    rw [h3]; rfl
  obtain ⟨ts, k1, k2⟩ := dagCutLoop_tagged E (fun b => (cutDetail E b).out) hd1 s route hwf s.length 0 (by omega) [] (by simp)
  simp only [List.flatten_nil] at k1
  obtain ⟨g1, g2⟩ := single_words E.A E.freq E.total s (pathFrom s route s.length 0) (by simpa using hbest) hd
  rw [List.nil_append] at k2
  generalize pathFrom s route s.length 0 = path at g1 g2 k2
  have hlp : path.length = s.length := by rw [← g2]; exact (flatten_singles path g1).1.symm
  have hts : ts = (s.map (fun c => [c])).zip (turns s.length) := by
    cases k2 with
    | nil => rw [List.flatten_nil] at g2; exact absurd g2.symm hne
    | word w ps ts hw _ => exact absurd (g1 w (by simp)) hw
    | run r ps qs ts hr1 hr2 hr3 hR htl =>
      have hps : ps = [] := by
        cases ps with
        | nil => rfl
        | cons w ps => exact absurd (g1 w (by simp)) (hr3 w rfl)
      subst hps
      rw [List.append_nil] at g1 g2 hlp
      have e1 : ts = [] := by
        generalize hps : ([] : List Str) = ps at htl
        cases htl with
        | nil => rfl
        | word => simp at hps
        | run r ps qs ts hr1 => simp [hr1] at hps
      subst e1
      unfold charRun at hR
      rw [if_neg, g2] at hR
      · simp only [C100_strange_run log E hA hT hS h0 hσ s hne hhan hs hlen] at hR
        rw [List.append_nil, hR]; rfl
      · rintro (h | h)
        · omega
        · rw [g2] at h
          have := hd s h (List.infix_refl s)
          omega
  rw [Pos.cut_eq_scan]
  have := scan_word isWordChPos (Pos.cutBlock E true) (fun b => Gen.ok ((charTokens b).map (fun w => (w, flagX)))) s [] hne
    (fun c hc => by simp [isWordChPos, hhan c hc]) (by simp)
  rw [List.append_nil] at this
  rw [this, scan_nil, Gen.andThen_ok_nil]
  change Pos.cutDAG E s = _
  unfold Pos.cutDAG
  rw [hr, Gen.ofExcept_ok, k1, hts]

/-! ## Instances -/

/-- Two tags for single characters; 大 is the only known character; the probabilities prefer 'n' if `p` is large. -/
def twoTags (p : ℚ) : Tables ℚ where
  charStates := []
  start := [((chS, lit ['n']), p), ((chS, lit ['v']), -1)]
  trans := [((chS, lit ['n']), [((chS, lit ['n']), -1), ((chS, lit ['v']), -2)]), ((chS, lit ['v']), [((chS, lit ['n']), -2), ((chS, lit ['v']), -1)])]
  emit := [((chS, lit ['n']), [('大'.toNat, -1)]), ((chS, lit ['v']), [('大'.toNat, -1)])]
  minFloat := minFloat

theorem mem_of_get {K V : Type _} [DecidableEq K] (d : PyDict K V) (k : K) (v : V) (h : d.get? k = some v) : (k, v) ∈ d := by
  induction d with
  | nil => simp [PyDict.get?] at h
  | cons kv d ih =>
    unfold PyDict.get? at h
    split at h
    · next hk => injection h with h; rw [← hk, ← h]; simp
    · simp [ih h]

theorem twoTags_edge (p : ℚ) (x y : PState) : Edge (twoTags p) x y ↔ x ∈ [(chS, lit ['n']), (chS, lit ['v'])] ∧ y ∈ [(chS, lit ['n']), (chS, lit ['v'])] := by
  constructor
  · rintro ⟨tx, h1, h2⟩
    have hm := mem_of_get _ _ _ h1
    rw [PyDict.has_iff] at h2
    obtain ⟨q, h2⟩ := h2
    have hy := mem_of_get _ _ _ h2
    simp only [twoTags, List.mem_cons, List.not_mem_nil, or_false, Prod.mk.injEq] at hm
    rcases hm with ⟨rfl, rfl⟩ | ⟨rfl, rfl⟩ <;> simp only [List.mem_cons, List.not_mem_nil, or_false, Prod.mk.injEq] at hy <;>
      rcases hy with ⟨rfl, -⟩ | ⟨rfl, -⟩ <;> decide
  · rintro ⟨hx, hy⟩
    simp only [List.mem_cons, List.not_mem_nil, or_false] at hx hy
    rcases hx with rfl | rfl <;> rcases hy with rfl | rfl <;> exact ⟨_, rfl, rfl⟩

theorem twoTags_ok (p : ℚ) : TablesOK (twoTags p) := by
  have hlive : ∀ y ∈ [(chS, lit ['n']), (chS, lit ['v'])], Live (twoTags p) y := by
    intro y hy
    simp only [List.mem_cons, List.not_mem_nil, or_false] at hy
    rcases hy with rfl | rfl
    · exact ⟨_, rfl, by simp⟩
    · exact ⟨_, rfl, by simp⟩
  refine ⟨by show [(chS, lit ['n']), (chS, lit ['v'])].Nodup; decide, ?_, ?_, fun x y h => hlive y ((twoTags_edge p x y).mp h).2, ⟨_, hlive (chS, lit ['n']) (by simp)⟩⟩
  · intro y hy
    rw [PyDict.has_iff] at hy
    obtain ⟨v, hy⟩ := hy
    have hm := mem_of_get _ _ _ hy
    simp only [twoTags, List.mem_cons, List.not_mem_nil, or_false, Prod.mk.injEq] at hm
    rcases hm with ⟨rfl, -⟩ | ⟨rfl, -⟩ <;> exact ⟨rfl, rfl⟩
  · intro c l h
    simp [twoTags] at h

theorem twoTags_moderate (p : ℚ) (hp : |p| ≤ 2 ^ 100) : PosModerate (twoTags p) := by
  refine ⟨rfl, ?_, ?_, ?_⟩
  · intro y q h
    have hm := mem_of_get _ _ _ h
    simp only [twoTags, List.mem_cons, List.not_mem_nil, or_false, Prod.mk.injEq] at hm
    right
    rcases hm with ⟨-, rfl⟩ | ⟨-, rfl⟩
    · exact hp
    · norm_num
  · intro x tx y q h h'
    have hm := mem_of_get _ _ _ h
    have hm' := mem_of_get _ _ _ h'
    simp only [twoTags, List.mem_cons, List.not_mem_nil, or_false, Prod.mk.injEq] at hm
    rcases hm with ⟨-, rfl⟩ | ⟨-, rfl⟩ <;> simp only [List.mem_cons, List.not_mem_nil, or_false, Prod.mk.injEq] at hm' <;>
      rcases hm' with ⟨-, rfl⟩ | ⟨-, rfl⟩ <;> norm_num
  · intro y em c e h h'
    have hm := mem_of_get _ _ _ h
    have hm' := mem_of_get _ _ _ h'
    simp only [twoTags, List.mem_cons, List.not_mem_nil, or_false, Prod.mk.injEq] at hm
    rcases hm with ⟨-, rfl⟩ | ⟨-, rfl⟩ <;> simp only [List.mem_cons, List.not_mem_nil, or_false, Prod.mk.injEq] at hm' <;>
      rcases hm' with ⟨-, rfl⟩ <;> norm_num

theorem twoTags_noEmission (p : ℚ) (c : Ch) (hc : c ≠ '大'.toNat) : NoEmission (twoTags p) c := by
  intro y em h
  have hm := mem_of_get _ _ _ h
  simp only [twoTags, List.mem_cons, List.not_mem_nil, or_false, Prod.mk.injEq] at hm
  rcases hm with ⟨-, rfl⟩ | ⟨-, rfl⟩ <;> simpa [PyDict.get?] using fun h => hc h.symm

theorem twoTags_same (p q : ℚ) (hp : |p| ≤ 2 ^ 100) (hq : |q| ≤ 2 ^ 100) : SameShape (twoTags p) (twoTags q) := by
  have hlow : ∀ x : ℚ, |x| ≤ 2 ^ 100 → x ≠ minFloat := by
    rintro x hx rfl
    have := FinalSeg.minFloat_large
    have h2 := (abs_le.mp hx).1
    have : (2 : ℚ) ^ 100 < 2 ^ 240 := by norm_num
    linarith
  refine ⟨rfl, fun x => rfl, fun x y => by rw [twoTags_edge, twoTags_edge], ?_, ?_⟩
  · intro y r r' h h'
    have h1 := ((twoTags_moderate p hp).start y r h)
    have h2 := ((twoTags_moderate q hq).start y r' h')
    have hm := mem_of_get _ _ _ h
    have hm' := mem_of_get _ _ _ h'
    simp only [twoTags, List.mem_cons, List.not_mem_nil, or_false, Prod.mk.injEq] at hm hm'
    have e1 : r ≠ minFloat := by
      rcases hm with ⟨-, rfl⟩ | ⟨-, rfl⟩
      · exact hlow _ hp
      · exact hlow _ (by norm_num)
    have e2 : r' ≠ minFloat := by
      rcases hm' with ⟨-, rfl⟩ | ⟨-, rfl⟩
      · exact hlow _ hq
      · exact hlow _ (by norm_num)
    exact ⟨fun h => absurd h e1, fun h => absurd h e2⟩
  · intro y em em' c h h'
    have : some em = some em' := by rw [← h, ← h']; rfl
    injection this with this
    rw [this]

/-- The hypotheses of `C100_probabilities_lost` with 大大鿕大, and what comes out: the probabilities decide about the first character only. -/
example : PosModerate (twoTags 5) ∧ PosModerate (twoTags (-5)) ∧ TablesOK (twoTags 5) ∧ TablesOK (twoTags (-5)) ∧ SameShape (twoTags 5) (twoTags (-5)) ∧
    NoEmission (twoTags 5) ('鿕'.toNat) ∧
    (viterbi (dblArith fun _ => 0) (twoTags 5) (fun _ l => l) (lit ['大', '大', '鿕', '大'])).map Prod.snd =
      .ok [(chS, lit ['n']), (chS, lit ['v']), (chS, lit ['v']), (chS, lit ['v'])] ∧
    (viterbi (dblArith fun _ => 0) (twoTags (-5)) (fun _ l => l) (lit ['大', '大', '鿕', '大'])).map Prod.snd =
      .ok [(chS, lit ['v']), (chS, lit ['v']), (chS, lit ['v']), (chS, lit ['v'])] :=
  ⟨twoTags_moderate _ (by norm_num), twoTags_moderate _ (by norm_num), twoTags_ok _, twoTags_ok _, twoTags_same _ _ (by norm_num) (by norm_num),
    twoTags_noEmission _ _ (by decide), by decide +kernel, by decide +kernel⟩

/-- C100, what exact numbers would give: the probabilities do decide about the unknown character and those behind it. -/
theorem C100_exact_differs : ∃ (A : Arith ℚ) (T T' : Tables ℚ) (s : Str), Exact A ∧ PosModerate T ∧ PosModerate T' ∧ SameShape T T' ∧
    (∃ c ∈ s, NoEmission T c) ∧
    (viterbi A T (fun _ l => l) s).map Prod.snd = .ok [(chS, lit ['n']), (chS, lit ['n']), (chS, lit ['n'])] ∧
    (viterbi A T' (fun _ l => l) s).map Prod.snd = .ok [(chS, lit ['v']), (chS, lit ['v']), (chS, lit ['v'])] :=
  ⟨⟨0, (· + ·), (· - ·), (· * ·), (· / ·), fun _ => 0, fun n => n, fun _ => 0⟩, twoTags 5, twoTags (-5), lit ['大', '鿕', '大'],
    ⟨rfl, fun _ _ => rfl, fun _ _ => rfl, fun _ _ => rfl, fun _ _ => rfl, fun _ => rfl⟩, twoTags_moderate _ (by norm_num), twoTags_moderate _ (by norm_num),
    twoTags_same _ _ (by norm_num) (by norm_num), ⟨'鿕'.toNat, by decide, twoTags_noEmission _ _ (by decide)⟩, by decide +kernel, by decide +kernel⟩

/-- The shipped tables, with -1 for each probability except the -3.14e100 of `start_P`. -/
def flatTables : Tables ℚ :=
  { constTables (-1 : ℚ) with
    start := (List.range 256).map (fun i => (stateAt i, if startMask.testBit i then -1 else minFloat))
    minFloat := minFloat }

theorem get_map_val {K V V' : Type _} [DecidableEq K] (f : V → V') (d : PyDict K V) (k : K) :
    PyDict.get? (d.map (fun kv => (kv.1, f kv.2)) : PyDict K V') k = (d.get? k).map f := by
  induction d with
  | nil => rfl
  | cons kv d ih =>
    simp only [List.map_cons, PyDict.get?]
    split
    · rfl
    · exact ih

theorem flatTables_shipped : Shipped flatTables where
  start := by
    have : (List.range 256).map stateAt = states := by decide +kernel
    rw [← this]; simp [flatTables, PyDict.keys, Function.comp_def]
  emit := (constTables_shipped (-1 : ℚ)).emit
  trans := (constTables_shipped (-1 : ℚ)).trans
  chars := rfl

theorem flatTables_start : ShippedStart flatTables := by
  have key : ∀ i ∈ List.range 256, PyDict.get? ((List.range 256).map (fun i => (stateAt i, startMask.testBit i)) : PyDict PState Bool) (stateAt i) =
      some (startMask.testBit i) := by decide +kernel
  intro i hi p hp
  have e : flatTables.start = ((List.range 256).map (fun i => (stateAt i, startMask.testBit i))).map
      (fun kv => (kv.1, (fun b => if b then (-1 : ℚ) else minFloat) kv.2)) := by simp [flatTables, Function.comp_def]
  have hg := get_map_val (fun b : Bool => if b then (-1 : ℚ) else minFloat)
    ((List.range 256).map (fun i => (stateAt i, startMask.testBit i)) : PyDict PState Bool) (stateAt i)
  rw [key i (List.mem_range.mpr hi)] at hg
  rw [e] at hp
  have hp := hp.symm.trans hg
  simp only [Option.map_some, Option.some.injEq] at hp
  rw [hp]
  cases startMask.testBit i
  · simp
  · have : (-1 : ℚ) ≠ minFloat := by
      have h1 := FinalSeg.minFloat_large
      have h2 : (2 : ℚ) ^ 0 < 2 ^ 240 := by norm_num
      intro h; rw [← h] at h1; linarith
    simpa using this

theorem flatTables_moderate : PosModerate flatTables := by
  refine ⟨rfl, ?_, ?_, ?_⟩
  · intro y p h
    have hm := mem_of_get _ _ _ h
    obtain ⟨i, -, hm⟩ := List.mem_map.mp hm
    injection hm with _ hm
    rw [← hm]
    split
    · right; norm_num
    · left; rfl
  · intro x tx y p h h'
    have hm := mem_of_get _ _ _ h
    obtain ⟨kv, -, hm⟩ := List.mem_map.mp hm
    injection hm with _ hm
    rw [← hm] at h'
    obtain ⟨z, -, hz⟩ := List.mem_map.mp (mem_of_get _ _ _ h')
    injection hz with _ hz
    rw [← hz]; norm_num
  · intro y em c e h h'
    obtain ⟨z, -, hz⟩ := List.mem_map.mp (mem_of_get _ _ _ h)
    injection hz with _ hz
    rw [← hz] at h'
    exact absurd h' (by simp)

theorem flatTables_strange (c : Ch) (h : flatTables.charStates.get? c = none) : Strange flatTables c := by
  refine ⟨?_, h⟩
  intro y em h
  obtain ⟨z, -, hz⟩ := List.mem_map.mp (mem_of_get _ _ _ h)
  injection hz with _ hz
  rw [← hz]; rfl

/-- The hypotheses of `C100_strange_text` with 鿔鿕鿔, the last two characters that jieba takes as Han. -/
example : ∃ E : PEnv ℚ, E.A = dblArith (fun _ => 0) ∧ PosModerate E.tables ∧ Shipped E.tables ∧ ShippedStart E.tables ∧ PrefixClosed E.freq ∧ NonNeg E.freq ∧
    0 < E.total ∧ (∀ c ∈ lit ['鿔', '鿕', '鿔'], isHan c = true) ∧ (∀ c ∈ lit ['鿔', '鿕', '鿔'], Strange E.tables c) ∧
    (∀ w, DictWord E.freq w → w <:+: lit ['鿔', '鿕', '鿔'] → w.length ≤ 1) ∧
    Pos.cut E true (lit ['鿔', '鿕', '鿔']) =
      Gen.ok [(lit ['鿔'], lit ['y']), (lit ['鿕'], lit ['x']), (lit ['鿔'], lit ['z', 'g'])] := by
  have hs : ∀ c ∈ lit ['鿔', '鿕', '鿔'], Strange flatTables c := by
    have key : ∀ c ∈ lit ['鿔', '鿕', '鿔'], flatTables.charStates.get? c = none := by decide +kernel
    exact fun c hc => flatTables_strange c (key c hc)
  have hh : ∀ c ∈ lit ['鿔', '鿕', '鿔'], isHan c = true := by decide
  have hd : ∀ w, DictWord sampleFreq w → w <:+: lit ['鿔', '鿕', '鿔'] → w.length ≤ 1 := by
    rintro w ⟨v, hv, -⟩ hi
    have key : ∀ w ∈ sampleFreq.map Prod.fst, w <:+: lit ['鿔', '鿕', '鿔'] → w.length ≤ 1 := by decide +kernel
    exact key w (List.mem_map.mpr ⟨_, mem_of_get _ _ _ hv, rfl⟩) hi
  refine ⟨⟨dblArith (fun _ => 0), sampleFreq, 161, flatTables, [], fun _ _ l => l⟩, rfl, flatTables_moderate, flatTables_shipped, flatTables_start,
    sample_prefixClosed, sample_nonNeg, by decide, hh, hs, hd, ?_⟩
  exact C100_strange_text (fun _ => 0) _ rfl flatTables_moderate flatTables_shipped flatTables_start (fun _ _ l => List.Perm.refl l)
    sample_prefixClosed sample_nonNeg (by decide) _ (by decide) hh hs hd (by decide)

end Jieba.Props
