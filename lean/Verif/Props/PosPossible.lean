import Verif.Props.PosKnown
/-!
# C111 — words that the HMM of the POS tagger puts together
-/

namespace Jieba.Props
open Jieba Jieba.Spec Jieba.Pos Jieba.PosData

/-! ## Runs of Han characters -/

theorem state_position (T : Tables ℚ) (hS : Shipped T) (y : PState) (h : T.trans.has y = true) :
    y.1 = chB ∨ y.1 = chM ∨ y.1 = chE ∨ y.1 = chS := by
  rw [← PyDict.mem_keys_iff, shipped_keys T hS] at h
  have key : states.all (fun y => Nat.beq y.1 chB || Nat.beq y.1 chM || Nat.beq y.1 chE || Nat.beq y.1 chS) = true := by decide +kernel
  have := List.all_eq_true.mp key y h
  simp only [Bool.or_eq_true] at this
  rcases this with ((h | h) | h) | h
  · exact Or.inl (Nat.eq_of_beq_eq_true h)
  · exact Or.inr (Or.inl (Nat.eq_of_beq_eq_true h))
  · exact Or.inr (Or.inr (Or.inl (Nat.eq_of_beq_eq_true h)))
  · exact Or.inr (Or.inr (Or.inr (Nat.eq_of_beq_eq_true h)))

theorem start_position : (List.range 256).all (fun i => !startMask.testBit i || Nat.beq (stateAt i).1 chB || Nat.beq (stateAt i).1 chS) = true := by
  decide +kernel

theorem canStart_position (T : Tables ℚ) (hT : PosModerate T) (hS : Shipped T) (h0 : ShippedStart T) (y : PState) (h : CanStart T y) :
    y.1 = chB ∨ y.1 = chS := by
  obtain ⟨p, h1, h2⟩ := h
  have hy : y ∈ states := by
    rw [← hS.start, PyDict.mem_keys_iff]
    unfold PyDict.has; rw [h1]; rfl
  obtain ⟨i, hi, rfl⟩ := List.mem_iff_getElem.mp hy
  have e : states[i] = stateAt i := by simp [stateAt, List.getD_eq_getElem?_getD, hi]
  rw [e] at h1 ⊢
  rw [states_length] at hi
  rw [hT.min] at h2
  have h3 : startMask.testBit i = true := by
    cases hb : startMask.testBit i with
    | true => rfl
    | false => exact absurd ((h0 i hi p h1).mpr hb) h2
  have := List.all_eq_true.mp start_position i (by simpa using hi)
  rw [h3] at this
  simp only [Bool.not_true, Bool.false_or, Bool.or_eq_true] at this
  exact this.imp Nat.eq_of_beq_eq_true Nat.eq_of_beq_eq_true

theorem best_pairs (log : Nat → ℚ) (T : Tables ℚ) (hT : PosModerate T) (hS : Shipped T) (h0 : ShippedStart T) (s : Str) (hne : s ≠ [])
    (hlen : s.length ≤ 2 ^ 50) (best ys : List PState) (hb : BestStates (dblArith log) T s best) (h : PossibleStates T s ys) :
    ∀ p ∈ wordsByStates (s.zip best) [], PossiblePair T p := by
  have hok := shipped_ok T hS
  have hp := Pos.best_possible log hT hok s hne hlen best ys hb h
  have hz : (s.zip best).map Prod.snd = best := List.map_snd_zip (by rw [hp.length])
  refine possible_pairs (shipped_bmes T hS) (s.zip best) [] ?_ (fun q hq => (hp.known q hq).1) ?_ ?_ (by simp)
  · simpa [hz] using hp.follow
  · intro q hq
    exact state_position T hS q.2 (stateOf_has hok q.1 q.2 (hp.known q hq).2)
  · rintro - q hq
    refine canStart_position T hT hS h0 q.2 (hp.first q.2 ?_)
    rw [← hz, List.head?_map, hq]; rfl

/-- C111: if the tables give some state sequence for a run of Han characters a probability, the HMM cuts it into words with tags that the tables
allow, also with doubles: all characters of a word have an emission probability for their position and the tag of the word. -/
theorem C111_run (log : Nat → ℚ) (E : PEnv ℚ) (hA : E.A = dblArith log) (hT : PosModerate E.tables) (hS : Shipped E.tables) (h0 : ShippedStart E.tables)
    (hσ : ∀ s t l, (E.σ s t l).Perm l) (s : Str) (hne : s ≠ []) (hhan : ∀ c ∈ s, isHan c = true) (hlen : s.length ≤ 2 ^ 50) (ys : List PState)
    (h : PossibleStates E.tables s ys) :
    ∃ qs, cutDetail E s = Gen.ok qs ∧ (qs.map Prod.fst).flatten = s ∧ ∀ p ∈ qs, PossiblePair E.tables p := by
  have hM : MonoAdd E.A := by rw [hA]; exact dbl_mono log
  have hok := shipped_ok _ hS
  have hB := shipped_bmes _ hS
  obtain ⟨best, hb, hcut⟩ := hmmCut_pairs E hM hok hB hσ s hne
  have hd : cutDetail E s = Gen.ok (wordsByStates (s.zip best) []) := by
    rw [cutDetail_eq_scan]
    have := scan_word isHan (hmmCut E) (fun blk => Gen.ok (((reSkipDetail.split blk).filter (fun x => x ≠ [])).map skipPair)) s [] hne hhan (by simp)
    rw [List.append_nil] at this
    rw [this, hcut, scan_nil, Gen.andThen_ok_nil]
  refine ⟨_, hd, ?_, ?_⟩
  · obtain ⟨ws, h1, h2⟩ := cutDetail_spec E hok hB hσ s
    rw [hd] at h1
    have := congrArg Gen.out h1
    change (wordsByStates (s.zip best) []).map Prod.fst = ws at this
    rw [this]
    exact h2.1
  · rw [hA] at hb
    exact best_pairs log E.tables hT hS h0 s hne hlen best ys hb h

/-! ## Texts -/

/-- Tags of words of one character: each can begin a text and each can follow each. -/
def freeTags : List Str := 
  [lit ['a'], lit ['a', 'g'], lit ['b'], lit ['c'], lit ['d'], lit ['e'], lit ['f'], lit ['g'], lit ['j'], lit ['k'], lit ['m'], lit
   ['n'], lit ['n', 'g'], lit ['n', 'r'], lit ['o'], lit ['p'], lit ['q'], lit ['r'], lit ['t', 'g'], lit ['u'], lit ['u', 'd'], lit
   ['u', 'g'], lit ['u', 'j'], lit ['u', 'l'], lit ['u', 'v'], lit ['u', 'z'], lit ['v'], lit ['v', 'g'], lit ['x'], lit ['y']]

/-- The character can be a word with one of these tags. -/
def FreeCh (c : Ch) : Prop := ∃ g ∈ freeTags, HasEmission PosData.tables (chS, g) c ∧ StateOf PosData.tables c (chS, g)

theorem core_tags : core.map stateAt = freeTags.map (fun g => (chS, g)) := by decide +kernel

theorem free_iff (c : Ch) : FreeCh c ↔ CoreCh c := by
  unfold FreeCh CoreCh
  constructor
  · rintro ⟨g, hg, h⟩
    have : (chS, g) ∈ core.map stateAt := by rw [core_tags]; exact List.mem_map.mpr ⟨g, hg, rfl⟩
    obtain ⟨i, hi, e⟩ := List.mem_map.mp this
    exact ⟨i, hi, by rw [e]; exact h⟩
  · rintro ⟨i, hi, h⟩
    have : stateAt i ∈ freeTags.map (fun g => (chS, g)) := by rw [← core_tags]; exact List.mem_map.mpr ⟨i, hi, rfl⟩
    obtain ⟨g, hg, e⟩ := List.mem_map.mp this
    exact ⟨g, hg, by rw [e]; exact h⟩

/-- The character has an emission probability as part of a longer word. -/
def InnerPos (c : Ch) : Prop := ∃ y, y.1 ≠ chS ∧ HasEmission PosData.tables y c

/-- C111: of the 8870 characters that the tables know, 7540 can be words with one of these 30 tags; 717 of them are not known as parts of words. -/
theorem C111_counts : Exactly 7540 FreeCh ∧ Exactly 717 (fun c => FreeCh c ∧ ¬ InnerPos c) ∧ ∀ c, FreeCh c → isHan c = true := by
  have hh : ∀ c, FreeCh c → isHan c = true := by
    rintro c ⟨g, -, h, -⟩
    exact knows_han c ⟨_, h⟩
  refine ⟨exactly_of_pop _ _ _ count_core ?_, exactly_of_pop _ _ _ count_coreOnly ?_, hh⟩
  · intro c
    have h1 := isHan_small c
    have h2 := hh c
    rw [free_iff, core_iff] at h2
    rw [free_iff, core_iff]
    exact ⟨fun h => ⟨h1 (h2 h), h⟩, fun h => h.2⟩
  · intro c
    have h1 := isHan_small c
    have h2 := hh c
    unfold InnerPos
    rw [free_iff, core_iff] at h2
    rw [inner_iff, free_iff, core_iff]
    simp only [Nat.testBit_xor, Nat.testBit_and]
    cases e1 : isHan c <;> cases e2 : (coreMask <<< 0x4E00).testBit c <;> cases e3 : (innerMask <<< 0x4E00).testBit c <;> simp_all

theorem core_canStart (i : Nat) (hi : i ∈ core) : CanStart PosData.tables (stateAt i) := by
  have hlt : i < 256 := by
    have := List.all_eq_true.mp core_lt i hi
    simpa using Nat.blt_eq.mp this
  have hs := List.all_eq_true.mp core_start i hi
  obtain ⟨p, hp⟩ := has_get ((shipped_ok _ shipped_tables).rows _ (state_has i hlt)).1
  refine ⟨p, hp, ?_⟩
  intro e
  rw [(shippedStart i hlt p hp).mp e] at hs
  cases hs

theorem core_edge (i j : Nat) (hi : i ∈ core) (hj : j ∈ core) : Edge PosData.tables (stateAt i) (stateAt j) := by
  have hlt : ∀ i ∈ core, i < 256 := fun i hi => by
    have := List.all_eq_true.mp core_lt i hi
    simpa using Nat.blt_eq.mp this
  rw [shipped_edge_iff shipped_tables i j (hlt i hi) (hlt j hj)]
  have := List.all_eq_true.mp (List.all_eq_true.mp core_rows i hi) j hj
  simpa using this

theorem free_possible (s : Str) (h : ∀ c ∈ s, FreeCh c) : ∃ ys, PossibleStates PosData.tables s ys := by
  have h' : ∃ is : List Nat, is.length = s.length ∧ (∀ i ∈ is, i ∈ core) ∧
      ∀ q ∈ s.zip is, HasEmission PosData.tables (stateAt q.2) q.1 ∧ StateOf PosData.tables q.1 (stateAt q.2) := by
    induction s with
    | nil => exact ⟨[], rfl, by simp, by simp⟩
    | cons c s ih =>
      obtain ⟨is, h1, h2, h3⟩ := ih (fun c hc => h c (by simp [hc]))
      obtain ⟨i, hi, hc⟩ := (free_iff c).mp (h c (by simp))
      refine ⟨i :: is, by simp [h1], ?_, ?_⟩
      · intro j hj
        rcases List.mem_cons.mp hj with rfl | hj
        · exact hi
        · exact h2 j hj
      · intro q hq
        rw [List.zip_cons_cons] at hq
        rcases List.mem_cons.mp hq with rfl | hq
        · exact hc
        · exact h3 q hq
  obtain ⟨is, h1, h2, h3⟩ := h'
  refine ⟨is.map stateAt, by simp [h1], ?_, ?_, ?_⟩
  · intro y hy
    rw [List.head?_map, Option.map_eq_some_iff] at hy
    obtain ⟨i, hi, rfl⟩ := hy
    exact core_canStart i (h2 i (List.mem_of_head? hi))
  · clear h1 h3
    rw [List.isChain_map]
    induction is with
    | nil => simp
    | cons i is ih =>
      rw [List.isChain_cons]
      refine ⟨?_, ih (fun j hj => h2 j (by simp [hj]))⟩
      intro j hj
      exact core_edge i j (h2 i (by simp)) (h2 j (by simp [List.mem_of_head? hj]))
  · intro q hq
    rw [List.zip_map_right, List.mem_map] at hq
    obtain ⟨q', hq', rfl⟩ := hq
    exact h3 q' hq'

theorem latin_flatten (u : Str) (ws : List Pair) (h : LatinPairs u ws) : (ws.map Prod.fst).flatten = u := by
  induction h with
  | nil => rfl
  | num u rest qs _ _ _ _ ih => simp [ih]
  | eng c u rest qs _ _ _ _ ih => simp [ih]
  | other u rest qs _ _ _ _ ih => simp [ih]

theorem detail_possible (log : Nat → ℚ) (s : Str) (qs : List Pair) (hs : ∀ c ∈ s, isHan c = true → FreeCh c) (hlen : s.length ≤ 2 ^ 50)
    (h : DetailPairs (dblArith log) PosData.tables s qs) : ∀ p ∈ qs, PossiblePair PosData.tables p ∨ ∀ c ∈ p.1, isHan c = false := by
  induction h with
  | nil => simp
  | han u rest ys qs hne hu _ hb _ ih =>
    simp only [List.length_append] at hlen
    obtain ⟨zs, hz⟩ := free_possible u (fun c hc => hs c (by simp [hc]) (hu c hc))
    have h1 := best_pairs log PosData.tables PosData.moderate shipped_tables shippedStart u hne (by omega) ys zs hb hz
    intro p hp
    rcases List.mem_append.mp hp with hp | hp
    · exact Or.inl (h1 p hp)
    · exact ih (fun c hc => hs c (by simp [hc])) (by omega) p hp
  | other u rest ws qs hne hu _ hl _ ih =>
    simp only [List.length_append] at hlen
    intro p hp
    rcases List.mem_append.mp hp with hp | hp
    · right
      intro c hc
      apply hu
      rw [← latin_flatten u ws hl]
      exact List.mem_flatten.mpr ⟨p.1, List.mem_map.mpr ⟨p, hp, rfl⟩, hc⟩
    · exact ih (fun c hc => hs c (by simp [hc])) (by omega) p hp

/-- The tag of the table of tags; 'x' if there is none. -/
def TableTag (tab : PyDict Str Str) (p : Pair) : Prop := tab.get? p.1 = some p.2 ∨ (tab.get? p.1 = none ∧ p.2 = lit ['x'])

theorem tagOf_tableTag (tab : PyDict Str Str) (w : Str) : TableTag tab (w, tagOf tab w) := by
  unfold tagOf TableTag
  cases tab.get? w with
  | none => exact Or.inr ⟨rfl, rfl⟩
  | some g => exact Or.inl rfl

theorem tagged_possible (log : Nat → ℚ) (E : PEnv ℚ) (hA : E.A = dblArith log) (hT : E.tables = PosData.tables) (detail : Str → List Pair)
    (hd : ∀ b, DetailPairs E.A E.tables b (detail b)) (path : List Str) (ts : List Pair)
    (hpw : ∀ w ∈ path, DictWord E.freq w ∨ w.length = 1) (hpc : ∀ w ∈ path, ∀ c ∈ w, isHan c = true → FreeCh c) (hlen : path.flatten.length ≤ 2 ^ 50)
    (h : Tagged (fun w => w.length = 1) (tagOf E.tab)
        (fun r qs => qs = if r.length = 1 ∨ DictWord E.freq r.flatten then r.map (fun w => (w, tagOf E.tab w)) else detail r.flatten) path ts) :
    ∀ p ∈ ts, ((p.1.length = 1 ∨ DictWord E.freq p.1) ∧ TableTag E.tab p) ∨ (∀ c ∈ p.1, isHan c = false) ∨ PossiblePair PosData.tables p := by
  induction h with
  | nil => simp
  | word x ps ts hx _ ih =>
    intro p hp
    rcases List.mem_cons.mp hp with rfl | hp
    · exact Or.inl ⟨(hpw x (by simp)).symm, tagOf_tableTag _ _⟩
    · exact ih (fun w hw => hpw w (by simp [hw])) (fun w hw => hpc w (by simp [hw])) (by simp at hlen ⊢; omega) p hp
  | run r ps qs ts hr1 hr2 _ hR _ ih =>
    intro p hp
    rcases List.mem_append.mp hp with hp | hp
    · rw [hR] at hp
      split at hp
      · obtain ⟨w, hw, rfl⟩ := List.mem_map.mp hp
        exact Or.inl ⟨Or.inl (hr2 w hw), tagOf_tableTag _ _⟩
      · have hdr := hd r.flatten
        rw [hA, hT] at hdr
        have h1 : ∀ c ∈ r.flatten, isHan c = true → FreeCh c := by
          intro c hc
          obtain ⟨x, hx, hcx⟩ := List.mem_flatten.mp hc
          exact hpc x (by simp [hx]) c hcx
        have h2 : r.flatten.length ≤ 2 ^ 50 := by
          rw [List.flatten_append, List.length_append] at hlen; omega
        rcases detail_possible log _ _ h1 h2 hdr p hp with h | h
        · exact Or.inr (Or.inr h)
        · exact Or.inr (Or.inl h)
    · exact ih (fun w hw => hpw w (by simp [hw])) (fun w hw => hpc w (by simp [hw])) (by simp at hlen ⊢; omega) p hp

/-- C111: with the shipped tables, every tagged word of `posseg.cut` with HMM is a single character or a dictionary word with its tag from the
table of tags, text without Han characters, or a word with a tag that the tables of the HMM allow; if all Han characters of the text can be
words with one of the 30 tags. -/
theorem C111_cut (log : Nat → ℚ) (E : PEnv ℚ) (hA : E.A = dblArith log) (hT : E.tables = PosData.tables) (hσ : ∀ s t l, (E.σ s t l).Perm l)
    (hp : PrefixClosed E.freq) (hn : NonNeg E.freq) (ht : 0 < E.total) (s : Str) (hs : ∀ c ∈ s, isHan c = true → FreeCh c) (hlen : s.length ≤ 2 ^ 50) :
    ∃ ts, Pos.cut E true s = Gen.ok ts ∧
      ∀ p ∈ ts, ((p.1.length = 1 ∨ DictWord E.freq p.1) ∧ TableTag E.tab p) ∨ (∀ c ∈ p.1, isHan c = false) ∨ PossiblePair PosData.tables p := by
  have hM : MonoAdd E.A := by rw [hA]; exact dbl_mono log
  have hS : Shipped E.tables := by rw [hT]; exact shipped_tables
  rw [Pos.cut_eq_scan]
  revert hs hlen
  refine scan_ind (P := fun s => (∀ c ∈ s, isHan c = true → FreeCh c) → s.length ≤ 2 ^ 50 → ∃ ts,
    scan isWordChPos (Pos.cutBlock E true) (fun b => Gen.ok ((charTokens b).map (fun w => (w, flagX)))) s = Gen.ok ts ∧
      ∀ p ∈ ts, ((p.1.length = 1 ∨ DictWord E.freq p.1) ∧ TableTag E.tab p) ∨ (∀ c ∈ p.1, isHan c = false) ∨ PossiblePair PosData.tables p)
    isWordChPos ?_ ?_ ?_ s
  · intro _ _; exact ⟨[], rfl, by simp⟩
  · intro u rest hne hu hr ih hs hlen
    simp only [List.length_append] at hlen
    obtain ⟨ts', e', h'⟩ := ih (fun c hc => hs c (by simp [hc])) (by omega)
    obtain ⟨path, ts, detail, hbest, hcut, -, hd, htag⟩ := C43_tags_hmm E hS hσ hM hp hn ht u hne hu
    have hblk : Pos.cutBlock E true u = Gen.ok ts := by
      rw [Pos.cut_eq_scan] at hcut
      have := scan_word isWordChPos (Pos.cutBlock E true) (fun b => Gen.ok ((charTokens b).map (fun w => (w, flagX)))) u [] hne hu (by simp)
      rw [List.append_nil] at this
      rw [this, scan_nil, Gen.andThen_ok_nil] at hcut
      exact hcut
    rw [scan_word _ _ _ u rest hne hu hr, e', hblk, Gen.ok_andThen_ok]
    refine ⟨ts ++ ts', rfl, ?_⟩
    have hfl : path.flatten = u := admissible_flatten _ _ _ (isBest_admissible _ _ _ _ _ hbest)
    have hall := tagged_possible log E hA hT detail hd path ts (admissible_word _ _ _ _ _ hbest) (by
      intro w hw c hc
      apply hs
      rw [List.mem_append]; left
      rw [← hfl]
      exact List.mem_flatten.mpr ⟨w, hw, hc⟩) (by rw [hfl]; omega) htag
    intro p hp
    rcases List.mem_append.mp hp with hp | hp
    · exact hall p hp
    · exact h' p hp
  · intro u rest hne hu hr ih hs hlen
    simp only [List.length_append] at hlen
    obtain ⟨ts', e', h'⟩ := ih (fun c hc => hs c (by simp [hc])) (by omega)
    rw [scan_nonword _ _ _ u rest hne hu hr, e', Gen.ok_andThen_ok]
    refine ⟨_, rfl, ?_⟩
    intro p hp
    rcases List.mem_append.mp hp with hp | hp
    · right; left
      obtain ⟨w, hw, rfl⟩ := List.mem_map.mp hp
      intro c hc
      have hm : c ∈ u := by
        rw [← (charTokens_flatten u).1]
        exact List.mem_flatten.mpr ⟨w, hw, hc⟩
      have := hu c hm
      cases hh : isHan c with
      | false => rfl
      | true => simp [isWordChPos, hh] at this
    · exact h' p hp

/-- C111: on such a text, a Han character that the tables do not know as part of a word (717 characters) is never joined to others by the HMM: a longer
tagged word with it is a dictionary word, with its tag from the table of tags. -/
theorem C111_only_single (log : Nat → ℚ) (E : PEnv ℚ) (hA : E.A = dblArith log) (hT : E.tables = PosData.tables) (hσ : ∀ s t l, (E.σ s t l).Perm l)
    (hp : PrefixClosed E.freq) (hn : NonNeg E.freq) (ht : 0 < E.total) (s : Str) (hs : ∀ c ∈ s, isHan c = true → FreeCh c) (hlen : s.length ≤ 2 ^ 50) :
    ∃ ts, Pos.cut E true s = Gen.ok ts ∧
      ∀ p ∈ ts, ∀ c ∈ p.1, isHan c = true → ¬ InnerPos c → p.1 = [c] ∨ (DictWord E.freq p.1 ∧ TableTag E.tab p) := by
  obtain ⟨ts, h1, h2⟩ := C111_cut log E hA hT hσ hp hn ht s hs hlen
  refine ⟨ts, h1, ?_⟩
  intro p hp c hc hhan hin
  rcases h2 p hp with ⟨h | h, h'⟩ | h | h
  · obtain ⟨x, hx⟩ := List.length_eq_one_iff.mp h
    rw [hx] at hc ⊢
    simp at hc; subst hc; exact Or.inl rfl
  · exact Or.inr ⟨h, h'⟩
  · rw [h c hc] at hhan; cases hhan
  · have hB : ∀ g, ¬ HasEmission PosData.tables (chB, g) c := fun g h => hin ⟨_, by simp only [chB, chM, chE, chS]; decide, h⟩
    have hM : ∀ g, ¬ HasEmission PosData.tables (chM, g) c := fun g h => hin ⟨_, by simp only [chB, chM, chE, chS]; decide, h⟩
    have hE : ∀ g, ¬ HasEmission PosData.tables (chE, g) c := fun g h => hin ⟨_, by simp only [chB, chM, chE, chS]; decide, h⟩
    cases h with
    | single x g _ => simp at hc; subst hc; exact Or.inl rfl
    | long b ms e g hb hm he =>
      exfalso
      simp only [List.mem_cons, List.mem_append, List.not_mem_nil, or_false] at hc
      rcases hc with rfl | hc | rfl
      · exact hB g hb
      · exact hM g (hm c hc)
      · exact hE g he
    | «open» b ms g hb hm =>
      exfalso
      rcases List.mem_cons.mp hc with rfl | hc
      · exact hB g hb
      · exact hM g (hm c hc)

/-- The hypotheses of `C111_only_single`: 杭 and 研 are free, 咩 (the bleating of sheep) is, and is not known as part of a word; and what comes out. -/
example : (∀ c ∈ lit ['杭', '研', '咩'], FreeCh c) ∧ ¬ InnerPos ('咩'.toNat) ∧
    Pos.cut realEnv true (lit ['杭', '研', '咩', '杭', '研']) =
      Gen.ok [(lit ['杭', '研'], lit ['n', 'r']), (lit ['咩'], lit ['o']), (lit ['杭'], lit ['j']), (lit ['研'], lit ['v', 'n'])] := by
  refine ⟨?_, ?_, by decide +kernel⟩
  · intro c hc
    rw [free_iff, core_iff]
    revert c
    decide +kernel
  · unfold InnerPos; rw [inner_iff]; decide +kernel

theorem hasEmission_of_test (T : Tables ℚ) (y : PState) (c : Ch) (h : (match T.emit.get? y with | some em => em.has c | none => false) = true) :
    HasEmission T y c := by
  cases he : T.emit.get? y with
  | none => rw [he] at h; cases h
  | some em => rw [he] at h; exact ⟨em, he, h⟩

theorem stateOf_of_test (T : Tables ℚ) (y : PState) (c : Ch) (h : (match T.charStates.get? c with | some l => decide (y ∈ l) | none => false) = true) :
    StateOf T c y := by
  cases he : T.charStates.get? c with
  | none => rw [he] at h; cases h
  | some l => rw [he] at h; exact Or.inl ⟨l, he, by simpa using h⟩

/-- The hypotheses of `C111_run` where 醐 cannot be a word: 醍醐 can be a noun.  What comes out is the beginning of an idiom, of which 醐 is an inner
character. -/
example : PossibleStates PosData.tables (lit ['醍', '醐']) [(chB, lit ['n']), (chE, lit ['n'])] ∧ ¬ FreeCh ('醐'.toNat) ∧
    cutDetail realEnv (lit ['醍', '醐']) = Gen.ok [(lit ['醍', '醐'], lit ['i'])] ∧
    HasEmission PosData.tables (chB, lit ['i']) ('醍'.toNat) ∧ HasEmission PosData.tables (chM, lit ['i']) ('醐'.toNat) := by
  have e1 : stateAt 25 = (chB, lit ['n']) := by decide +kernel
  refine ⟨⟨rfl, ?_, ?_, ?_⟩, ?_, by decide +kernel, hasEmission_of_test _ _ _ (by decide +kernel), hasEmission_of_test _ _ _ (by decide +kernel)⟩
  · intro y hy
    simp only [List.head?_cons, Option.some.injEq] at hy
    subst hy
    obtain ⟨p, hp⟩ := has_get ((shipped_ok _ shipped_tables).rows _ (state_has 25 (by decide))).1
    rw [← e1]
    refine ⟨p, hp, fun e => ?_⟩
    have := (shippedStart 25 (by decide) p hp).mp e
    revert this; decide +kernel
  · refine List.isChain_cons_cons.mpr ⟨?_, by simp⟩
    have e2 : stateAt 89 = (chE, lit ['n']) := by decide +kernel
    rw [← e1, ← e2, shipped_edge_iff shipped_tables 25 89 (by decide) (by decide)]
    decide +kernel
  · intro q hq
    simp only [lit, List.map_cons, List.map_nil, List.zip_cons_cons, List.zip_nil_right, List.mem_cons, List.not_mem_nil, or_false] at hq
    rcases hq with rfl | rfl
    · exact ⟨hasEmission_of_test _ _ _ (by decide +kernel), stateOf_of_test _ _ _ (by decide +kernel)⟩
    · exact ⟨hasEmission_of_test _ _ _ (by decide +kernel), stateOf_of_test _ _ _ (by decide +kernel)⟩
  · rw [free_iff, core_iff]; decide +kernel

end Jieba.Props
