import Verif.Proofs.PosUnknown
import Verif.Proofs.PosTags
import Verif.Spec.PosKnown
/-!
# Helper lemmas: the Viterbi algorithm of the POS tagger in doubles, where the tables give some state sequence a probability
-/

set_option linter.unusedSectionVars false

namespace Jieba.Pos
open Jieba.Spec
open Jieba.FinalSeg (minFloat_large)

variable {log : Nat → ℚ} {T : Tables ℚ}

/-! ## Scores -/

/-- Like `PossibleStates`, without the lists of states. -/
structure Supported (T : Tables ℚ) (s : Str) (ys : List PState) : Prop where
  length : ys.length = s.length
  first : ∀ y, ys.head? = some y → CanStart T y
  follow : ys.IsChain (Edge T)
  known : ∀ q ∈ s.zip ys, HasEmission T q.2 q.1

theorem emission_cases (hT : PosModerate T) (y : PState) (c : Ch) (e : ℚ) (h : Emits T y c e) :
    (|e| ≤ 2 ^ 100 ∧ HasEmission T y c) ∨ e = minFloat := by
  obtain ⟨em, h1, h2⟩ := h
  cases h3 : em.get? c with
  | none => right; rw [h3] at h2; rw [h2]; exact hT.min
  | some p =>
    left
    rw [h3] at h2
    simp only [Option.getD_some] at h2
    subst h2
    exact ⟨hT.emit y em c _ h1 h3, em, h1, by rw [PyDict.has_iff]; exact ⟨_, h3⟩⟩

theorem score_cases (hT : PosModerate T) (s : Str) (ys : List PState) (v : ℚ) (h : Scored (dblArith log) T s ys v) (hlen : 2 * s.length ≤ 2 ^ 53) :
    (High (2 * s.length) v ∧ Supported T s ys) ∨ Low v := by
  induction h with
  | one c y p e _ h2 h3 =>
    show (High (2 * [c].length) (rnd (p + e)) ∧ _) ∨ Low (rnd (p + e))
    have h1 : ∀ q : ℚ, |q| ≤ 2 ^ 100 → High 1 q := by intro q hq; unfold High; push_cast; linarith
    rcases hT.start y p h2 with rfl | hp
    · right
      rcases emission_cases hT y c e h3 with ⟨he, -⟩ | rfl
      · rw [low_add low_minFloat he]; exact low_minFloat
      · exact low_min low_minFloat
    · rcases emission_cases hT y c e h3 with ⟨he, hk⟩ | rfl
      · left
        refine ⟨high_add (h1 p hp) he (by norm_num), rfl, ?_, by simp, ?_⟩
        · intro z hz; simp at hz; subst hz
          refine ⟨p, h2, ?_⟩
          rw [hT.min]
          rintro rfl
          exact absurd (low_lt_high low_minFloat (h1 _ hp) (by norm_num)) (lt_irrefl _)
        · intro q hq; simp at hq; subst hq; exact hk
      · right; rw [high_min (h1 p hp) (by norm_num)]; exact low_minFloat
  | snoc s ys x v c y tx p e h1 _ h2 h3 h4 ih =>
    show (High _ (rnd (rnd (v + p) + e)) ∧ _) ∨ Low (rnd (rnd (v + p) + e))
    have hp := hT.trans x tx y p h2 h3
    simp only [List.length_append, List.length_cons, List.length_nil, Nat.zero_add] at hlen ⊢
    have h5 := emission_cases hT y c e h4
    rcases ih (by omega) with ⟨hh, hs⟩ | hh
    · have hh' := high_add hh hp (by omega)
      rcases h5 with ⟨he, hk⟩ | rfl
      · left
        refine ⟨high_add hh' he (by omega), ?_, ?_, ?_, ?_⟩
        · have := hs.length
          simp only [List.length_append, List.length_cons, List.length_nil] at this ⊢; omega
        · intro z hz
          apply hs.first
          cases ys <;> simpa using hz
        · rw [List.isChain_append]
          refine ⟨hs.follow, by simp, ?_⟩
          intro a ha b hb
          simp at ha hb; subst ha; subst hb
          exact ⟨tx, h2, by rw [PyDict.has_iff]; exact ⟨p, h3⟩⟩
        · intro q hq
          rw [List.zip_append hs.length.symm] at hq
          rcases List.mem_append.mp hq with hq | hq
          · exact hs.known q hq
          · simp at hq; subst hq; exact hk
      · right; rw [high_min hh' (by omega)]; exact low_minFloat
    · right
      rw [low_add hh hp]
      rcases h5 with ⟨he, -⟩ | rfl
      · rw [low_add hh he]; exact hh
      · exact low_min hh

/-! ## A possible state sequence is one that is compared -/

theorem possible_snoc {s : Str} {c : Ch} {zs : List PState} (h : PossibleStates T (s ++ [c]) zs) :
    ∃ ys y, zs = ys ++ [y] ∧ PossibleStates T s ys ∧ HasEmission T y c ∧ StateOf T c y ∧ ∀ x, ys.getLast? = some x → Edge T x y := by
  have hne : zs ≠ [] := by
    rintro rfl
    have := h.length
    simp at this
  obtain ⟨ys, y, rfl⟩ : ∃ ys y, zs = ys ++ [y] := ⟨_, _, (List.dropLast_append_getLast hne).symm⟩
  have hl : ys.length = s.length := by
    have := h.length
    simpa using this
  have hz : (s ++ [c]).zip (ys ++ [y]) = s.zip ys ++ [(c, y)] := by rw [List.zip_append hl.symm]; rfl
  have hf := List.isChain_append.mp h.follow
  refine ⟨ys, y, rfl, ⟨hl, ?_, hf.1, ?_⟩, ?_, ?_, ?_⟩
  · intro x hx
    apply h.first
    rw [List.head?_append, hx]; rfl
  · intro q hq; apply h.known; rw [hz]; exact List.mem_append_left _ hq
  · exact (h.known (c, y) (by rw [hz]; simp)).1
  · exact (h.known (c, y) (by rw [hz]; simp)).2
  · intro x hx; exact hf.2.2 x hx y (by simp)

theorem stateOf_has (hS : TablesOK T) (c : Ch) (y : PState) (h : StateOf T c y) : T.trans.has y = true := by
  rcases h with ⟨l, h1, h2⟩ | ⟨-, h⟩
  · exact (hS.chars c l h1).1 y h2
  · exact h

theorem allowed_of_edge (s : Str) (c : Ch) (hne : s ≠ []) (x y : PState) (hx : Allowed T s x) (he : Edge T x y) (hy : StateOf T c y) :
    Allowed T (s ++ [c]) y := by
  unfold Allowed at *
  rw [List.reverse_append]
  have : s.reverse ≠ [] := by simpa using hne
  cases hr : s.reverse with
  | nil => exact absurd hr this
  | cons d r => rw [hr] at hx; exact ⟨⟨x, hx, he⟩, Or.inl hy⟩

theorem stateOf_of_allowed (s : Str) (c : Ch) (hne : s ≠ []) (x z y : PState) (hx : Allowed T s x) (he : Edge T x z) (hz : StateOf T c z)
    (hy : Allowed T (s ++ [c]) y) : StateOf T c y := by
  unfold Allowed at *
  rw [List.reverse_append] at hy
  have : s.reverse ≠ [] := by simpa using hne
  cases hr : s.reverse with
  | nil => exact absurd hr this
  | cons d r =>
    rw [hr] at hx hy
    rcases hy with ⟨-, h | h⟩
    · exact h
    · exact absurd ⟨z, hz, x, hx, he⟩ h

theorem scored_allowed {s : Str} {ys : List PState} {v : ℚ} (h : Scored (dblArith log) T s ys v) : ∀ y, ys.getLast? = some y → Allowed T s y := by
  intro y hy
  cases h with
  | one c z _ _ h => simp at hy; subst hy; exact h
  | snoc s ys x v c z tx p e _ h => simp at hy; subst hy; exact h

theorem has_get {K V : Type _} [DecidableEq K] {d : PyDict K V} {k : K} (h : d.has k = true) : ∃ v, d.get? k = some v := by
  rwa [PyDict.has_iff] at h

theorem possible_scored (log : Nat → ℚ) (hS : TablesOK T) (s : Str) (hne : s ≠ []) (ys : List PState) (h : PossibleStates T s ys) :
    ∃ v, Scored (dblArith log) T s ys v := by
  induction s using List.reverseRecOn generalizing ys with
  | nil => exact absurd rfl hne
  | append_singleton s c ih =>
    obtain ⟨ys, y, rfl, h1, -, h3, h4⟩ := possible_snoc h
    have hy := stateOf_has hS c y h3
    obtain ⟨em, hem⟩ := has_get (hS.rows y hy).2
    have he : Emits T y c ((em.get? c).getD T.minFloat) := ⟨em, hem, rfl⟩
    by_cases hs : s = []
    · subst hs
      have : ys = [] := by have := h1.length; simpa using this
      subst this
      obtain ⟨p, hp⟩ := has_get (hS.rows y hy).1
      exact ⟨_, .one c y p _ h3 hp he⟩
    · obtain ⟨v, hv⟩ := ih hs ys h1
      have hys : ys ≠ [] := by
        rintro rfl
        have := h1.length
        simp at this
        exact hs (List.length_eq_zero_iff.mp this.symm)
      obtain ⟨ys', x, rfl⟩ : ∃ ys' x, ys = ys' ++ [x] := ⟨_, _, (List.dropLast_append_getLast hys).symm⟩
      have hE := h4 x (by simp)
      obtain ⟨tx, g1, g2⟩ := hE
      obtain ⟨p, hp⟩ := has_get g2
      exact ⟨_, .snoc s ys' x v c y tx p _ hv (allowed_of_edge s c hs x y (scored_allowed hv x (by simp)) ⟨tx, g1, g2⟩ h3) g1 hp he⟩

/-- Where the tables give some state sequence a probability, only states of each character are compared. -/
theorem scored_stateOf (log : Nat → ℚ) (hS : TablesOK T) (s : Str) (ys : List PState) (h : PossibleStates T s ys) (zs : List PState) (v : ℚ)
    (hz : Scored (dblArith log) T s zs v) : zs.length = s.length ∧ ∀ q ∈ s.zip zs, StateOf T q.1 q.2 := by
  induction hz generalizing ys with
  | one c y p e h1 _ _ =>
    refine ⟨rfl, ?_⟩
    intro q hq; simp at hq; subst hq
    exact h1
  | snoc s zs x v c y tx p e hz hy _ _ _ ih =>
    obtain ⟨ys, y', rfl, h1, -, h3, h4⟩ := possible_snoc h
    obtain ⟨hl, hk⟩ := ih ys h1
    have hs : s ≠ [] := by rintro rfl; simp at hl
    refine ⟨by simp at hl ⊢; omega, ?_⟩
    intro q hq
    rw [List.zip_append hl.symm] at hq
    rcases List.mem_append.mp hq with hq | hq
    · exact hk q hq
    · simp at hq; subst hq
      obtain ⟨w, hw⟩ := possible_scored log hS s hs ys h1
      have hys : ys ≠ [] := by
        rintro rfl
        have := h1.length
        simp at this
        exact hs (List.length_eq_zero_iff.mp this.symm)
      obtain ⟨ys', x', rfl⟩ : ∃ ys' x, ys = ys' ++ [x] := ⟨_, _, (List.dropLast_append_getLast hys).symm⟩
      exact stateOf_of_allowed s c hs x' y' y (scored_allowed hw x' (by simp)) (h4 x' (by simp)) h3 hy

theorem best_possible (log : Nat → ℚ) (hT : PosModerate T) (hS : TablesOK T) (s : Str) (hne : s ≠ []) (hlen : s.length ≤ 2 ^ 50) (best ys : List PState)
    (hb : BestStates (dblArith log) T s best) (h : PossibleStates T s ys) : PossibleStates T s best := by
  obtain ⟨v, h1, h2⟩ := hb
  obtain ⟨w, hw⟩ := possible_scored log hS s hne ys h
  have hl : 2 * s.length ≤ 2 ^ 53 := by omega
  have hle := h2 ys w hw
  have hhigh : High (2 * s.length) w := by
    rcases score_cases hT s ys w hw hl with ⟨h, -⟩ | hlow
    · exact h
    · exfalso
      -- a possible sequence has no -3.14e100 in its score
      clear h1 h2 hle
      have key : ∀ (s : Str) (ys : List PState) (w : ℚ), 2 * s.length ≤ 2 ^ 53 → PossibleStates T s ys → Scored (dblArith log) T s ys w →
          High (2 * s.length) w := by
        intro s ys w hl h hw
        induction hw with
        | one c y p e _ g2 g3 =>
          show High (2 * [c].length) (rnd (p + e))
          obtain ⟨q, hq, hq'⟩ := h.first y rfl
          rw [g2] at hq; injection hq with hq; subst hq
          rw [hT.min] at hq'
          have hp := (hT.start y p g2).resolve_left hq'
          obtain ⟨em, e1, e2⟩ := (h.known (c, y) (by simp)).1
          obtain ⟨em', e3, e4⟩ := g3
          rw [e1] at e3; injection e3 with e3; subst e3
          obtain ⟨u, hu⟩ := has_get e2
          rw [hu] at e4; simp only [Option.getD_some] at e4; subst e4
          exact high_add (show High 1 p by unfold High; push_cast; linarith) (hT.emit y em c _ e1 hu) (by norm_num)
        | snoc s ys x v c y tx p e _ _ g2 g3 g4 ih =>
          show High _ (rnd (rnd (v + p) + e))
          obtain ⟨ys0, y0, e0, i1, i2, -, -⟩ := possible_snoc h
          obtain ⟨rfl, e0⟩ := List.append_inj' e0 rfl
          simp at e0; subst e0
          simp only [List.length_append, List.length_cons, List.length_nil, Nat.zero_add] at hl ⊢
          obtain ⟨em, e1, e2⟩ := i2
          obtain ⟨em', e3, e4⟩ := g4
          rw [e1] at e3; injection e3 with e3; subst e3
          obtain ⟨u, hu⟩ := has_get e2
          rw [hu] at e4; simp only [Option.getD_some] at e4; subst e4
          have hl' : 2 * s.length + 1 ≤ 2 ^ 53 := by omega
          have hl'' : 2 * s.length + 1 + 1 ≤ 2 ^ 53 := by omega
          exact high_add (high_add (ih (by omega) i1) (hT.trans x tx y p g2 g3) hl') (hT.emit y em c _ e1 hu) hl''
      exact absurd (low_lt_high hlow (key s ys w hl h hw) hl) (lt_irrefl _)
  rcases score_cases hT s best v h1 hl with ⟨-, hs⟩ | hlow
  · obtain ⟨-, hk⟩ := scored_stateOf log hS s ys h best v h1
    exact ⟨hs.length, hs.first, hs.follow, fun q hq => ⟨hs.known q hq, hk q hq⟩⟩
  · exact absurd (low_lt_high hlow hhigh hl) (not_lt.mpr hle)

/-! ## Words -/

/-- The unfinished word: a first character and inner ones, all with the same tag. -/
def OpenWord (T : Tables ℚ) (acc : List (Ch × PState)) (g : Str) : Prop :=
  ∃ b ms, acc.map Prod.fst = b :: ms ∧ HasEmission T (chB, g) b ∧ (∀ m ∈ ms, HasEmission T (chM, g) m) ∧ ∀ q ∈ acc, q.2.2 = g

theorem possible_pairs (hB : TransBMES T) (l acc : List (Ch × PState))
    (hchain : (acc.getLast?.toList ++ l).map Prod.snd |>.IsChain (Edge T)) (hk : ∀ q ∈ l, HasEmission T q.2 q.1)
    (hpos : ∀ q ∈ l, q.2.1 = chB ∨ q.2.1 = chM ∨ q.2.1 = chE ∨ q.2.1 = chS)
    (hfirst : acc = [] → ∀ q, l.head? = some q → q.2.1 = chB ∨ q.2.1 = chS)
    (hacc : ∀ q, acc.getLast? = some q → (q.2.1 = chB ∨ q.2.1 = chM) ∧ OpenWord T acc q.2.2) :
    ∀ p ∈ wordsByStates l acc, PossiblePair T p := by
  induction l generalizing acc with
  | nil =>
    cases acc with
    | nil => simp [wordsByStates]
    | cons q acc =>
      intro p hp
      obtain ⟨c, y⟩ := q
      simp only [wordsByStates, List.mem_singleton] at hp
      subst hp
      obtain ⟨z, hz⟩ : ∃ z, ((c, y) :: acc).getLast? = some z := ⟨_, List.getLast?_eq_some_getLast (by simp)⟩
      obtain ⟨-, b, ms, e, h1, h2, h3⟩ := hacc z hz
      rw [e, h3 (c, y) (by simp)]
      exact .open b ms _ h1 h2
  | cons q l ih =>
    obtain ⟨c, y⟩ := q
    have hem := hk (c, y) (by simp)
    have hk' : ∀ q ∈ l, HasEmission T q.2 q.1 := fun q hq => hk q (by simp [hq])
    have hpos' := fun q (hq : q ∈ l) => hpos q (by simp [hq])
    have hchain' : (((c, y) :: l).map Prod.snd).IsChain (Edge T) := by
      rw [List.map_append] at hchain
      exact (List.isChain_append.mp hchain).2.1
    have hlast : ∀ q, acc.getLast? = some q → Edge T q.2 y := by
      intro q hq
      rw [hq] at hchain
      simp only [Option.toList_some, List.singleton_append, List.map_cons, List.isChain_cons_cons] at hchain
      exact hchain.1
    unfold wordsByStates
    -- what the position means
    have hS : y.1 = chS → acc = [] := by
      intro hy
      cases hl : acc.getLast? with
      | none => simpa using hl
      | some q =>
        exfalso
        have h1 := hB.follow _ _ (hlast q hl)
        rcases (hacc q hl).1 with h | h <;> rw [h, hy] at h1 <;> revert h1 <;> decide
    have hBe : y.1 = chB → acc = [] := by
      intro hy
      cases hl : acc.getLast? with
      | none => simpa using hl
      | some q =>
        exfalso
        have h1 := hB.follow _ _ (hlast q hl)
        rcases (hacc q hl).1 with h | h <;> rw [h, hy] at h1 <;> revert h1 <;> decide
    have hMe : y.1 = chM ∨ y.1 = chE → ∃ q, acc.getLast? = some q ∧ q.2.2 = y.2 := by
      intro hy
      cases hl : acc.getLast? with
      | none =>
        exfalso
        have h0 : acc = [] := by simpa using hl
        rcases hfirst h0 (c, y) rfl with h | h <;> replace h : y.1 = _ := h <;> rcases hy with hy | hy <;> rw [h] at hy <;> revert hy <;> decide
      | some q => exact ⟨q, rfl, hB.tag _ _ (hlast q hl) (hacc q hl).1⟩
    -- what comes after the end of a word
    have hnext : (y.1 = chE ∨ y.1 = chS) → ∀ p ∈ wordsByStates l [], PossiblePair T p := by
      intro hy
      refine ih [] ?_ hk' hpos' ?_ (by simp)
      · simpa using (List.isChain_cons.mp (by simpa using hchain')).2
      · rintro - q hq
        cases l with
        | nil => simp at hq
        | cons q' l =>
          simp at hq; subst hq
          simp only [List.map_cons, List.isChain_cons_cons] at hchain'
          have h1 := hB.follow _ _ hchain'.1
          rcases hpos' q' (by simp) with h | h | h | h
          · exact Or.inl h
          · exfalso; rcases hy with hy | hy <;> rw [h, hy] at h1 <;> revert h1 <;> decide
          · exfalso; rcases hy with hy | hy <;> rw [h, hy] at h1 <;> revert h1 <;> decide
          · exact Or.inr h
    split
    · next hend =>
      intro p hp
      rcases List.mem_cons.mp hp with rfl | hp
      · rcases hend with hy | hy
        · obtain ⟨q, hq, hg⟩ := hMe (Or.inr hy)
          obtain ⟨-, b, ms, e, h1, h2, -⟩ := hacc q hq
          rw [hg] at h1 h2
          rw [e]
          refine .long b ms c y.2 h1 h2 ?_
          have : y = (chE, y.2) := Prod.ext hy rfl
          rw [this] at hem; exact hem
        · rw [hS hy]
          have : y = (chS, y.2) := Prod.ext hy rfl
          rw [this] at hem
          exact .single c y.2 hem
      · exact hnext hend p hp
    · next hend =>
      have hy : y.1 = chB ∨ y.1 = chM := by
        rcases hpos (c, y) (by simp) with h | h | h | h
        · exact Or.inl h
        · exact Or.inr h
        · exact absurd (Or.inl h) hend
        · exact absurd (Or.inr h) hend
      refine ih (acc ++ [(c, y)]) ?_ hk' hpos' (by simp) ?_
      · rw [List.getLast?_append]; simpa using hchain'
      · intro q hq
        rw [List.getLast?_append] at hq
        simp at hq; subst hq
        refine ⟨hy, ?_⟩
        rcases hy with hy | hy
        · rw [hBe hy]
          have : y = (chB, y.2) := Prod.ext hy rfl
          rw [this] at hem
          exact ⟨c, [], rfl, hem, by simp, by simp⟩
        · obtain ⟨q, hq, hg⟩ := hMe (Or.inl hy)
          obtain ⟨-, b, ms, e, h1, h2, h3⟩ := hacc q hq
          rw [hg] at h1 h2 h3
          have : y = (chM, y.2) := Prod.ext hy rfl
          rw [this] at hem
          refine ⟨b, ms ++ [c], by simp [e], h1, ?_, ?_⟩
          · intro m hm
            rcases List.mem_append.mp hm with hm | hm
            · exact h2 m hm
            · simp at hm; subst hm; exact hem
          · intro q hq
            rcases List.mem_append.mp hq with hq | hq
            · exact h3 q hq
            · simp at hq; subst hq; rfl

end Jieba.Pos
