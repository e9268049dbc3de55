import Verif.Proofs.PosWords
import Verif.Props.Posseg
/-!
# C75: the state sequence chosen by the POS tagger, and the tagged words it stands for
-/

set_option linter.unusedSectionVars false

namespace Jieba.Props
open Jieba Jieba.Spec Jieba.Pos Jieba.PosData

variable {F : Type _} [LinearOrder F]

/-- C75: on every non-empty text the Viterbi algorithm of the POS tagger returns an allowed state sequence with its score, and no
allowed state sequence has a larger score.  If addition is strictly monotone (exact), ties go to the sequence with the larger
state at the last difference. -/
theorem C75_best_states (A : Arith F) (hA : MonoAdd A) (T : Tables F) (hT : Shipped T) (σ : Nat → List PState → List PState)
    (hσ : ∀ t l, (σ t l).Perm l) (obs : Str) (hne : obs ≠ []) :
    ∃ (v : F) (route : List PState), viterbi A T σ obs = .ok ((v : WithBot F), route) ∧ Scored A T obs route v ∧
      ∀ ys w, Scored A T obs ys w → w ≤ v ∧
        ((∀ a b c : F, a < b → A.add a c < A.add b c) → w = v → ys = route ∨ LastLarger route ys) :=
  viterbi_best A hA T (shipped_ok _ hT) σ hσ obs hne

/-- C75: what the HMM makes of a text: tagged words of best state sequences for the Han runs; numbers, foreign words and other
text between them. -/
theorem C75_tagged_words (E : PEnv F) (hA : MonoAdd E.A) (hT : Shipped E.tables) (hσ : ∀ s t l, (E.σ s t l).Perm l) (s : Str) :
    ∃ qs, cutDetail E s = Gen.ok qs ∧ DetailPairs E.A E.tables s qs :=
  cutDetail_pairs E hA (shipped_ok _ hT) (shipped_bmes _ hT) hσ s

/-- What the HMM makes of a text is determined by this, up to equally good state sequences: numbers and foreign words are. -/
theorem C75_latin_unique (s : Str) (qs qs' : List Pair) (h : LatinPairs s qs) (h' : LatinPairs s qs') : qs = qs' := by
  have split : ∀ (P : Ch → Prop) (u rest u' rest' : Str), u ++ rest = u' ++ rest' → (∀ c ∈ u, P c) → (∀ c ∈ u', P c) →
      (∀ c, rest.head? = some c → ¬ P c) → (∀ c, rest'.head? = some c → ¬ P c) → u = u' ∧ rest = rest' := by
    intro P u
    induction u with
    | nil =>
      intro rest u' rest' e _ h2 h3 _
      cases u' with
      | nil => exact ⟨rfl, e⟩
      | cons c u' => rw [List.nil_append] at e; exact absurd (h2 c (by simp)) (h3 c (by rw [e]; rfl))
    | cons c u ih =>
      intro rest u' rest' e h1 h2 h3 h4
      cases u' with
      | nil => rw [List.nil_append] at e; exact absurd (h1 c (by simp)) (h4 c (by rw [← e]; rfl))
      | cons c' u' =>
        simp only [List.cons_append, List.cons.injEq] at e
        obtain ⟨rfl, e⟩ := e
        obtain ⟨rfl, rfl⟩ := ih rest u' rest' e (fun d hd => h1 d (by simp [hd])) (fun d hd => h2 d (by simp [hd])) h3 h4
        exact ⟨rfl, rfl⟩
  have hh : ∀ {u rest : Str} {c : Ch}, u ≠ [] → (u ++ rest).head? = some c → c ∈ u := by
    intro u rest c hu hc
    cases u with
    | nil => exact absurd rfl hu
    | cons d u => simp at hc; simp [hc]
  induction h generalizing qs' with
  | nil =>
    generalize hs : ([] : Str) = s at h'
    cases h' with
    | nil => rfl
    | num u rest qs hu => simp [hu] at hs
    | eng c u rest qs hu => simp at hs
    | other u rest qs hu => simp [hu] at hs
  | num u rest qs hu h1 h2 h3 ih =>
    generalize hs : u ++ rest = s at h'
    obtain ⟨c, hc⟩ : ∃ c, (u ++ rest).head? = some c := by cases u with | nil => exact absurd rfl hu | cons c u => exact ⟨c, rfl⟩
    have hcn := h1 c (hh hu hc)
    cases h' with
    | nil => simp [hu] at hs
    | num u' rest' qs' hu' k1 k2 k3 =>
      obtain ⟨rfl, rfl⟩ := split IsNumCh _ _ _ _ hs h1 k1 h2 k2
      rw [ih _ k3]
    | eng c' u' rest' qs' k0 =>
      rw [hs] at hc; simp at hc; subst hc; exact absurd hcn k0
    | other u' rest' qs' hu' k1 =>
      rw [hs] at hc
      exact absurd hcn (k1 c (hh hu' hc)).1
  | eng c u rest qs h0 h1 h2 h3 ih =>
    generalize hs : c :: u ++ rest = s at h'
    cases h' with
    | nil => simp at hs
    | num u' rest' qs' hu' k1 k2 k3 =>
      exact absurd (k1 c (hh hu' (by rw [← hs]; rfl))) h0
    | eng c' u' rest' qs' k0 k1 k2 k3 =>
      obtain ⟨e, rfl⟩ := split IsAlnumCh _ _ _ _ hs h1 k1 h2 k2
      rw [ih _ k3, e]
    | other u' rest' qs' hu' k1 =>
      exact absurd (h1 c (by simp)) (k1 c (hh hu' (by rw [← hs]; rfl))).2
  | other u rest qs hu h1 h2 h3 ih =>
    generalize hs : u ++ rest = s at h'
    obtain ⟨c, hc⟩ : ∃ c, (u ++ rest).head? = some c := by cases u with | nil => exact absurd rfl hu | cons c u => exact ⟨c, rfl⟩
    have hcn := h1 c (hh hu hc)
    cases h' with
    | nil => simp [hu] at hs
    | num u' rest' qs' hu' k1 k2 k3 => rw [hs] at hc; exact absurd (k1 c (hh hu' hc)) hcn.1
    | eng c' u' rest' qs' k0 k1 => rw [hs] at hc; simp at hc; subst hc; exact absurd (k1 _ (by simp)) hcn.2
    | other u' rest' qs' hu' k1 k2 k3 =>
      obtain ⟨rfl, rfl⟩ := split (fun c => ¬ IsNumCh c ∧ ¬ IsAlnumCh c) _ _ _ _ hs h1 k1
        (fun c hc hn => by rcases h2 c hc with h | h; exact hn.1 h; exact hn.2 h)
        (fun c hc hn => by rcases k2 c hc with h | h; exact hn.1 h; exact hn.2 h)
      rw [ih _ k3]

/-- A Han run between a version number, a word with a digit and a comma. -/
example : cutDetail samplePEnv (lit ['3', '.', '5', '大', '学', '来', 'a', '4', ',']) =
    Gen.ok [(lit ['3', '.', '5'], lit ['m']), (lit ['大', '学'], lit ['n']), (lit ['来'], lit ['v']), (lit ['a', '4'], lit ['e', 'n', 'g']),
      (lit [','], lit ['x'])] := by decide +kernel

/-- Two allowed state sequences for 大学 with different scores (the first is the best). -/
example : Scored intArith smallTables (lit ['大', '学']) [(chB, lit ['n']), (chE, lit ['n'])] (-4) ∧
    Scored intArith smallTables (lit ['大', '学']) [(chM, lit ['n']), (chE, lit ['n'])] (-192) := by
  have ha : ∀ y, smallTables.trans.has y = true → Allowed smallTables (lit ['大']) y := fun y hy => Or.inr ⟨by decide, hy⟩
  have hb : Allowed smallTables (lit ['大'] ++ lit ['学']) (chE, lit ['n']) := by
    refine ⟨⟨(chB, lit ['n']), ha _ (by decide), [((chE, lit ['n']), -1), ((chM, lit ['n']), -3)], by decide, by decide⟩,
      Or.inl (Or.inl ⟨_, rfl, by decide⟩)⟩
  have h1 := Scored.one (A := intArith) (T := smallTables) 0x5927 (chB, lit ['n']) (-1) (-1) (ha _ (by decide)) (by decide)
    ⟨_, rfl, by decide⟩
  have h2 := Scored.one (A := intArith) (T := smallTables) 0x5927 (chM, lit ['n']) (-90) (-100) (ha _ (by decide)) (by decide)
    ⟨_, rfl, by decide⟩
  constructor
  · have := Scored.snoc _ [] _ _ 0x5B66 (chE, lit ['n']) _ (-1) (-1) h1 hb (by rfl) (by decide) ⟨_, rfl, by decide⟩
    rwa [show intArith.add (intArith.add (intArith.add (-1) (-1)) (-1)) (-1) = -4 by decide] at this
  · have := Scored.snoc _ [] _ _ 0x5B66 (chE, lit ['n']) _ (-1) (-1) h2 hb (by rfl) (by decide) ⟨_, rfl, by decide⟩
    rwa [show intArith.add (intArith.add (intArith.add (-90) (-100)) (-1)) (-1) = -192 by decide] at this

end Jieba.Props
