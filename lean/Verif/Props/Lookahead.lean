import Verif.Props.Segmentation
import Verif.Props.HmmJoins
import Verif.Proofs.Recut
import Mathlib.Analysis.SpecialFunctions.Log.Basic

/-! # C118: no bounded look-ahead -/

namespace Jieba.Props
open Jieba.Spec

/-- A dictionary with 天地, 地天, 地人 (4 each), 中天 (2) and the four characters (1 each). -/
def farFreq : Freq :=
  [([0x4E2D], 1), ([0x5929], 1), ([0x5730], 1), ([0x4EBA], 1),
   ([0x4E2D, 0x5929], 2), ([0x5929, 0x5730], 4), ([0x5730, 0x5929], 4), ([0x5730, 0x4EBA], 4)]

/-- 天地 n times, followed by `e`. -/
def heavenEarth : Nat → Str → Str
  | 0, e => e
  | n + 1, e => 0x5929 :: 0x5730 :: heavenEarth n e

theorem farFreq_words (w : Str) (h : DictWord farFreq w) :
    w ∈ ([[0x4E2D], [0x5929], [0x5730], [0x4EBA], [0x4E2D, 0x5929], [0x5929, 0x5730], [0x5730, 0x5929],
      [0x5730, 0x4EBA]] : List Str) := by
  obtain ⟨v, hv, -⟩ := h
  have : PyDict.has farFreq w = true := by rw [PyDict.has, hv]; rfl
  exact (PyDict.mem_keys_iff _ _).mpr this

theorem far_next (x : Nat) (rest w : Str) (h : NextWord farFreq (x :: rest) w) :
    w = [x] ∨ ∃ y r, rest = y :: r ∧ w = [x, y] ∧
      ((x, y) = (0x4E2D, 0x5929) ∨ (x, y) = (0x5929, 0x5730) ∨ (x, y) = (0x5730, 0x5929) ∨ (x, y) = (0x5730, 0x4EBA)) := by
  obtain ⟨hne, hpre, h⟩ := h
  rcases h with h | ⟨h, -⟩
  · have := farFreq_words w h
    simp only [List.mem_cons, List.not_mem_nil, or_false] at this
    obtain ⟨t, ht⟩ := hpre
    rcases this with rfl | rfl | rfl | rfl | rfl | rfl | rfl | rfl <;> simp at ht <;> obtain ⟨rfl, rfl⟩ := ht <;> simp
  · obtain ⟨y, rfl⟩ := List.length_eq_one_iff.mp h
    left
    obtain ⟨t, ht⟩ := hpre
    simp at ht
    rw [ht.1]

theorem far_nil (ws : List Str) (h : Admissible farFreq [] ws) : ws = [] := by
  cases ws with
  | nil => rfl
  | cons w ws => exact absurd (List.prefix_nil.mp h.1.2.1) h.1.1

/-- Scores in exact arithmetic, total 18. -/
noncomputable abbrev farScore (ws : List Str) : ℝ := segScore realArith farFreq 18 ws

theorem far_cons (w : Str) (ws : List Str) :
    farScore (w :: ws) = (Real.log ((scoreFreq farFreq w).toNat) - Real.log 18) + farScore ws := by
  simp [farScore, segScore, realArith]

theorem far_nil_score : farScore [] = 0 := rfl

theorem far_one (x : Nat) (ws : List Str) (h : scoreFreq farFreq [x] = 1) :
    farScore ([x] :: ws) = - Real.log 18 + farScore ws := by
  rw [far_cons, h]; simp

theorem far_four (x y : Nat) (ws : List Str) (h : scoreFreq farFreq [x, y] = 4) :
    farScore ([x, y] :: ws) = (Real.log 4 - Real.log 18) + farScore ws := by
  rw [far_cons, h]; simp

theorem far_two (ws : List Str) :
    farScore ([0x4E2D, 0x5929] :: ws) = (Real.log 2 - Real.log 18) + farScore ws := by
  rw [far_cons, show scoreFreq farFreq [0x4E2D, 0x5929] = 2 by decide]; simp

theorem far_logs : 0 < Real.log 2 ∧ Real.log 2 < Real.log 4 ∧ 0 < Real.log 18 :=
  ⟨Real.log_pos (by norm_num), Real.log_lt_log (by norm_num) (by norm_num), Real.log_pos (by norm_num)⟩

/-- Upper bounds for what follows 中 or 中天 when nothing comes after the repetitions. -/
theorem far_bound_plain (n : Nat) :
    (∀ ws, Admissible farFreq (heavenEarth n []) ws → farScore ws ≤ n * (Real.log 4 - Real.log 18)) ∧
    (∀ ws, Admissible farFreq (0x5730 :: heavenEarth n []) ws →
      farScore ws ≤ n * (Real.log 4 - Real.log 18) - Real.log 18) := by
  obtain ⟨l1, l2, l3⟩ := far_logs
  induction n with
  | zero =>
    refine ⟨fun ws h => ?_, fun ws h => ?_⟩
    · rw [far_nil ws h, far_nil_score]; simp
    · cases ws with
      | nil => exact absurd h (by simp [Admissible])
      | cons w ws =>
        rcases far_next _ _ _ h.1 with rfl | ⟨y, r, e, -, -⟩
        · have := far_nil ws h.2
          subst this
          rw [far_one _ _ (by decide), far_nil_score]; simp
        · simp [heavenEarth] at e
  | succ n ih =>
    have hP : ∀ ws, Admissible farFreq (heavenEarth (n + 1) []) ws →
        farScore ws ≤ ((n + 1 : Nat) : ℝ) * (Real.log 4 - Real.log 18) := by
      intro ws h
      cases ws with
      | nil => exact absurd h (by simp [Admissible, heavenEarth])
      | cons w ws =>
        rcases far_next _ _ _ h.1 with rfl | ⟨y, r, e, rfl, -⟩
        · have := ih.2 ws h.2
          rw [far_one _ _ (by decide)]
          push_cast
          linarith
        · simp only [List.cons.injEq] at e
          obtain ⟨rfl, rfl⟩ := e
          have := ih.1 ws h.2
          rw [far_four _ _ _ (by decide)]
          push_cast
          linarith
    refine ⟨hP, ?_⟩
    intro ws h
    cases ws with
    | nil => exact absurd h (by simp [Admissible])
    | cons w ws =>
      rcases far_next _ _ _ h.1 with rfl | ⟨y, r, e, rfl, -⟩
      · have := hP ws h.2
        rw [far_one _ _ (by decide)]
        linarith
      · simp only [heavenEarth, List.cons.injEq] at e
        obtain ⟨rfl, rfl⟩ := e
        have := ih.2 ws h.2
        rw [far_four _ _ _ (by decide)]
        push_cast
        linarith

/-- The same when 人 comes after the repetitions. -/
theorem far_bound_man (n : Nat) :
    (∀ ws, Admissible farFreq (heavenEarth n [0x4EBA]) ws →
      farScore ws ≤ n * (Real.log 4 - Real.log 18) - Real.log 18) ∧
    (∀ ws, Admissible farFreq (0x5730 :: heavenEarth n [0x4EBA]) ws →
      farScore ws ≤ (n + 1) * (Real.log 4 - Real.log 18)) := by
  obtain ⟨l1, l2, l3⟩ := far_logs
  have hlast : ∀ ws, Admissible farFreq [0x4EBA] ws → farScore ws = - Real.log 18 := by
    intro ws h
    cases ws with
    | nil => exact absurd h (by simp [Admissible])
    | cons w ws =>
      rcases far_next _ _ _ h.1 with rfl | ⟨y, r, e, -, -⟩
      · have := far_nil ws h.2
        subst this
        rw [far_one _ _ (by decide), far_nil_score]; simp
      · simp at e
  induction n with
  | zero =>
    refine ⟨fun ws h => by rw [hlast ws h]; simp, fun ws h => ?_⟩
    cases ws with
    | nil => exact absurd h (by simp [Admissible])
    | cons w ws =>
      rcases far_next _ _ _ h.1 with rfl | ⟨y, r, e, rfl, -⟩
      · have := hlast ws h.2
        rw [far_one _ _ (by decide), this]; push_cast; linarith
      · simp only [heavenEarth, List.cons.injEq] at e
        obtain ⟨rfl, rfl⟩ := e
        have := far_nil ws h.2
        subst this
        rw [far_four _ _ _ (by decide), far_nil_score]; push_cast; linarith
  | succ n ih =>
    have hP : ∀ ws, Admissible farFreq (heavenEarth (n + 1) [0x4EBA]) ws →
        farScore ws ≤ ((n + 1 : Nat) : ℝ) * (Real.log 4 - Real.log 18) - Real.log 18 := by
      intro ws h
      cases ws with
      | nil => exact absurd h (by simp [Admissible, heavenEarth])
      | cons w ws =>
        rcases far_next _ _ _ h.1 with rfl | ⟨y, r, e, rfl, -⟩
        · have := ih.2 ws h.2
          rw [far_one _ _ (by decide)]
          push_cast
          linarith
        · simp only [List.cons.injEq] at e
          obtain ⟨rfl, rfl⟩ := e
          have := ih.1 ws h.2
          rw [far_four _ _ _ (by decide)]
          push_cast
          linarith
    refine ⟨hP, ?_⟩
    intro ws h
    cases ws with
    | nil => exact absurd h (by simp [Admissible])
    | cons w ws =>
      rcases far_next _ _ _ h.1 with rfl | ⟨y, r, e, rfl, -⟩
      · have := hP ws h.2
        rw [far_one _ _ (by decide)]
        push_cast at *
        linarith
      · simp only [heavenEarth, List.cons.injEq] at e
        obtain ⟨rfl, rfl⟩ := e
        have := ih.2 ws h.2
        rw [far_four _ _ _ (by decide)]
        push_cast
        linarith

/-! The two segmentations that win. -/

/-- 天地/天地/… -/
def farPlain : Nat → List Str
  | 0 => []
  | n + 1 => [0x5929, 0x5730] :: farPlain n

/-- 地天/地天/…/地人 -/
def farMan : Nat → List Str
  | 0 => [[0x5730, 0x4EBA]]
  | n + 1 => [0x5730, 0x5929] :: farMan n

theorem farPlain_adm (n : Nat) : Admissible farFreq (heavenEarth n []) (farPlain n) := by
  induction n with
  | zero => rfl
  | succ n ih => exact ⟨⟨by simp, by simp [heavenEarth], Or.inl ⟨4, by decide, by decide⟩⟩, ih⟩

theorem farMan_adm (n : Nat) : Admissible farFreq (0x5730 :: heavenEarth n [0x4EBA]) (farMan n) := by
  induction n with
  | zero => exact ⟨⟨by simp, by simp [heavenEarth], Or.inl ⟨4, by decide, by decide⟩⟩, rfl⟩
  | succ n ih => exact ⟨⟨by simp, by simp [heavenEarth], Or.inl ⟨4, by decide, by decide⟩⟩, ih⟩

theorem farPlain_score (n : Nat) : farScore (farPlain n) = n * (Real.log 4 - Real.log 18) := by
  induction n with
  | zero => simp [farPlain, far_nil_score]
  | succ n ih => rw [farPlain, far_four _ _ _ (by decide), ih]; push_cast; ring

theorem farMan_score (n : Nat) : farScore (farMan n) = (n + 1) * (Real.log 4 - Real.log 18) := by
  induction n with
  | zero => rw [farMan, far_four _ _ _ (by decide), far_nil_score]; push_cast; ring
  | succ n ih => rw [farMan, far_four _ _ _ (by decide), ih]; push_cast; ring

/-- The tokenizer with this dictionary, exact arithmetic and any HMM tables. -/
noncomputable def farEnv (T : FinalSeg.Tables ℝ) (force : List Str) : Env ℝ := ⟨realArith, farFreq, 18, T, force⟩

theorem farFreq_prefixClosed : PrefixClosed farFreq := by
  have key : ∀ w ∈ farFreq.map Prod.fst, ∀ p ∈ w.inits, p ≠ [] → PyDict.has farFreq p = true := by decide +kernel
  intro w hw p hne hpre
  exact key w ((PyDict.mem_keys_iff _ _).mpr hw) p ((List.mem_inits _ _).mpr hpre) hne

theorem farFreq_nonNeg : NonNeg farFreq := nonNeg_of_all _ (by decide)

theorem heavenEarth_chars (n : Nat) (e : Str) (P : Nat → Prop) (h1 : P 0x5929) (h2 : P 0x5730) (h3 : ∀ c ∈ e, P c) :
    ∀ c ∈ heavenEarth n e, P c := by
  induction n with
  | zero => exact h3
  | succ n ih =>
    intro c hc
    simp only [heavenEarth, List.mem_cons] at hc
    rcases hc with rfl | rfl | hc
    · exact h1
    · exact h2
    · exact ih c hc

theorem heavenEarth_append (n : Nat) (e : Str) : heavenEarth n e = heavenEarth n [] ++ e := by
  induction n with
  | zero => rfl
  | succ n ih => simp only [heavenEarth]; rw [ih]; rfl

theorem heavenEarth_length (n : Nat) : (heavenEarth n []).length = 2 * n := by
  induction n with
  | zero => rfl
  | succ n ih => simp only [heavenEarth, List.length_cons, ih]; omega

theorem far_first_plain (path : List Str) (n : Nat)
    (h : IsBest realArith farFreq 18 (0x4E2D :: heavenEarth (n + 1) []) path) : path.take 2 = [[0x4E2D], [0x5929, 0x5730]] := by
  obtain ⟨l1, l2, l3⟩ := far_logs
  have hadm := isBest_admissible _ _ _ _ _ h
  have hmax := isBest_max _ _ _ _ _ ([0x4E2D] :: farPlain (n + 1)) h
    ⟨⟨by simp, by simp, Or.inl ⟨1, by decide, by decide⟩⟩, farPlain_adm (n + 1)⟩
  change farScore _ ≤ farScore _ at hmax
  cases path with
  | nil => exact absurd hadm (by simp [Admissible])
  | cons w ws =>
    rcases far_next _ _ _ hadm.1 with rfl | ⟨y, r, e, rfl, -⟩
    · have h2 : Admissible farFreq (heavenEarth (n + 1) []) ws := hadm.2
      cases ws with
      | nil => exact absurd h2 (by simp [Admissible, heavenEarth])
      | cons v vs =>
        rcases far_next _ _ _ h2.1 with rfl | ⟨y, r, e, rfl, -⟩
        · exfalso
          have := (far_bound_plain n).2 vs h2.2
          rw [far_one _ _ (by decide), farPlain_score, far_one _ _ (by decide), far_one _ _ (by decide)] at hmax
          push_cast at hmax
          linarith
        · simp only [List.cons.injEq] at e
          obtain ⟨rfl, rfl⟩ := e
          rfl
    · exfalso
      simp only [heavenEarth, List.cons.injEq] at e
      obtain ⟨rfl, rfl⟩ := e
      have := (far_bound_plain n).2 ws hadm.2
      rw [far_one _ _ (by decide), farPlain_score, far_two] at hmax
      push_cast at hmax
      linarith

theorem far_first_man (path : List Str) (n : Nat)
    (h : IsBest realArith farFreq 18 (0x4E2D :: heavenEarth (n + 1) [0x4EBA]) path) :
    path.head? = some [0x4E2D, 0x5929] := by
  obtain ⟨l1, l2, l3⟩ := far_logs
  have hadm := isBest_admissible _ _ _ _ _ h
  have hmax := isBest_max _ _ _ _ _ ([0x4E2D, 0x5929] :: farMan n) h
    ⟨⟨by simp, by simp [heavenEarth], Or.inl ⟨2, by decide, by decide⟩⟩, farMan_adm n⟩
  change farScore _ ≤ farScore _ at hmax
  cases path with
  | nil => exact absurd hadm (by simp [Admissible])
  | cons w ws =>
    rcases far_next _ _ _ hadm.1 with rfl | ⟨y, r, e, rfl, -⟩
    · exfalso
      have := (far_bound_man (n + 1)).1 ws hadm.2
      rw [far_two, farMan_score, far_one _ _ (by decide)] at hmax
      push_cast at *
      linarith
    · simp only [heavenEarth, List.cons.injEq] at e
      obtain ⟨rfl, rfl⟩ := e
      rfl

/-- The first tokens, without HMM, are the first words of the best path. -/
theorem far_cut_take (T : FinalSeg.Tables ℝ) (force : List Str) (s : Str) (k : Nat) (l : List Str) (hne : s ≠ [])
    (hs : ∀ c ∈ s, isWordCh c = true ∧ isAlnum c = false)
    (h : ∀ path, IsBest realArith farFreq 18 s path → path.take k = l) :
    (cut (farEnv T force) false false s).out.take k = l := by
  obtain ⟨path, ts, h1, h2, h3⟩ := C05_cut_follows_best_path (farEnv T force) realArith_mono farFreq_prefixClosed
    farFreq_nonNeg (by simp [farEnv]) s hne (fun c hc => (hs c hc).1)
  have e := regrouped_no_single h3 (by
    rintro w hw ⟨c, rfl, hc⟩
    have : c ∈ s := by
      rw [← admissible_flatten _ _ _ (isBest_admissible _ _ _ _ _ h1)]
      exact List.mem_flatten.mpr ⟨_, hw, by simp⟩
    rw [(hs c this).2] at hc; exact Bool.noConfusion hc)
  rw [h2, e]
  exact h path h1

/-- Joining leaves a first token alone that is long or is followed by a long one. -/
theorem joinsSingles_first {x y : List Str} (h : JoinsSingles x y) (w : Str)
    (hx : (x.take 1 = [w] ∧ 2 ≤ w.length) ∨ ∃ v, x.take 2 = [w, v] ∧ 2 ≤ v.length) : y.take 1 = [w] := by
  obtain ⟨gs, rfl, rfl, h⟩ := h
  cases gs with
  | nil => simp at hx
  | cons g gs =>
    have hg := h g (by simp)
    rcases g with _ | ⟨a, _ | ⟨b, g⟩⟩
    · simp at hg
    · simp only [List.map_cons, List.take_succ_cons, List.take_zero, List.flatten_cons, List.flatten_nil, List.append_nil]
      rcases hx with ⟨hx, -⟩ | ⟨v, hx, -⟩
      · simpa using hx
      · simp at hx; simp [hx.1]
    · exfalso
      rcases hg with hg | ⟨-, hg⟩
      · simp at hg
      · rcases hx with ⟨hx, hl⟩ | ⟨v, hx, hl⟩
        · simp at hx; subst hx
          have := hg a (by simp); omega
        · simp at hx; obtain ⟨rfl, rfl⟩ := hx
          have := hg b (by simp); omega

/-- C118: one dictionary of eight words, and for every n two texts that agree in their first n characters - the second is
the first and one more character - whose first tokens differ, with and without HMM. -/
theorem C118_no_bounded_lookahead (T : FinalSeg.Tables ℝ) (force : List Str) (hmm : Bool) (n : Nat) :
    ∃ s : Str, n ≤ s.length ∧
      (cut (farEnv T force) false hmm s).out.take 1 = [lit ['中']] ∧
      (cut (farEnv T force) false hmm (s ++ lit ['人'])).out.take 1 = [lit ['中', '天']] := by
  have hc : ∀ c ∈ (0x4E2D :: heavenEarth (n + 1) []) ++ [0x4EBA], isWordCh c = true ∧ isAlnum c = false := by
    intro c hc
    simp only [List.cons_append, List.mem_cons, List.mem_append, List.not_mem_nil, or_false] at hc
    rcases hc with rfl | hc | rfl
    · decide
    · exact heavenEarth_chars (n + 1) [] (fun c => isWordCh c = true ∧ isAlnum c = false) (by decide) (by decide)
        (by simp) c hc
    · decide
  have h1 := far_cut_take T force _ 2 _ (by simp) (fun c h => hc c (List.mem_append_left _ h))
    (fun path h => far_first_plain path n h)
  have h2 := far_cut_take T force ((0x4E2D :: heavenEarth (n + 1) []) ++ [0x4EBA]) 1 [[0x4E2D, 0x5929]] (by simp) hc
    (fun path h => by
      have := far_first_man path n (by rw [heavenEarth_append]; exact h)
      cases path with
      | nil => simp at this
      | cons w ws => simp at this; simp [this])
  have j1 := C117_hmm_only_joins (farEnv T force) farFreq_nonNeg (by simp [farEnv]) (0x4E2D :: heavenEarth (n + 1) [])
    (fun c h => (hc c (List.mem_append_left _ h)).2)
  have j2 := C117_hmm_only_joins (farEnv T force) farFreq_nonNeg (by simp [farEnv])
    ((0x4E2D :: heavenEarth (n + 1) []) ++ [0x4EBA]) (fun c h => (hc c h).2)
  obtain ⟨x1, y1, a1, b1, c1⟩ := j1
  obtain ⟨x2, y2, a2, b2, c2⟩ := j2
  refine ⟨0x4E2D :: heavenEarth (n + 1) [], ?_, ?_, ?_⟩
  · simp only [List.length_cons, heavenEarth_length]; omega
  · rw [a1] at h1
    cases hmm
    · rw [a1]
      have := congrArg (List.take 1) h1
      rw [List.take_take] at this
      exact this
    · rw [b1]
      exact joinsSingles_first c1 _ (Or.inr ⟨_, h1, by decide⟩)
  · rw [a2] at h2
    cases hmm
    · rw [show lit ['人'] = [0x4EBA] from rfl, a2]; exact h2
    · rw [show lit ['人'] = [0x4EBA] from rfl, b2]
      exact joinsSingles_first c2 _ (Or.inl ⟨h2, by decide⟩)

end Jieba.Props
