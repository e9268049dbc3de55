import Verif.Props.Segmentation
import Verif.Props.PosWorld
import Verif.Props.Sample
import Verif.Proofs.HmmWords
import Mathlib.Tactic.IntervalCases

/-! # C120: numbers and foreign words -/

namespace Jieba.Spec

/-- No dictionary word of two or more characters occurs in `s`. -/
def NoLongWord (freq : Freq) (s : Str) : Prop := ∀ w, 2 ≤ w.length → w <:+: s → ¬ DictWord freq w

/-- How text is cut where there are no words: maximal runs of ASCII letters and digits, and the other characters one by one. -/
inductive LetterRuns : Str → List Str → Prop
  | nil : LetterRuns [] []
  | other (c : Nat) (rest ts) : isAlnum c = false → LetterRuns rest ts → LetterRuns (c :: rest) ([c] :: ts)
  | run (u rest ts) : u ≠ [] → (∀ c ∈ u, isAlnum c = true) → (∀ c, rest.head? = some c → isAlnum c = false) →
      LetterRuns rest ts → LetterRuns (u ++ rest) (u :: ts)

end Jieba.Spec

namespace Jieba.Props
open Jieba.Spec
variable {F : Type _} [LinearOrder F]

theorem regrouped_one_run {single : Str → Prop} {f : List Str → List Str} {path ts : List Str}
    (h : Regrouped single f path ts) (hs : ∀ w ∈ path, single w) (hne : path ≠ []) : ts = f path := by
  have key : ∀ path ts, Regrouped single f path ts → path = [] → ts = [] := by
    intro path ts h
    cases h with
    | nil => intro _; rfl
    | word w ps ts _ _ => intro h; simp at h
    | run r ps ts h1 _ _ _ => intro h; exact absurd (List.append_eq_nil_iff.mp h).1 h1
  cases h with
  | nil => exact absurd rfl hne
  | word w ps ts h1 _ => exact absurd (hs w (by simp)) h1
  | run r ps ts h1 h2 h3 h4 =>
    cases ps with
    | nil => rw [key _ _ h4 rfl]; simp
    | cons w ps => exact absurd (hs w (by simp)) (h3 w rfl)

theorem tagged_one_run {single : Str → Prop} {tag : Str → Str} {R : List Str → List (Str × Str) → Prop} {path : List Str}
    {ts : List (Str × Str)} (h : Tagged single tag R path ts) (hs : ∀ w ∈ path, single w) (hne : path ≠ []) : R path ts := by
  have key : ∀ path ts, Tagged single tag R path ts → path = [] → ts = [] := by
    intro path ts h
    cases h with
    | nil => intro _; rfl
    | word w ps ts _ _ => intro h; simp at h
    | run r ps qs ts h1 _ _ _ _ => intro h; exact absurd (List.append_eq_nil_iff.mp h).1 h1
  cases h with
  | nil => exact absurd rfl hne
  | word w ps ts h1 _ => exact absurd (hs w (by simp)) h1
  | run r ps qs ts h1 h2 h3 h4 h5 =>
    cases ps with
    | nil => rw [key _ _ h5 rfl]; simpa using h4
    | cons w ps => exact absurd (hs w (by simp)) (h3 w rfl)

theorem singles_of_noLongWord (freq : Freq) (s : Str) (hno : NoLongWord freq s) (path : List Str)
    (hm : ∀ w ∈ path, DictWord freq w ∨ w.length = 1) (hfl : path.flatten = s) (hne : ∀ w ∈ path, w ≠ []) :
    path = s.map (fun c => [c]) := by
  have h1 : ∀ w ∈ path, w.length = 1 := by
    intro w hw
    rcases hm w hw with h | h
    · by_contra hl
      have h0 : w.length ≠ 0 := fun h => hne w hw (List.length_eq_zero_iff.mp h)
      refine hno w (by omega) ?_ h
      obtain ⟨a, b, e⟩ := List.append_of_mem hw
      rw [e] at hfl
      exact ⟨a.flatten, b.flatten, by rw [← hfl]; simp⟩
    · exact h
  have := (flatten_singles _ h1).2
  rw [hfl] at this
  exact this.symm

theorem flatten_map_single (s : Str) : (s.map (fun c => [c])).flatten = s := by
  induction s with
  | nil => rfl
  | cons c s ih => simpa using ih

theorem letterRuns_of_regrouped {path ts : List Str} (h : Regrouped IsLetter (fun r => [r.flatten]) path ts) :
    ∀ s : Str, path = s.map (fun c => [c]) → LetterRuns s ts := by
  induction h with
  | nil => intro s e; cases s with
    | nil => exact .nil
    | cons c s => simp at e
  | word w ps ts h1 _ ih =>
    intro s e
    cases s with
    | nil => simp at e
    | cons c s =>
      simp at e
      obtain ⟨rfl, e⟩ := e
      refine .other c s ts ?_ (ih s e)
      cases hc : isAlnum c
      · rfl
      · exact absurd ⟨c, rfl, hc⟩ h1
  | run r ps ts h1 h2 h3 _ ih =>
    intro s e
    obtain ⟨a, b, rfl, rfl, rfl⟩ := List.map_eq_append_iff.mp e.symm
    rw [flatten_map_single]
    refine .run a b ts (by simpa using h1) ?_ ?_ (ih b rfl)
    · intro c hc
      obtain ⟨d, e1, e2⟩ := h2 [c] (List.mem_map.mpr ⟨c, hc, rfl⟩)
      simp at e1; subst e1; exact e2
    · intro c hc
      cases hcc : isAlnum c
      · rfl
      · exact absurd ⟨c, rfl, hcc⟩ (h3 [c] (by rw [List.head?_map, hc]; rfl))

theorem span_unique (p : Nat → Bool) {u u' r r' : Str} (e : u ++ r = u' ++ r') (hu : ∀ c ∈ u, p c = true) (hu' : ∀ c ∈ u', p c = true)
    (hr : ∀ c, r.head? = some c → p c = false) (hr' : ∀ c, r'.head? = some c → p c = false) : u = u' ∧ r = r' := by
  induction u generalizing u' with
  | nil =>
    cases u' with
    | nil => exact ⟨rfl, e⟩
    | cons c u' => simp at e; subst e; have := hr c rfl; rw [hu' c (by simp)] at this; cases this
  | cons c u ih =>
    cases u' with
    | nil => simp at e; subst e; have := hr' c rfl; rw [hu c (by simp)] at this; cases this
    | cons d u' =>
      simp at e
      obtain ⟨rfl, e⟩ := e
      obtain ⟨rfl, rfl⟩ := ih e (fun x hx => hu x (by simp [hx])) (fun x hx => hu' x (by simp [hx]))
      exact ⟨rfl, rfl⟩

theorem letterRuns_head {s : Str} {ts : List Str} (h : LetterRuns s ts) :
    (s = [] ∧ ts = []) ∨ (∃ c rest ts', s = c :: rest ∧ ts = [c] :: ts' ∧ isAlnum c = false ∧ LetterRuns rest ts') ∨
    (∃ u rest ts', s = u ++ rest ∧ ts = u :: ts' ∧ u ≠ [] ∧ (∀ c ∈ u, isAlnum c = true) ∧
      (∀ c, rest.head? = some c → isAlnum c = false) ∧ LetterRuns rest ts') := by
  cases h with
  | nil => exact Or.inl ⟨rfl, rfl⟩
  | other c rest ts h1 h2 => exact Or.inr (Or.inl ⟨c, rest, ts, rfl, rfl, h1, h2⟩)
  | run u rest ts h1 h2 h3 h4 => exact Or.inr (Or.inr ⟨u, rest, ts, rfl, rfl, h1, h2, h3, h4⟩)

/-- `LetterRuns` determines the tokens. -/
theorem C120_letterRuns_unique {s : Str} {ts ts' : List Str} (h : LetterRuns s ts) (h' : LetterRuns s ts') : ts = ts' := by
  induction h generalizing ts' with
  | nil =>
    rcases letterRuns_head h' with ⟨-, e⟩ | ⟨c, r, t, e, -⟩ | ⟨u, r, t, e, -, hu, -⟩
    · exact e.symm
    · cases e
    · exact absurd (List.append_eq_nil_iff.mp e.symm).1 hu
  | other c rest ts h1 _ ih =>
    rcases letterRuns_head h' with ⟨e, -⟩ | ⟨d, r, t, e, rfl, -, h2⟩ | ⟨u, r, t, e, -, hu, hal, -⟩
    · cases e
    · cases e; rw [ih h2]
    · cases u with
      | nil => exact absurd rfl hu
      | cons x u => simp at e; rw [e.1, hal x (by simp)] at h1; cases h1
  | run u rest ts h1 h2 h3 _ ih =>
    rcases letterRuns_head h' with ⟨e, -⟩ | ⟨d, r, t, e, -, hd, -⟩ | ⟨u', r, t, e, rfl, hu, hal, hr, h4⟩
    · exact absurd (List.append_eq_nil_iff.mp e).1 h1
    · cases u with
      | nil => exact absurd rfl h1
      | cons x u => simp at e; rw [← e.1, h2 x (by simp)] at hd; cases hd
    · obtain ⟨rfl, rfl⟩ := span_unique isAlnum e h2 hal h3 hr
      rw [ih h4]

theorem fraction_unique {f f' a a' : Str} (e : f ++ a = f' ++ a') (h : Fraction f a) (h' : Fraction f' a') : f = f' ∧ a = a' := by
  have key : ∀ {f f' a a' : Str}, f ++ a = f' ++ a' → (∃ ds, ds ≠ [] ∧ f = 0x2E :: ds ∧ (∀ c ∈ ds, isDecimal c = true) ∧
      ∀ c, a.head? = some c → isDecimal c = false) → (f' = [] ∧ ∀ d r, a' = 0x2E :: d :: r → isDecimal d = false) → False := by
    rintro f f' a a' e ⟨ds, hd, rfl, h1, -⟩ ⟨rfl, h2⟩
    cases ds with
    | nil => exact hd rfl
    | cons d ds =>
      have := h2 d (ds ++ a) (by simpa using e.symm)
      rw [h1 d (by simp)] at this; cases this
  rcases h with h | h <;> rcases h' with h' | h'
  · obtain ⟨ds, -, rfl, h1, h2⟩ := h
    obtain ⟨ds', -, rfl, h1', h2'⟩ := h'
    simp only [List.cons_append, List.cons.injEq, true_and] at e
    obtain ⟨rfl, rfl⟩ := span_unique isDecimal e h1 h1' h2 h2'
    exact ⟨rfl, rfl⟩
  · exact (key e h h').elim
  · exact (key e.symm h' h).elim
  · obtain ⟨rfl, -⟩ := h
    obtain ⟨rfl, -⟩ := h'
    exact ⟨rfl, e⟩

theorem percent_unique {p p' r r' : Str} (e : p ++ r = p' ++ r') (h : Percent p r) (h' : Percent p' r') : p = p' ∧ r = r' := by
  rcases h with rfl | ⟨rfl, h⟩ <;> rcases h' with rfl | ⟨rfl, h'⟩
  · exact ⟨rfl, by simpa using e⟩
  · exact absurd (by rw [show r' = 0x25 :: r by simpa using e.symm]; rfl) h'
  · exact absurd (by rw [show r = 0x25 :: r' by simpa using e]; rfl) h
  · exact ⟨rfl, by simpa using e⟩

theorem numberTokens_head {s : Str} {ts : List Str} (h : NumberTokens s ts) :
    (s = [] ∧ ts = []) ∨
    (∃ u rest ts', s = u ++ rest ∧ ts = u :: ts' ∧ u ≠ [] ∧ (∀ c ∈ u, isAlnum c = false) ∧
      (∀ c, rest.head? = some c → isAlnum c = true) ∧ NumberTokens rest ts') ∨
    (∃ w f p rest ts', s = w ++ (f ++ (p ++ rest)) ∧ ts = (w ++ f ++ p) :: ts' ∧ w ≠ [] ∧ (∀ c ∈ w, isAlnum c = true) ∧
      (∀ c, (f ++ (p ++ rest)).head? = some c → isAlnum c = false) ∧ Fraction f (p ++ rest) ∧ Percent p rest ∧
      NumberTokens rest ts') := by
  cases h with
  | nil => exact Or.inl ⟨rfl, rfl⟩
  | other u rest ts h1 h2 h3 h4 => exact Or.inr (Or.inl ⟨u, rest, ts, rfl, rfl, h1, h2, h3, h4⟩)
  | number w f p rest ts h1 h2 h3 h4 h5 h6 =>
    exact Or.inr (Or.inr ⟨w, f, p, rest, ts, by simp, rfl, h1, h2, by simpa using h3, h4, h5, h6⟩)

/-- `NumberTokens` determines the tokens. -/
theorem C120_numberTokens_unique {s : Str} {ts ts' : List Str} (h : NumberTokens s ts) (h' : NumberTokens s ts') : ts = ts' := by
  have clash : ∀ {u r w x : Str}, u ++ r = w ++ x → u ≠ [] → w ≠ [] → (∀ c ∈ u, isAlnum c = false) → (∀ c ∈ w, isAlnum c = true) →
      False := by
    intro u r w x e hu hw h1 h2
    cases u with
    | nil => exact hu rfl
    | cons a u => cases w with
      | nil => exact hw rfl
      | cons b w => simp at e; have := h1 a (by simp); rw [e.1, h2 b (by simp)] at this; cases this
  induction h generalizing ts' with
  | nil =>
    rcases numberTokens_head h' with ⟨-, e⟩ | ⟨u, r, t, e, -, hu, -⟩ | ⟨w, f, p, r, t, e, -, hw, -⟩
    · exact e.symm
    · exact absurd (List.append_eq_nil_iff.mp e.symm).1 hu
    · exact absurd (List.append_eq_nil_iff.mp e.symm).1 hw
  | other u rest ts h1 h2 h3 _ ih =>
    rcases numberTokens_head h' with ⟨e, -⟩ | ⟨u', r, t, e, rfl, hu, hal, hr, h4⟩ | ⟨w, f, p, r, t, e, -, hw, hal, -⟩
    · exact absurd (List.append_eq_nil_iff.mp e).1 h1
    · obtain ⟨rfl, rfl⟩ := span_unique (fun c => !isAlnum c) e (fun c hc => by simp [h2 c hc]) (fun c hc => by simp [hal c hc])
        (fun c hc => by simp [h3 c hc]) (fun c hc => by simp [hr c hc])
      rw [ih h4]
    · exact (clash e h1 hw h2 hal).elim
  | number w f p rest ts h1 h2 h3 h4 h5 _ ih =>
    rcases numberTokens_head h' with ⟨e, -⟩ | ⟨u, r, t, e, -, hu, hal, -⟩ | ⟨w', f', p', r, t, e, rfl, hw, hal, hr, hf, hpc, h6⟩
    · exact absurd (by simpa using e) (fun e : w = [] ∧ f = [] ∧ p = [] ∧ rest = [] => h1 e.1)
    · exact (clash (by simpa using e.symm) hu h1 hal h2).elim
    · obtain ⟨e1, e2⟩ := span_unique isAlnum (r := f ++ (p ++ rest)) (by simpa using e) h2 hal (by simpa using h3) hr
      obtain ⟨e3, e4⟩ := fraction_unique e2 h4 hf
      obtain ⟨e5, e6⟩ := percent_unique e4 h5 hpc
      subst e1 e3 e5 e6
      rw [ih h6]

/-- Where no dictionary word of two or more characters occurs, everything is left to the HMM. -/
theorem cut_by_hmm (E : Env F) (hn : NonNeg E.freq) (ht : 0 < E.total) (s : Str) (hlen : 2 ≤ s.length)
    (hs : ∀ c ∈ s, isWordCh c = true) (hno : NoLongWord E.freq s) : cut E false true s = E.hmm s := by
  have hne : s ≠ [] := by rintro rfl; simp at hlen
  obtain ⟨route, hr, -, path, hpath, hfl, hnil, -, ts, h1, h2⟩ := blocks_from_path E hn ht s
  have hp := singles_of_noLongWord E.freq s hno path (hpath ▸ pathFrom_mem _ _ _ _ _ hr _ _) hfl hnil
  rw [hp] at h2
  have e := regrouped_one_run h2 (by intro w hw; obtain ⟨c, _, rfl⟩ := List.mem_map.mp hw; rfl) (by simpa using hne)
  unfold runTokens at e
  rw [flatten_map_single, if_neg (by
    rintro (h | h)
    · simp at h; omega
    · exact hno s hlen List.infix_rfl ((truthy_iff _ _).mp h))] at e
  rw [cut_of_word_block E true s hne hs, h1, e, hmm_eq E]

/-- C120 with HMM: where no dictionary word of two or more characters occurs, a text of word characters other than Han characters is
cut into words of letters and digits, each with the decimals and the percent sign that follow, and the text between them. -/
theorem C120_hmm (E : Env F) (hn : NonNeg E.freq) (ht : 0 < E.total) (s : Str) (hne : s ≠ [])
    (hs : ∀ c ∈ s, isWordCh c = true ∧ isHan c = false) (hno : NoLongWord E.freq s) :
    ∃ ts, cut E false true s = Gen.ok ts ∧ NumberTokens s ts := by
  match s, hne with
  | [c], _ =>
    obtain ⟨route, hr, -, path, hpath, hfl, hnil, -, ts, h1, h2⟩ := blocks_from_path E hn ht [c]
    have hp := singles_of_noLongWord E.freq [c] hno path (hpath ▸ pathFrom_mem _ _ _ _ _ hr _ _) hfl hnil
    rw [hp] at h2
    have e := regrouped_one_run h2 (by intro w hw; obtain ⟨c, _, rfl⟩ := List.mem_map.mp hw; rfl) (by simp)
    refine ⟨ts, by rw [cut_of_word_block E true [c] (by simp) (fun c hc => (hs c hc).1), h1], ?_⟩
    simp [runTokens] at e
    subst e
    cases hc : isAlnum c
    · simpa using NumberTokens.other [c] [] [] (by simp) (by simpa using hc) (by simp) .nil
    · simpa using NumberTokens.number [c] [] [] [] [] (by simp) (by simpa using hc) (by simp) (Or.inr ⟨rfl, by simp⟩)
        (Or.inr ⟨rfl, by simp⟩) .nil
  | c :: d :: s, _ =>
    refine ⟨(reSkipFinal.split (c :: d :: s)).filter (fun x => x ≠ []), ?_, FinalSeg.skip_tokens _⟩
    rw [cut_by_hmm E hn ht _ (by simp) (fun c hc => (hs c hc).1) hno]
    show FinalSeg.cut E.A E.tables E.force _ = _
    rw [FinalSeg.cut_eq_scan]
    have := scan_nonword isHan
      (fun blk => (FinalSeg.hmmCut E.A E.tables blk).mapOut (fun word => if word ∉ E.force then [word] else word.map (fun c => [c])))
      (fun blk => Gen.ok ((reSkipFinal.split blk).filter (fun x => x ≠ []))) (c :: d :: s) [] (by simp) (fun x hx => (hs x hx).2) (by simp)
    rw [List.append_nil] at this
    rw [this, scan_nil]
    simp

/-- C120 without HMM: the text is cut into maximal runs of letters and digits, and the other characters one by one. -/
theorem C120_no_hmm (E : Env F) (hn : NonNeg E.freq) (ht : 0 < E.total) (s : Str) (hne : s ≠ [])
    (hs : ∀ c ∈ s, isWordCh c = true) (hno : NoLongWord E.freq s) :
    ∃ ts, cut E false false s = Gen.ok ts ∧ LetterRuns s ts := by
  obtain ⟨route, hr, -, path, hpath, hfl, hnil, ⟨ts, h1, h2⟩, -⟩ := blocks_from_path E hn ht s
  have hp := singles_of_noLongWord E.freq s hno path (hpath ▸ pathFrom_mem _ _ _ _ _ hr _ _) hfl hnil
  exact ⟨ts, by rw [cut_of_word_block E false s hne hs, h1], letterRuns_of_regrouped h2 s hp⟩

theorem isBest_words (A : Arith F) (freq : Freq) (total : Int) (ws : List Str) (s : Str) (h : IsBest A freq total s ws) :
    ws.flatten = s ∧ ∀ w ∈ ws, w ≠ [] ∧ (DictWord freq w ∨ w.length = 1) := by
  induction ws generalizing s with
  | nil => exact ⟨h.symm, by simp⟩
  | cons w ws ih =>
    obtain ⟨⟨h1, h2, h3⟩, h4, -⟩ := h
    obtain ⟨h5, h6⟩ := ih _ h4
    refine ⟨?_, ?_⟩
    · obtain ⟨t, rfl⟩ := h2
      rw [List.drop_left] at h5
      simp [h5]
    · intro x hx
      rcases List.mem_cons.mp hx with rfl | hx
      · exact ⟨h1, h3.imp id And.left⟩
      · exact h6 x hx

theorem latin_of_detail (A : Arith F) (T : Pos.Tables F) (s : Str) (qs : List Pos.Pair) (h : DetailPairs A T s qs)
    (hs : ∀ c ∈ s, isHan c = false) : LatinPairs s qs := by
  have key : ∀ s qs, DetailPairs A T s qs → s = [] → qs = [] := by
    intro s qs h e
    cases h with
    | nil => rfl
    | han u rest ys qs h1 _ _ _ _ => exact absurd (List.append_eq_nil_iff.mp e).1 h1
    | other u rest ws qs h1 _ _ _ _ => exact absurd (List.append_eq_nil_iff.mp e).1 h1
  cases h with
  | nil => exact .nil
  | han u rest ys qs h1 h2 _ _ _ =>
    cases u with
    | nil => exact absurd rfl h1
    | cons c u => have := h2 c (by simp); rw [hs c (by simp)] at this; cases this
  | other u rest ws qs h1 h2 h3 h4 h5 =>
    cases rest with
    | nil => rw [key _ _ h5 rfl]; simpa using h4
    | cons c rest => have := h3 c rfl; rw [hs c (by simp)] at this; cases this

/-- C120 for POS tagging with HMM: maximal runs of dots and digits are 'm', maximal runs of letters and digits that begin with a
letter 'eng', the rest 'x'. -/
theorem C120_posseg (E : Pos.PEnv F) (hT : PosData.Shipped E.tables) (hσ : ∀ s t l, (E.σ s t l).Perm l) (hA : MonoAdd E.A)
    (hp : PrefixClosed E.freq) (hn : NonNeg E.freq) (ht : 0 < E.total) (s : Str) (hlen : 2 ≤ s.length)
    (hs : ∀ c ∈ s, isWordChPos c = true ∧ isHan c = false) (hno : NoLongWord E.freq s) :
    ∃ ts, Pos.cut E true s = Gen.ok ts ∧ LatinPairs s ts := by
  have hne : s ≠ [] := by rintro rfl; simp at hlen
  obtain ⟨path, ts, detail, hb, hc, -, hd, htg⟩ := C43_tags_hmm E hT hσ hA hp hn ht s hne (fun c hc => (hs c hc).1)
  refine ⟨ts, hc, ?_⟩
  obtain ⟨h1, h2⟩ := isBest_words _ _ _ _ _ hb
  have e := singles_of_noLongWord E.freq s hno path (fun w hw => (h2 w hw).2) h1 (fun w hw => (h2 w hw).1)
  rw [e] at htg
  have := tagged_one_run htg (by intro w hw; obtain ⟨c, _, rfl⟩ := List.mem_map.mp hw; rfl) (by simpa using hne)
  rw [flatten_map_single, if_neg (by
    rintro (h | h)
    · simp at h; omega
    · exact hno s hlen List.infix_rfl h)] at this
  rw [this]
  exact latin_of_detail _ _ _ _ (hd s) (fun c hc => (hs c hc).2)

theorem isAlnum_of_digit {c : Nat} (h : isDigit c = true) : isAlnum c = true := by
  unfold isAlnum; simp [h]

theorem isDecimal_of_digit {c : Nat} (h : isDigit c = true) : isDecimal c = true := by
  have hb : 48 ≤ c ∧ c ≤ 57 := by
    unfold isDigit at h; simp at h; exact h
  obtain ⟨h1, h2⟩ := hb
  interval_cases c <;> decide +kernel

theorem isWordCh_of_digit {c : Nat} (h : isDigit c = true) : isWordCh c = true ∧ isHan c = false := by
  have hb : 48 ≤ c ∧ c ≤ 57 := by
    unfold isDigit at h; simp at h; exact h
  obtain ⟨h1, h2⟩ := hb
  interval_cases c <;> decide +kernel

/-- C120: a decimal number with a percent sign, such as `3.14%`, is one token with HMM, and four tokens without. -/
theorem C120_percentage (E : Env F) (hn : NonNeg E.freq) (ht : 0 < E.total) (a b : Str) (ha : a ≠ []) (hb : b ≠ [])
    (hda : ∀ c ∈ a, isDigit c = true) (hdb : ∀ c ∈ b, isDigit c = true)
    (hno : NoLongWord E.freq (a ++ lit ['.'] ++ b ++ lit ['%'])) :
    cut E false true (a ++ lit ['.'] ++ b ++ lit ['%']) = Gen.ok [a ++ lit ['.'] ++ b ++ lit ['%']] ∧
    cut E false false (a ++ lit ['.'] ++ b ++ lit ['%']) = Gen.ok [a, lit ['.'], b, lit ['%']] := by
  have hdot : isWordCh 0x2E = true ∧ isHan 0x2E = false := by decide +kernel
  have hpct : isWordCh 0x25 = true ∧ isHan 0x25 = false := by decide +kernel
  have hs : ∀ c ∈ a ++ lit ['.'] ++ b ++ lit ['%'], isWordCh c = true ∧ isHan c = false := by
    intro c hc
    simp only [List.mem_append] at hc
    rcases hc with ((hc | hc) | hc) | hc
    · exact isWordCh_of_digit (hda c hc)
    · have : c = 0x2E := by simpa [lit] using hc
      rw [this]; exact hdot
    · exact isWordCh_of_digit (hdb c hc)
    · have : c = 0x25 := by simpa [lit] using hc
      rw [this]; exact hpct
  have hne : a ++ lit ['.'] ++ b ++ lit ['%'] ≠ [] := by simp [ha]
  constructor
  · obtain ⟨ts, h1, h2⟩ := C120_hmm E hn ht _ hne hs hno
    have h3 : NumberTokens (a ++ lit ['.'] ++ b ++ lit ['%']) [a ++ lit ['.'] ++ b ++ lit ['%']] := by
      have := NumberTokens.number a (lit ['.'] ++ b) (lit ['%']) [] [] ha (fun c hc => isAlnum_of_digit (hda c hc))
        (by intro c hc; simp [lit] at hc; subst hc; decide)
        (Or.inl ⟨b, hb, rfl, fun c hc => isDecimal_of_digit (hdb c hc), by intro c hc; simp [lit] at hc; subst hc; decide +kernel⟩)
        (Or.inl rfl) .nil
      simpa using this
    rw [h1, C120_numberTokens_unique h2 h3]
  · obtain ⟨ts, h1, h2⟩ := C120_no_hmm E hn ht _ hne (fun c hc => (hs c hc).1) hno
    have h3 : LetterRuns (a ++ lit ['.'] ++ b ++ lit ['%']) [a, lit ['.'], b, lit ['%']] := by
      have h4 : LetterRuns (lit ['%']) [lit ['%']] := .other 0x25 [] [] (by decide) .nil
      have h5 := LetterRuns.run b (lit ['%']) _ hb (fun c hc => isAlnum_of_digit (hdb c hc))
        (by intro c hc; simp [lit] at hc; subst hc; decide) h4
      have h6 := LetterRuns.other 0x2E _ _ (by decide) h5
      have h7 := LetterRuns.run a _ _ ha (fun c hc => isAlnum_of_digit (hda c hc)) (by intro c hc; simp at hc; subst hc; decide) h6
      simpa [lit] using h7
    rw [h1, C120_letterRuns_unique h2 h3]

theorem noLongWord_of_keys (freq : Freq) (s : Str) (h : ∀ w ∈ freq.keys, 2 ≤ w.length → ¬ w <:+: s) : NoLongWord freq s := by
  rintro w hl hi ⟨v, hv, -⟩
  exact h w ((PyDict.mem_keys_iff _ _).mpr ((PyDict.has_iff _ _).mpr ⟨v, hv⟩)) hl hi

/-- The hypotheses hold of a small dictionary and the text `13.5%`. -/
example : NonNeg sampleEnv.freq ∧ 0 < sampleEnv.total ∧ NoLongWord sampleEnv.freq (lit ['1', '3', '.', '5', '%']) ∧
    cut sampleEnv false true (lit ['1', '3', '.', '5', '%']) = Gen.ok [lit ['1', '3', '.', '5', '%']] ∧
    cut sampleEnv false false (lit ['1', '3', '.', '5', '%']) = Gen.ok [lit ['1', '3'], lit ['.'], lit ['5'], lit ['%']] :=
  ⟨sample_nonNeg, by decide,
    noLongWord_of_keys _ _ (by decide +kernel), by decide +kernel, by decide +kernel⟩

/-- C120: the numbers of POS tagging include the dots but not the percent sign, and without HMM they are tagged as foreign words. -/
theorem C120_posseg_example : Pos.cut samplePEnv true (lit ['1', '3', '.', '5', '%']) =
      Gen.ok [(lit ['1', '3', '.', '5'], lit ['m']), (lit ['%'], lit ['x'])] ∧
    Pos.cut samplePEnv false (lit ['1', '3', '.', '5', '%']) =
      Gen.ok [(lit ['1', '3'], lit ['e', 'n', 'g']), (lit ['.'], lit ['x']), (lit ['5'], lit ['e', 'n', 'g']), (lit ['%'], lit ['x'])] := by
  decide +kernel

/-- C120: the hypothesis on dictionary words is needed: with the word `.5`, the number is taken apart. -/
theorem C120_word_inside : ∃ E : Env Int, NonNeg E.freq ∧ 0 < E.total ∧
    cut E false true (lit ['1', '3', '.', '5']) = Gen.ok [lit ['1', '3'], lit ['.', '5']] := by
  refine ⟨⟨intArith, [(lit ['.'], 0), (lit ['.', '5'], 64)], 64, sampleTables, []⟩, nonNeg_of_all _ (by decide), by decide, by decide +kernel⟩

end Jieba.Props
