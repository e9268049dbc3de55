import Verif.Proofs.HmmUnknown
import Verif.Spec.HmmPossible
/-!
# The HMM segmenter in doubles: if the tables allow a tagging, an allowed one is chosen
-/

namespace Jieba.FinalSeg
open Jieba Jieba.Spec

/-- What the shipped tables have besides `Moderate`: all transitions that `PrevStatus` lists, and words that begin with 'B' or 'S'. -/
structure Complete (T : Tables ℚ) : Prop where
  startB : -2 ^ 100 ≤ T.start .B
  startM : T.start .M ≤ minFloat
  startE : T.start .E ≤ minFloat
  trans : ∀ a b, mayFollow a b = true → (T.trans a b).isSome = true

variable {log : Nat → ℚ} {T : Tables ℚ}

/-- One character more in `tagScore`. -/
def scoreStep (T : Tables ℚ) (p : ℚ × St) (q : Ch × St) : ℚ × St :=
  (rnd (rnd (p.1 + (T.trans p.2 q.2).getD T.minFloat) + (T.emit q.2 q.1).getD T.minFloat), q.2)

theorem tagScore_cons (log : Nat → ℚ) (T : Tables ℚ) (c : Ch) (y : St) (r : List (Ch × St)) :
    tagScore (dblArith log) T ((c, y) :: r) = (r.foldl (scoreStep T) (rnd (T.start y + (T.emit y c).getD T.minFloat), y)).1 := rfl

theorem low_step (hT : Moderate T) (p : ℚ × St) (q : Ch × St) (h : p.1 ≤ minFloat) : (scoreStep T p q).1 ≤ minFloat :=
  low_le minFloat_dbl (le_refl _) (low_le minFloat_dbl (le_refl _) h (trans_le hT _ _)) (emit_le hT _ _)

theorem low_foldl (hT : Moderate T) (r : List (Ch × St)) (p : ℚ × St) (h : p.1 ≤ minFloat) : (r.foldl (scoreStep T) p).1 ≤ minFloat := by
  induction r generalizing p with
  | nil => exact h
  | cons q r ih => exact ih _ (low_step hT p q h)

theorem grid_bound (k : ℕ) (hk : k ≤ 2 ^ 53) : ((k : ℕ) : ℚ) * 2 ^ 100 ≤ 2 ^ 153 := by
  have : ((k : ℕ) : ℚ) ≤ 2 ^ 53 := by exact_mod_cast hk
  calc _ ≤ (2 : ℚ) ^ 53 * 2 ^ 100 := mul_le_mul_of_nonneg_right this (by norm_num)
    _ = 2 ^ 153 := by norm_num

theorem up_step (hT : Moderate T) (p : ℚ × St) (q : Ch × St) (k : ℕ) (hk : k + 2 ≤ 2 ^ 53) (h : p.1 ≤ k * 2 ^ 100) :
    (scoreStep T p q).1 ≤ ((k + 2 : ℕ) : ℚ) * 2 ^ 100 ∧ (T.emit q.2 q.1 = none → (scoreStep T p q).1 ≤ minFloat) := by
  have h1 : rnd (p.1 + (T.trans p.2 q.2).getD T.minFloat) ≤ ((k + 1 : ℕ) : ℚ) * 2 ^ 100 := by
    refine rnd_le_grid (k + 1) (by omega) ?_
    have := trans_le hT p.2 q.2
    push_cast; linarith
  constructor
  · refine rnd_le_grid (k + 2) hk ?_
    have := emit_le hT q.2 q.1
    push_cast at h1 ⊢; linarith
  · intro hn
    simp only [scoreStep, hn, Option.getD_none]
    rw [hT.min] at h1 ⊢
    calc _ ≤ rnd (minFloat + 2 ^ 153) := rnd_mono (by have := grid_bound (k + 1) (by omega); linarith)
      _ = minFloat := absorb_low minFloat_dbl (le_refl _) (by norm_num)

/-- A tagging with a pair that the table does not have. -/
theorem unknown_foldl (hT : Moderate T) (r : List (Ch × St)) (p : ℚ × St) (k : ℕ) (hk : k + 2 * r.length ≤ 2 ^ 53) (h : p.1 ≤ k * 2 ^ 100)
    (hu : ∃ q ∈ r, T.emit q.2 q.1 = none) : (r.foldl (scoreStep T) p).1 ≤ minFloat := by
  induction r generalizing p k with
  | nil => obtain ⟨q, hq, -⟩ := hu; simp at hq
  | cons q r ih =>
    simp only [List.length_cons] at hk
    obtain ⟨h1, h2⟩ := up_step hT p q k (by omega) h
    by_cases hq : T.emit q.2 q.1 = none
    · exact low_foldl hT r _ (h2 hq)
    · refine ih _ (k + 2) (by omega) h1 ?_
      obtain ⟨q', hq', e⟩ := hu
      rcases List.mem_cons.mp hq' with rfl | hm
      · exact absurd e hq
      · exact ⟨q', hm, e⟩

/-- A tagging with known pairs only. -/
theorem known_foldl (hT : Moderate T) (hC : Complete T) (r : List (Ch × St)) (p : ℚ × St) (k : ℕ) (hk : k + 2 * r.length ≤ 2 ^ 53)
    (h : -((k : ℚ) * 2 ^ 100) ≤ p.1) (hchain : (p.2 :: r.map Prod.snd).IsChain (fun a b => mayFollow a b = true))
    (hr : ∀ q ∈ r, (T.emit q.2 q.1).isSome = true) : -(((k + 2 * r.length : ℕ) : ℚ) * 2 ^ 100) ≤ (r.foldl (scoreStep T) p).1 := by
  induction r generalizing p k with
  | nil => simpa using h
  | cons q r ih =>
    simp only [List.length_cons, List.map_cons, List.isChain_cons_cons] at hk hchain ⊢
    obtain ⟨t, ht⟩ := Option.isSome_iff_exists.mp (hC.trans _ _ hchain.1)
    obtain ⟨v, hv⟩ := Option.isSome_iff_exists.mp (hr q (by simp))
    have h1 : -(((k + 1 : ℕ) : ℚ) * 2 ^ 100) ≤ rnd (p.1 + (T.trans p.2 q.2).getD T.minFloat) := by
      refine grid_le_rnd (k + 1) (by omega) ?_
      rw [ht, Option.getD_some]
      have := (abs_le.mp (hT.trans _ _ _ ht)).1
      push_cast; linarith
    have h2 : -(((k + 2 : ℕ) : ℚ) * 2 ^ 100) ≤ (scoreStep T p q).1 := by
      refine grid_le_rnd (k + 2) (by omega) ?_
      rw [hv, Option.getD_some]
      have := (abs_le.mp (hT.emit _ _ _ hv)).1
      push_cast at h1 ⊢; linarith
    have := ih (scoreStep T p q) (k + 2) (by omega) h2 hchain.2 (fun q' h' => hr q' (by simp [h']))
    have e : k + 2 * (r.length + 1) = k + 2 + 2 * r.length := by omega
    rw [e]; exact this

theorem possible_high (log : Nat → ℚ) (hT : Moderate T) (hC : Complete T) (s : Str) (hne : s ≠ []) (hlen : s.length ≤ 2 ^ 50) (tags : List St)
    (h : PossibleTags T s tags) : minFloat < tagScore (dblArith log) T (s.zip tags) := by
  obtain ⟨hl, hv, hf, hkn⟩ := h
  cases s with
  | nil => exact absurd rfl hne
  | cons c s =>
    cases tags with
    | nil => simp at hl
    | cons y tags =>
      simp only [List.length_cons] at hl hlen
      rw [List.zip_cons_cons, tagScore_cons]
      obtain ⟨v, hv'⟩ := Option.isSome_iff_exists.mp (hkn (c, y) (by simp))
      have h0 : -(((2 : ℕ) : ℚ) * 2 ^ 100) ≤ rnd (T.start y + (T.emit y c).getD T.minFloat) := by
        refine grid_le_rnd 2 (by norm_num) ?_
        rw [hv', Option.getD_some]
        have := (abs_le.mp (hT.emit _ _ _ hv')).1
        have : -2 ^ 100 ≤ T.start y := by
          rcases hf y rfl with rfl | rfl
          · exact hC.startB
          · exact hT.startS
        push_cast; linarith
      have hz : (s.zip tags).length = s.length := by simp; omega
      have := known_foldl hT hC (s.zip tags) (rnd (T.start y + (T.emit y c).getD T.minFloat), y) 2 (by rw [hz]; omega) h0
        (by rw [List.map_snd_zip (by omega)]; exact hv.chain) (fun q hq => hkn q (by simp [hq]))
      refine lt_of_lt_of_le ?_ this
      rw [hz]
      have := grid_bound (2 + 2 * s.length) (by omega)
      have h3 := minFloat_large
      have : (2 : ℚ) ^ 153 < 2 ^ 240 := by norm_num
      linarith

theorem impossible_low (log : Nat → ℚ) (hT : Moderate T) (hC : Complete T) (s : Str) (hne : s ≠ []) (hlen : s.length ≤ 2 ^ 50) (tags : List St)
    (hl : tags.length = s.length) (hv : ValidTags tags) (h : ¬ PossibleTags T s tags) : tagScore (dblArith log) T (s.zip tags) ≤ minFloat := by
  cases s with
  | nil => exact absurd rfl hne
  | cons c s =>
    cases tags with
    | nil => simp at hl
    | cons y tags =>
      simp only [List.length_cons] at hl hlen
      rw [List.zip_cons_cons, tagScore_cons]
      have hz : (s.zip tags).length = s.length := by simp; omega
      have first : T.start y ≤ minFloat ∨ T.emit y c = none → rnd (T.start y + (T.emit y c).getD T.minFloat) ≤ minFloat := by
        rintro (h1 | h1)
        · exact low_le minFloat_dbl (le_refl _) h1 (emit_le hT _ _)
        · rw [h1, Option.getD_none, hT.min, add_comm]
          exact low_le minFloat_dbl (le_refl _) (le_refl _) (hT.start y)
      by_cases h1 : T.start y ≤ minFloat ∨ T.emit y c = none
      · exact low_foldl hT _ _ (first h1)
      · push Not at h1
        refine unknown_foldl hT (s.zip tags) _ 2 (by rw [hz]; omega) ?_ ?_
        · refine rnd_le_grid 2 (by norm_num) ?_
          have := hT.start y; have := emit_le hT y c
          push_cast; linarith
        · by_contra hall
          push Not at hall
          refine h ⟨by simp [hl], hv, ?_, ?_⟩
          · rintro t ht
            simp at ht
            subst ht
            cases y with
            | B => simp
            | S => simp
            | M => exact absurd hC.startM (not_le.mpr h1.1)
            | E => exact absurd hC.startE (not_le.mpr h1.1)
          · intro q hq
            rw [List.zip_cons_cons, List.mem_cons] at hq
            rcases hq with rfl | hq
            · exact Option.isSome_iff_ne_none.mpr h1.2
            · exact Option.isSome_iff_ne_none.mpr (hall q hq)

/-- If the tables allow a tagging at all, every best tagging is allowed. -/
theorem best_possible (log : Nat → ℚ) (hT : Moderate T) (hC : Complete T) (s : Str) (hne : s ≠ []) (hlen : s.length ≤ 2 ^ 50) (tags other : List St)
    (hb : BestTags (dblArith log) T s tags) (ho : PossibleTags T s other) : PossibleTags T s tags := by
  by_contra h
  have h1 := impossible_low log hT hC s hne hlen tags hb.length hb.valid h
  have h2 := possible_high log hT hC s hne hlen other ho
  exact absurd (hb.best other ho.length ho.valid) (not_le.mpr (lt_of_le_of_lt h1 h2))

/-- What an unfinished word looks like. -/
def Begun (T : Tables ℚ) (acc : Str) : Prop :=
  acc = [] ∨ ∃ b ms, acc = b :: ms ∧ (T.emit .B b).isSome = true ∧ ∀ m ∈ ms, (T.emit .M m).isSome = true

theorem possible_words (T : Tables ℚ) (l : List (Ch × St)) (acc : Str) (hacc : Begun T acc)
    (hchain : (l.map Prod.snd).IsChain (fun a b => mayFollow a b = true)) (hend : ∀ t, (l.map Prod.snd).getLast? = some t → t = .E ∨ t = .S)
    (hnil : l = [] → acc = [])
    (hfirst : ∀ t, (l.map Prod.snd).head? = some t → (acc = [] ↔ t = .B ∨ t = .S)) (hk : ∀ q ∈ l, (T.emit q.2 q.1).isSome = true) :
    ∀ w ∈ wordsByTags l acc, PossibleWord T w := by
  induction l generalizing acc with
  | nil => rw [hnil rfl]; simp [wordsByTags]
  | cons p l ih =>
    obtain ⟨c, t⟩ := p
    have hf := hfirst t rfl
    have hc := hk (c, t) (by simp)
    simp only [List.map_cons] at hchain hend
    have hend' : ∀ u, (l.map Prod.snd).getLast? = some u → u = .E ∨ u = .S := by
      intro u hu
      apply hend
      cases hl : l.map Prod.snd with
      | nil => rw [hl] at hu; simp at hu
      | cons a b => rw [List.getLast?_cons_cons, ← hl]; exact hu
    have hnext : ∀ u, (l.map Prod.snd).head? = some u → mayFollow t u = true := by
      intro u hu
      cases hl : l.map Prod.snd with
      | nil => rw [hl] at hu; simp at hu
      | cons a b => rw [hl] at hu hchain; simp at hu; subst hu; exact (List.isChain_cons_cons.mp hchain).1
    have hk' : ∀ q ∈ l, (T.emit q.2 q.1).isSome = true := fun q hq => hk q (by simp [hq])
    simp only [wordsByTags]
    by_cases ht : t = .E ∨ t = .S
    · rw [if_pos ht]
      intro w hw
      rcases List.mem_cons.mp hw with rfl | hw
      · rcases ht with rfl | rfl
        · have hne : acc ≠ [] := by rw [Ne, hf]; simp
          rcases hacc with h0 | ⟨b, ms, rfl, hb, hm⟩
          · exact absurd h0 hne
          · exact PossibleWord.long b ms c hb hm hc
        · have : acc = [] := hf.mpr (by simp)
          subst this
          exact PossibleWord.single c hc
      · refine ih [] (Or.inl rfl) hchain.tail hend' (fun _ => rfl) ?_ hk' w hw
        intro u hu
        have := hnext u hu
        simp only [true_iff]
        rcases ht with rfl | rfl <;> cases u <;> simp [mayFollow] at this ⊢
    · rw [if_neg ht]
      refine ih _ ?_ hchain.tail hend' ?_ ?_ hk'
      · right
        cases t with
        | B =>
          have : acc = [] := hf.mpr (by simp)
          subst this
          exact ⟨c, [], rfl, hc, by simp⟩
        | M =>
          have hne : acc ≠ [] := by rw [Ne, hf]; simp
          rcases hacc with h0 | ⟨b, ms, rfl, hb, hm⟩
          · exact absurd h0 hne
          · refine ⟨b, ms ++ [c], rfl, hb, ?_⟩
            intro m hm'
            rcases List.mem_append.mp hm' with h | h
            · exact hm m h
            · simp at h; subst h; exact hc
        | E => simp at ht
        | S => simp at ht
      · rintro rfl
        exact absurd (hend t (by simp)) ht
      · intro u hu
        have := hnext u hu
        have e : (acc ++ [c] = []) ↔ False := by simp
        rw [e, false_iff]
        cases t <;> cases u <;> simp [mayFollow] at this ht ⊢

end Jieba.FinalSeg
