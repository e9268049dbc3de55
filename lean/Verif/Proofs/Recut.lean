import Verif.Proofs.Suggest
/-!
# Segmenting parts of a text again, and segmenting with a changed dictionary, in exact arithmetic
-/

namespace Jieba
open Jieba.Spec Jieba.Props

theorem admissible_flatten (freq : Freq) (ws : List Str) (s : Str) (h : Admissible freq s ws) : ws.flatten = s := by
  induction ws generalizing s with
  | nil => exact h.symm
  | cons w ws ih =>
    obtain ⟨⟨-, ⟨r, hr⟩, -⟩, h2⟩ := h
    rw [List.flatten_cons, ih _ h2, ← hr, List.drop_left]

theorem isBest_suffix {F : Type _} [LinearOrder F] (A : Arith F) (freq : Freq) (total : Int) (p l : List Str) (s : Str)
    (h : IsBest A freq total s (p ++ l)) : IsBest A freq total l.flatten l := by
  induction p generalizing s with
  | nil =>
    have := admissible_flatten _ _ _ (isBest_admissible _ _ _ _ _ h)
    rw [List.nil_append] at this h
    rw [this]; exact h
  | cons w p ih => exact ih _ h.2.1

theorem segProb_append (freq : Freq) (total : Int) (a b : List Str) :
    segProb freq total (a ++ b) = segProb freq total a * segProb freq total b := by simp [segProb]

/-- In exact arithmetic scores are compared by probabilities. -/
theorem isBest_real_iff (freq : Freq) (hn : NonNeg freq) (total : Int) (ht : 0 < total) (s w : Str) (ws : List Str) :
    IsBest realArith freq total s (w :: ws) ↔ NextWord freq s w ∧ IsBest realArith freq total (s.drop w.length) ws ∧
      ∀ w' ws', Admissible freq s (w' :: ws') →
        segProb freq total (w' :: ws') < segProb freq total (w :: ws) ∨
        (segProb freq total (w' :: ws') = segProb freq total (w :: ws) ∧ w'.length ≤ w.length) := by
  obtain ⟨p2, e2⟩ := segScore_real freq hn total ht (w :: ws)
  have key : ∀ l, (segScore realArith freq total l < segScore realArith freq total (w :: ws) ↔
        segProb freq total l < segProb freq total (w :: ws)) ∧
      (segScore realArith freq total l = segScore realArith freq total (w :: ws) ↔
        segProb freq total l = segProb freq total (w :: ws)) := by
    intro l
    obtain ⟨p1, e1⟩ := segScore_real freq hn total ht l
    rw [e1, e2]
    refine ⟨Real.log_lt_log_iff p1 p2, ⟨fun h => Real.log_injOn_pos p1 p2 h, fun h => by rw [h]⟩⟩
  show _ ∧ _ ∧ _ ↔ _
  simp only [(key _).1, (key _).2]

/-- A dictionary word on a best path is the best segmentation of itself. -/
theorem isBest_word (freq : Freq) (hn : NonNeg freq) (total : Int) (ht : 0 < total)
    (hb : ∀ w x, freq.get? w = some x → x ≤ total) (w : Str) (q : List Str) (hd : DictWord freq w)
    (h : IsBest realArith freq total (w ++ q.flatten) (w :: q)) : IsBest realArith freq total w [w] := by
  have hne : w ≠ [] := h.1.1
  rw [isBest_real_iff freq hn total ht] at h ⊢
  refine ⟨⟨hne, List.prefix_refl _, Or.inl hd⟩, by rw [List.drop_length]; rfl, ?_⟩
  intro w' ws' hadm
  have hlen : w'.length ≤ w.length := hadm.1.2.1.length_le
  have htR : (0 : ℝ) < total := by exact_mod_cast ht
  have hle : ∀ x, (0 : ℝ) ≤ (scoreFreq freq x : ℝ) / total ∧ (scoreFreq freq x : ℝ) / total ≤ 1 := by
    intro x
    have hpos := scoreFreq_pos freq hn x
    refine ⟨div_nonneg (by exact_mod_cast le_of_lt hpos) (le_of_lt htR), ?_⟩
    rw [div_le_one htR]
    have : scoreFreq freq x ≤ total := by
      unfold scoreFreq
      split
      · rename_i y hy
        have := hb x y hy
        split <;> omega
      · omega
    exact_mod_cast this
  have h01 : ∀ l : List Str, 0 ≤ segProb freq total l ∧ segProb freq total l ≤ 1 := by
    intro l
    induction l with
    | nil => simp [segProb]
    | cons y l ih =>
      have e : segProb freq total (y :: l) = (scoreFreq freq y : ℝ) / total * segProb freq total l := by simp [segProb]
      rw [e]
      exact ⟨mul_nonneg (hle y).1 ih.1, mul_le_one₀ (hle y).2 ih.1 ih.2⟩
  have hpq : 0 < segProb freq total q := (segScore_real freq hn total ht q).1
  suffices hprob : segProb freq total (w' :: ws') ≤ segProb freq total [w] by
    rcases lt_or_eq_of_le hprob with h | h
    · exact Or.inl h
    · exact Or.inr ⟨h, hlen⟩
  by_cases hall : ∀ x ∈ w' :: ws', DictWord freq x
  · -- only dictionary words: the same words could have been chosen inside the longer text
    have key : ∀ (l : List Str) (s : Str), Admissible freq s l → (∀ x ∈ l, DictWord freq x) →
        Admissible freq (s ++ q.flatten) (l ++ q) := by
      intro l
      induction l with
      | nil =>
        intro s hs _
        have hs : s = [] := hs
        subst hs
        have := isBest_admissible _ _ _ _ _ h.2.1
        rwa [List.drop_left] at this
      | cons x l ih =>
        intro s hs hx
        obtain ⟨⟨h1, h2, -⟩, h4⟩ := hs
        refine ⟨⟨h1, h2.trans (List.prefix_append _ _), Or.inl (hx x (by simp))⟩, ?_⟩
        rw [List.drop_append_of_le_length h2.length_le]
        exact ih _ h4 (fun y hy => hx y (List.mem_cons_of_mem _ hy))
    have := h.2.2 w' (ws' ++ q) (key _ _ hadm hall)
    have e1 : segProb freq total (w' :: (ws' ++ q)) = segProb freq total (w' :: ws') * segProb freq total q :=
      segProb_append freq total (w' :: ws') q
    have e2 : segProb freq total (w :: q) = segProb freq total [w] * segProb freq total q :=
      segProb_append freq total [w] q
    rw [e1, e2] at this
    have := this.elim le_of_lt (fun h => le_of_eq h.1)
    exact le_of_mul_le_mul_right this hpq
  · -- a character that is no word counts as frequency 1
    push Not at hall
    obtain ⟨x, hx, hxd⟩ := hall
    have e2 : scoreFreq freq x = 1 := by
      unfold scoreFreq
      cases hg : PyDict.get? freq x with
      | none => rfl
      | some y =>
        have : y = 0 := by by_contra hy; exact hxd ⟨y, hg, hy⟩
        simp [this]
    obtain ⟨a, b, hab⟩ := List.append_of_mem hx
    have e : segProb freq total (w' :: ws') = segProb freq total a * ((scoreFreq freq x : ℝ) / total * segProb freq total b) := by
      rw [hab]; simp [segProb]
    rw [e, e2]
    have h1 : segProb freq total a * (((1 : Int) : ℝ) / total * segProb freq total b) ≤ 1 / total := by
      have hab1 : segProb freq total a * segProb freq total b ≤ 1 := mul_le_one₀ (h01 a).2 (h01 b).1 (h01 b).2
      have : segProb freq total a * (((1 : Int) : ℝ) / total * segProb freq total b) =
          (segProb freq total a * segProb freq total b) / total := by push_cast; ring
      rw [this]; gcongr
    refine le_trans h1 ?_
    have hw1 : (1 : ℝ) ≤ scoreFreq freq w := by exact_mod_cast scoreFreq_pos freq hn w
    simp only [segProb, List.map_cons, List.map_nil, List.prod_cons, List.prod_nil, mul_one]
    gcongr

/-- A run of single characters on a best path is the best segmentation of its text. -/
theorem isBest_singles (freq : Freq) (hn : NonNeg freq) (total : Int) (ht : 0 < total) (r q : List Str)
    (hr : ∀ w ∈ r, w.length = 1) (h : IsBest realArith freq total (r.flatten ++ q.flatten) (r ++ q)) :
    IsBest realArith freq total r.flatten r := by
  have hpq : 0 < segProb freq total q := (segScore_real freq hn total ht q).1
  -- other segmentations of the run extend to segmentations of the text
  have ext : ∀ (n : Nat) (r l : List Str), r.length ≤ n → (∀ w ∈ r, w.length = 1) →
      Admissible freq (r.flatten ++ q.flatten) (r ++ q) → Admissible freq r.flatten l →
      Admissible freq (r.flatten ++ q.flatten) (l ++ q) := by
    intro n
    induction n with
    | zero =>
      intro r l hn _ h1 h2
      have : r = [] := List.length_eq_zero_iff.mp (by omega)
      subst this
      have := admissible_nil freq l h2
      subst this
      exact h1
    | succ n ih =>
      intro r l hn hr h1 h2
      cases l with
      | nil =>
        have e : r.flatten = [] := h2
        have : r = [] := by
          cases r with
          | nil => rfl
          | cons x r =>
            have hx := hr x (by simp)
            rw [List.flatten_cons] at e
            rw [(List.append_eq_nil_iff.mp e).1] at hx
            simp at hx
        subst this
        exact h1
      | cons x l =>
        obtain ⟨⟨a1, a2, a3⟩, a4⟩ := h2
        have hx0 : 0 < x.length := List.length_pos_of_ne_nil a1
        -- the rest of the run after `x`
        have hdrop : r.flatten.drop x.length = (r.drop x.length).flatten ∧ x.length ≤ r.length ∧
            Admissible freq ((r.drop x.length).flatten ++ q.flatten) (r.drop x.length ++ q) := by
          have hl := (flatten_singles r hr).1
          have hxl : x.length ≤ r.length := by rw [← hl]; exact a2.length_le
          have key : ∀ (k : Nat) (r : List Str), (∀ w ∈ r, w.length = 1) → k ≤ r.length →
              Admissible freq (r.flatten ++ q.flatten) (r ++ q) →
              r.flatten.drop k = (r.drop k).flatten ∧ Admissible freq ((r.drop k).flatten ++ q.flatten) (r.drop k ++ q) := by
            intro k
            induction k with
            | zero => intro r _ _ h; simpa using h
            | succ k ihk =>
              intro r hr hk h
              cases r with
              | nil => simp at hk
              | cons y r =>
                have hy := hr y (by simp)
                obtain ⟨c, rfl⟩ := List.length_eq_one_iff.mp hy
                have h' := h.2
                simp only [List.flatten_cons, List.length_singleton, List.drop_succ_cons,
                  List.cons_append, List.drop_zero] at h' ⊢
                exact ihk r (fun w hw => hr w (List.mem_cons_of_mem _ hw)) (by simpa using hk) h'
          obtain ⟨k1, k2⟩ := key x.length r hr hxl h1
          exact ⟨k1, hxl, k2⟩
        obtain ⟨d1, d2, d3⟩ := hdrop
        refine ⟨⟨a1, a2.trans (List.prefix_append _ _), ?_⟩, ?_⟩
        · rcases a3 with a3 | ⟨a3, a5⟩
          · exact Or.inl a3
          · right
            refine ⟨a3, ?_⟩
            cases r with
            | nil => have : x.length = 0 := by simpa using d2
                     omega
            | cons y r =>
              have hy := hr y (by simp)
              rcases h1.1.2.2 with b | ⟨-, b⟩
              · exact absurd b (a5 y h1.1.1 (by simp))
              · exact b
        · rw [List.drop_append_of_le_length a2.length_le, d1]
          refine ih (r.drop x.length) l (by rw [List.length_drop]; omega)
            (fun w hw => hr w (List.mem_of_mem_drop hw)) d3 ?_
          rw [← d1]; exact a4
  induction r with
  | nil => rfl
  | cons y r ih =>
    have hy := hr y (by simp)
    have hr' : ∀ w ∈ r, w.length = 1 := fun w hw => hr w (List.mem_cons_of_mem _ hw)
    have hadm0 := isBest_admissible _ _ _ _ _ h
    rw [List.cons_append] at h
    rw [isBest_real_iff freq hn total ht] at h ⊢
    obtain ⟨⟨h1, h2, h3⟩, h4, h5⟩ := h
    have e0 : (List.flatten (y :: r) ++ q.flatten).drop y.length = r.flatten ++ q.flatten := by
      rw [List.flatten_cons, List.append_assoc, List.drop_left]
    rw [e0] at h4
    refine ⟨⟨h1, by simp, ?_⟩, ?_, ?_⟩
    · rcases h3 with h3 | ⟨h3, h6⟩
      · exact Or.inl h3
      · exact Or.inr ⟨h3, fun v hv hp => h6 v hv (hp.trans (List.prefix_append _ _))⟩
    · rw [List.flatten_cons, List.drop_left]; exact ih hr' h4
    · intro w' ws' hadm
      have := h5 w' (ws' ++ q) (ext (y :: r).length (y :: r) (w' :: ws') (le_refl _) hr hadm0 hadm)
      have e1 : segProb freq total (w' :: (ws' ++ q)) = segProb freq total (w' :: ws') * segProb freq total q :=
        segProb_append freq total (w' :: ws') q
      have e2 : segProb freq total (y :: (r ++ q)) = segProb freq total (y :: r) * segProb freq total q :=
        segProb_append freq total (y :: r) q
      rw [e1, e2] at this
      rcases this with h | ⟨h, hl⟩
      · exact Or.inl (lt_of_mul_lt_mul_right h (le_of_lt hpq))
      · exact Or.inr ⟨mul_right_cancel₀ (ne_of_gt hpq) h, hl⟩

/-- Where a token comes from in the path. -/
theorem regrouped_split {single : Str → Prop} {path ts : List Str} (h : Regrouped single (fun r => [r.flatten]) path ts) :
    ∀ w ∈ ts, (¬ single w ∧ ∃ p q, path = p ++ w :: q) ∨
      ∃ p r q, path = p ++ r ++ q ∧ r ≠ [] ∧ (∀ x ∈ r, single x) ∧ w = r.flatten := by
  induction h with
  | nil => simp
  | word w ps ts hw _ ih =>
    intro x hx
    rcases List.mem_cons.mp hx with rfl | hx
    · exact Or.inl ⟨hw, [], ps, rfl⟩
    · rcases ih x hx with ⟨h1, p, q, h2⟩ | ⟨p, r, q, h2, h3⟩
      · exact Or.inl ⟨h1, w :: p, q, by rw [h2]; rfl⟩
      · exact Or.inr ⟨w :: p, r, q, by rw [h2]; simp, h3⟩
  | run r ps ts h1 h2 _ _ ih =>
    intro x hx
    rcases List.mem_append.mp hx with hx | hx
    · exact Or.inr ⟨[], r, ps, by simp, h1, h2, by simpa using hx⟩
    · rcases ih x hx with ⟨h3, p, q, h4⟩ | ⟨p, r', q, h4, h5⟩
      · exact Or.inl ⟨h3, r ++ p, q, by rw [h4]; simp⟩
      · exact Or.inr ⟨r ++ p, r', q, by rw [h4]; simp, h5⟩

/-- If every word of the path is in the run, there is one token. -/
theorem regrouped_all_single {single : Str → Prop} {path ts : List Str}
    (h : Regrouped single (fun r => [r.flatten]) path ts) (hne : path ≠ []) (hall : ∀ w ∈ path, single w) :
    ts = [path.flatten] := by
  cases h with
  | nil => exact absurd rfl hne
  | word w ps ts hw _ => exact absurd (hall w (by simp)) hw
  | run r ps ts _ _ h3 h4 =>
    cases ps with
    | cons x ps => exact absurd (hall x (by simp)) (h3 x rfl)
    | nil =>
      have key : ∀ path ts, Regrouped single (fun r => [r.flatten]) path ts → path = [] → ts = [] := by
        intro path ts h
        cases h with
        | nil => intro _; rfl
        | word w ps ts _ _ => intro h; simp at h
        | run r ps ts h1 _ _ _ => intro h; exact absurd (List.append_eq_nil_iff.mp h).1 h1
      rw [key _ _ h4 rfl]; simp

/-! ## Changed dictionaries -/

/-- Segmentations of `s` only depend on which parts of `s` are words. -/
theorem admissible_agree (freq freq' : Freq) (ws : List Str) (s : Str)
    (h : ∀ u, u <:+: s → (DictWord freq' u ↔ DictWord freq u)) : Admissible freq' s ws ↔ Admissible freq s ws := by
  induction ws generalizing s with
  | nil => rfl
  | cons w ws ih =>
    have hd : ∀ k, k <+: s → (DictWord freq' k ↔ DictWord freq k) := fun k hk => h k hk.isInfix
    have hn : NextWord freq' s w ↔ NextWord freq s w := by
      unfold NextWord
      constructor
      · rintro ⟨h1, h2, h3⟩
        refine ⟨h1, h2, ?_⟩
        rcases h3 with h3 | ⟨h3, h4⟩
        · exact Or.inl ((hd w h2).mp h3)
        · exact Or.inr ⟨h3, fun x a b c => h4 x a b ((hd x b).mpr c)⟩
      · rintro ⟨h1, h2, h3⟩
        refine ⟨h1, h2, ?_⟩
        rcases h3 with h3 | ⟨h3, h4⟩
        · exact Or.inl ((hd w h2).mpr h3)
        · exact Or.inr ⟨h3, fun x a b c => h4 x a b ((hd x b).mp c)⟩
    show NextWord _ _ _ ∧ Admissible _ _ _ ↔ NextWord _ _ _ ∧ Admissible _ _ _
    rw [hn, ih (s.drop w.length) (fun u hu => h u (hu.trans (List.drop_suffix _ _).isInfix))]

theorem admissible_infix (freq : Freq) (ws : List Str) (s : Str) (h : Admissible freq s ws) : ∀ w ∈ ws, w <:+: s := by
  induction ws generalizing s with
  | nil => simp
  | cons x ws ih =>
    intro w hw
    rcases List.mem_cons.mp hw with rfl | hw
    · exact h.1.2.1.isInfix
    · exact (ih _ h.2 w hw).trans (List.drop_suffix _ _).isInfix

theorem segScore_agree {F : Type _} (A : Arith F) (freq freq' : Freq) (total : Int) (ws : List Str)
    (h : ∀ w ∈ ws, scoreFreq freq' w = scoreFreq freq w) : segScore A freq' total ws = segScore A freq total ws := by
  induction ws with
  | nil => rfl
  | cons w ws ih =>
    unfold segScore
    rw [h w (by simp), ih (fun x hx => h x (List.mem_cons_of_mem _ hx))]

/-- If fewer segmentations are left, and the best one is among them with unchanged scores, it stays the best. -/
theorem isBest_restrict {F : Type _} [LinearOrder F] (A : Arith F) (freq freq' : Freq) (total : Int) (ws : List Str) (s : Str)
    (hbest : IsBest A freq total s ws) (hadm : Admissible freq' s ws)
    (hsub : ∀ s', s' <:+ s → ∀ l, Admissible freq' s' l →
      Admissible freq s' l ∧ segScore A freq' total l = segScore A freq total l) : IsBest A freq' total s ws := by
  induction ws generalizing s with
  | nil => exact hbest
  | cons w ws ih =>
    obtain ⟨h1, h2, h3⟩ := hbest
    refine ⟨hadm.1, ih _ h2 hadm.2 (fun s' hs' => hsub s' (hs'.trans (List.drop_suffix _ _))), ?_⟩
    intro w' ws' ha
    obtain ⟨a1, a2⟩ := hsub s (List.suffix_refl _) _ ha
    rw [a2, (hsub s (List.suffix_refl _) _ hadm).2]
    exact h3 w' ws' a1

/-- Sum of the logarithms of the frequencies. -/
noncomputable def logFreqs (freq : Freq) (ws : List Str) : ℝ := (ws.map (fun w => Real.log ((scoreFreq freq w).toNat : ℝ))).sum

theorem segScore_linear (freq : Freq) (total : Int) (ws : List Str) :
    segScore realArith freq total ws = logFreqs freq ws - ws.length * Real.log (total.toNat : ℝ) := by
  induction ws with
  | nil => simp [segScore, logFreqs, realArith]
  | cons w ws ih =>
    show (Real.log _ - Real.log _) + segScore realArith freq total ws = _
    rw [ih]
    simp only [logFreqs, List.map_cons, List.sum_cons, List.length_cons]
    push_cast
    ring

/-- With a larger total a best segmentation has at most as many words. -/
theorem isBest_total_mono (freq freq' : Freq) (total total' : Int) (ht : 0 < total) (hlt : total < total') (s : Str)
    (p q : List Str) (hd : ∀ u, u <:+: s → (DictWord freq' u ↔ DictWord freq u))
    (hsf : ∀ u, u <:+: s → scoreFreq freq' u = scoreFreq freq u)
    (hp : IsBest realArith freq total s p) (hq : IsBest realArith freq' total' s q) : q.length ≤ p.length := by
  have ap := isBest_admissible _ _ _ _ _ hp
  have aq := isBest_admissible _ _ _ _ _ hq
  have ap' := (admissible_agree freq freq' p s hd).mpr ap
  have aq' := (admissible_agree freq freq' q s hd).mp aq
  have h1 := isBest_max _ _ _ _ _ _ hp aq'
  have h2 := isBest_max _ _ _ _ _ _ hq ap'
  rw [segScore_agree realArith freq freq' total' q (fun w hw => hsf w (admissible_infix _ _ _ aq w hw)),
    segScore_agree realArith freq freq' total' p (fun w hw => hsf w (admissible_infix _ _ _ ap w hw))] at h2
  simp only [segScore_linear] at h1 h2
  have hlog : Real.log (total.toNat : ℝ) < Real.log (total'.toNat : ℝ) := by
    apply Real.log_lt_log
    · exact_mod_cast (by omega : 0 < total.toNat)
    · exact_mod_cast (by omega : total.toNat < total'.toNat)
  have : (q.length : ℝ) ≤ p.length := by
    by_contra hcon
    push Not at hcon
    nlinarith
  exact_mod_cast this

end Jieba
