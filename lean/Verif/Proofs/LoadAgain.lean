import Verif.Proofs.DictOrder
import Verif.Proofs.Recut
/-!
# Helper lemmas for user dictionaries that are loaded again and again
-/

namespace Jieba
open Jieba.Spec Jieba.Props

/-! ## What is the same after the second time -/

def pairsOf (es : List Added) : List (Str × Int) := es.map (fun e => (e.1, e.2.1))

theorem addMany_freq (t : Nat) (es : List Added) (w : World) :
    ((addMany t w es).tok t).freq = registerAll (w.tok t).freq (pairsOf es) := by
  induction es generalizing w with
  | nil => rfl
  | cons e es ih =>
    show ((addMany t (addOne t w e) es).tok t).freq = _
    rw [ih]
    unfold addOne
    rw [addFreq_tok_self]
    rfl

theorem addMany_total (t : Nat) (es : List Added) (w : World) :
    ((addMany t w es).tok t).total = (w.tok t).total + (es.map (·.2.1)).sum := by
  induction es generalizing w with
  | nil => simp [addMany]
  | cons e es ih =>
    show ((addMany t (addOne t w e) es).tok t).total = _
    rw [ih]
    unfold addOne
    rw [addFreq_tok_self]
    simp only [List.map_cons, List.sum_cons]
    omega

theorem addMany_files (t : Nat) (es : List Added) (w : World) : (addMany t w es).files = w.files := by
  induction es generalizing w with
  | nil => rfl
  | cons e es ih =>
    show (addMany t (addOne t w e) es).files = _
    rw [ih]
    unfold addOne
    rw [addFreq_files]

theorem addMany_force (t : Nat) (es : List Added) (w : World) (v : Str) :
    v ∈ (addMany t w es).force ↔ v ∈ w.force ∨ ∃ e ∈ es, e.2.1 = 0 ∧ v = e.1 := by
  induction es generalizing w with
  | nil => simp [addMany]
  | cons e es ih =>
    show v ∈ (addMany t (addOne t w e) es).force ↔ _
    rw [ih]
    unfold addOne
    rw [mem_addFreq_force]
    simp only [List.mem_cons, exists_eq_or_imp]
    tauto

def lastTag : List Added → Str → Option Str
  | [], _ => none
  | e :: es, v => (lastTag es v).or (if truthyStr e.2.2 = true ∧ v = e.1 then some (e.2.2.getD []) else none)

theorem addMany_tags (t : Nat) (es : List Added) (w : World) (v : Str) :
    ((addMany t w es).tok t).tags.get? v = (lastTag es v).or ((w.tok t).tags.get? v) := by
  induction es generalizing w with
  | nil => rfl
  | cons e es ih =>
    show ((addMany t (addOne t w e) es).tok t).tags.get? v = _
    rw [ih, tags_after, lastTag, Option.or_assoc]
    congr 1
    split <;> rfl

theorem registerAll_twice (d d' : Freq) (es : List (Str × Int)) (h : ∀ v, d'.get? v = (registerAll d es).get? v) (v : Str) :
    (registerAll d' es).get? v = (registerAll d es).get? v := by
  have h := h v
  rw [registerAll_get?] at h
  rw [registerAll_get?, registerAll_get?]
  unfold lookupAfter at h ⊢
  cases hl : lastFreq es v with
  | some f => rfl
  | none =>
    rw [hl] at h
    simp only at h ⊢
    rw [h]
    cases hd : PyDict.get? d v with
    | some x => rfl
    | none =>
      by_cases hs : StartsEntry es v
      · simp [hs]
      · simp [hs]

/-- Up to the total, no look-up tells the states apart. -/
structure SameUpToTotal (t : Nat) (w w' : World) : Prop where
  freq : ∀ v, (w.tok t).freq.get? v = (w'.tok t).freq.get? v
  tags : ∀ v, (w.tok t).tags.get? v = (w'.tok t).tags.get? v
  force : ∀ v, v ∈ w.force ↔ v ∈ w'.force

theorem addMany_again (t : Nat) (es : List Added) (w w' : World) (h : SameUpToTotal t w' (addMany t w es)) :
    SameUpToTotal t (addMany t w' es) (addMany t w es) := by
  refine ⟨?_, ?_, ?_⟩
  · intro v
    rw [addMany_freq, addMany_freq]
    refine registerAll_twice _ _ _ (fun u => ?_) v
    rw [h.freq, addMany_freq]
  · intro v
    rw [addMany_tags, h.tags, addMany_tags]
    cases lastTag es v <;> rfl
  · intro v
    rw [addMany_force, h.force, addMany_force]
    tauto

/-! ## Large totals -/

theorem admissible_length_le (freq : Freq) (ws : List Str) (s : Str) (h : Admissible freq s ws) : ws.length ≤ s.length := by
  induction ws generalizing s with
  | nil => simp
  | cons w ws ih =>
    have h1 := ih _ h.2
    have h2 : 0 < w.length := List.length_pos_iff.mpr h.1.1
    have h3 := h.1.2.1.length_le
    simp only [List.length_drop, List.length_cons] at h1 ⊢
    omega

theorem logFreqs_bounds (freq : Freq) (M : Nat) (ws : List Str) (h : ∀ u ∈ ws, 1 ≤ scoreFreq freq u ∧ scoreFreq freq u ≤ M) :
    0 ≤ logFreqs freq ws ∧ logFreqs freq ws ≤ ws.length * Real.log M := by
  induction ws with
  | nil => simp [logFreqs]
  | cons w ws ih =>
    obtain ⟨h1, h2⟩ := ih (fun u hu => h u (List.mem_cons_of_mem _ hu))
    obtain ⟨h3, h4⟩ := h w (List.mem_cons_self ..)
    have e : logFreqs freq (w :: ws) = Real.log ((scoreFreq freq w).toNat : ℝ) + logFreqs freq ws := by simp [logFreqs]
    have a1 : (1 : ℝ) ≤ ((scoreFreq freq w).toNat : ℝ) := by exact_mod_cast (by omega : 1 ≤ (scoreFreq freq w).toNat)
    have a2 : ((scoreFreq freq w).toNat : ℝ) ≤ M := by exact_mod_cast (by omega : (scoreFreq freq w).toNat ≤ M)
    have b1 := Real.log_nonneg a1
    have b2 := Real.log_le_log (by linarith) a2
    rw [e]
    refine ⟨by linarith, ?_⟩
    rw [List.length_cons]
    push_cast
    linarith

/-- If the total is large enough, a best segmentation has the fewest words. -/
theorem isBest_fewest (freq : Freq) (total : Int) (M : Nat) (hM : 1 ≤ M) (s : Str)
    (hf : ∀ u, u <:+: s → 1 ≤ scoreFreq freq u ∧ scoreFreq freq u ≤ M) (ht : (M : Int) ^ s.length < total) (p l : List Str)
    (hp : IsBest realArith freq total s p) (hl : Admissible freq s l) : p.length ≤ l.length := by
  have ap := isBest_admissible _ _ _ _ _ hp
  have h1 := isBest_max _ _ _ _ _ _ hp hl
  simp only [segScore_linear] at h1
  have b1 := (logFreqs_bounds freq M l (fun u hu => hf u (admissible_infix _ _ _ hl u hu))).1
  have b2 := (logFreqs_bounds freq M p (fun u hu => hf u (admissible_infix _ _ _ ap u hu))).2
  have hMr : (1 : ℝ) ≤ M := by exact_mod_cast hM
  have hlM := Real.log_nonneg hMr
  have b3 : (p.length : ℝ) * Real.log M ≤ s.length * Real.log M :=
    mul_le_mul_of_nonneg_right (by exact_mod_cast admissible_length_le _ _ _ ap) hlM
  have hpow : (M : ℝ) ^ s.length < (total.toNat : ℝ) := by
    have : M ^ s.length < total.toNat := by
      have h : ((M ^ s.length : Nat) : Int) < total := by exact_mod_cast ht
      omega
    exact_mod_cast this
  have b4 : s.length * Real.log M < Real.log (total.toNat : ℝ) := by
    rw [← Real.log_pow]
    exact Real.log_lt_log (by positivity) hpow
  by_contra hcon
  have hc : (l.length : ℝ) + 1 ≤ p.length := by exact_mod_cast (by omega : l.length + 1 ≤ p.length)
  have b5 : 0 < Real.log (total.toNat : ℝ) := by
    have : 0 ≤ (s.length : ℝ) * Real.log M := by positivity
    linarith
  nlinarith

/-- … and stays the best one if the total grows. -/
theorem isBest_stays (freq : Freq) (total total' : Int) (htt : total ≤ total') (M : Nat) (hM : 1 ≤ M) (p : List Str) (s : Str)
    (hf : ∀ u, u <:+: s → 1 ≤ scoreFreq freq u ∧ scoreFreq freq u ≤ M) (ht : (M : Int) ^ s.length < total)
    (hp : IsBest realArith freq total s p) : IsBest realArith freq total' s p := by
  have hpos : 0 < total := lt_of_le_of_lt (by positivity) ht
  have hL : Real.log (total.toNat : ℝ) ≤ Real.log (total'.toNat : ℝ) := by
    apply Real.log_le_log
    · exact_mod_cast (by omega : 0 < total.toNat)
    · exact_mod_cast (by omega : total.toNat ≤ total'.toNat)
  induction p generalizing s with
  | nil => exact hp
  | cons w ws ih =>
    have hp' := hp
    obtain ⟨h1, h2, h3⟩ := hp
    refine ⟨h1, ih _ (fun u hu => hf u (hu.trans (List.drop_suffix _ _).isInfix)) (lt_of_le_of_lt ?_ ht) h2, ?_⟩
    · exact pow_le_pow_right₀ (by exact_mod_cast hM) (by rw [List.length_drop]; omega)
    · intro w' ws' ha
      have hfew := isBest_fewest freq total M hM s hf ht _ _ hp' ha
      have hfew : ((w :: ws).length : ℝ) ≤ (w' :: ws').length := by exact_mod_cast hfew
      have h3 := h3 w' ws' ha
      simp only [segScore_linear] at h3 ⊢
      generalize logFreqs freq (w :: ws) = a at *
      generalize logFreqs freq (w' :: ws') = b at *
      generalize ((w :: ws).length : ℝ) = m at *
      generalize ((w' :: ws').length : ℝ) = n at *
      generalize Real.log (total.toNat : ℝ) = L at *
      generalize Real.log (total'.toNat : ℝ) = L' at *
      have key : (n - m) * L ≤ (n - m) * L' := mul_le_mul_of_nonneg_left hL (by linarith)
      rcases h3 with h3 | ⟨h3, h4⟩
      · left; nlinarith
      · rcases lt_or_eq_of_le key with k | k
        · left; nlinarith
        · right; exact ⟨by nlinarith, h4⟩

end Jieba
