import Mathlib.Algebra.Order.Floor.Ring
import Mathlib.Algebra.Order.BigOperators.Group.List
import Verif.Proofs.Dict
import Verif.Proofs.World
import Verif.Proofs.Transfer
/-!
# Frequencies suggested by `suggest_freq`, in exact arithmetic
-/

namespace Jieba
open Jieba.Spec Jieba.Props

/-- `freq *= FREQ.get(seg, 1) / ftotal` over real numbers is a product. -/
theorem mulFreqs_real (freq : Freq) (total : Int) (segs : List Str) (acc : ℝ) :
    mulFreqs realArith freq (realArith.ofInt total) acc segs =
      acc * (segs.map (fun s => (((freq.get? s).getD 1 : Int) : ℝ) / total)).prod := by
  induction segs generalizing acc with
  | nil => simp [mulFreqs]
  | cons s segs ih =>
    unfold mulFreqs
    rw [ih]
    simp only [realArith, List.map_cons, List.prod_cons]
    ring

theorem scoreFreq_register (freq : Freq) (v : Str) (f : Int) (k : Str) (h : k ≠ v) :
    scoreFreq (register freq v f) k = scoreFreq freq k := by
  unfold scoreFreq
  rw [register_get?, if_neg h]
  cases PyDict.get? freq k with
  | some x => rfl
  | none =>
    simp only []
    by_cases hk : k ≠ [] ∧ k <+: v
    · rw [if_pos hk]; rfl
    · rw [if_neg hk]

theorem scoreFreq_register_self (freq : Freq) (v : Str) (f : Int) (h : f ≠ 0) :
    scoreFreq (register freq v f) v = f := by
  unfold scoreFreq
  rw [register_get?, if_pos rfl]
  simp [h]

/-- Segmentations of text that is shorter than `v` do not depend on whether `v` is registered. -/
theorem admissible_register_short (freq : Freq) (v : Str) (f : Int) (ws : List Str) (s : Str) (h : s.length < v.length) :
    Admissible (register freq v f) s ws ↔ Admissible freq s ws := by
  induction ws generalizing s with
  | nil => rfl
  | cons w ws ih =>
    have hd : ∀ k, k <+: s → (DictWord (register freq v f) k ↔ DictWord freq k) := by
      intro k hk
      rw [register_dictWord, if_neg]
      rintro rfl
      have := hk.length_le
      omega
    have hn : NextWord (register freq v f) s w ↔ NextWord freq s w := by
      unfold NextWord
      constructor
      · rintro ⟨h1, h2, h3⟩
        refine ⟨h1, h2, ?_⟩
        rcases h3 with h3 | ⟨h3, h4⟩
        · exact Or.inl ((hd w h2).mp h3)
        · exact Or.inr ⟨h3, fun x a b c => h4 x a b ((hd x b).mpr c)⟩
      · rintro ⟨h1, h2, h3⟩
        refine ⟨h1, h2, ?_⟩
        rcases h3 with h3 | ⟨h3, h4⟩
        · exact Or.inl ((hd w h2).mpr h3)
        · exact Or.inr ⟨h3, fun x a b c => h4 x a b ((hd x b).mp c)⟩
    show NextWord _ _ _ ∧ Admissible _ _ _ ↔ NextWord _ _ _ ∧ Admissible _ _ _
    rw [hn, ih _ (by rw [List.length_drop]; omega)]

theorem admissible_short_ne (freq : Freq) (ws : List Str) (s : Str) (n : Nat) (hn : s.length < n)
    (h : Admissible freq s ws) : ∀ w ∈ ws, w.length < n := by
  induction ws generalizing s with
  | nil => simp
  | cons w ws ih =>
    intro x hx
    obtain ⟨h1, h2⟩ := h
    rcases List.mem_cons.mp hx with rfl | hx
    · have := h1.2.1.length_le; omega
    · exact ih (s.drop w.length) (by rw [List.length_drop]; omega) h2 x hx

theorem admissible_nil (freq : Freq) (ws : List Str) (h : Admissible freq [] ws) : ws = [] := by
  cases ws with
  | nil => rfl
  | cons w ws =>
    have := h.1
    exact absurd (List.prefix_nil.mp this.2.1) this.1

/-- After registering `v`, a segmentation of `v` is `v` itself, or one of the old ones with at least two words. -/
theorem admissible_register_self (freq : Freq) (v : Str) (hv : v ≠ []) (f : Int) (hf : f ≠ 0) (ws : List Str)
    (h : Admissible (register freq v f) v ws) :
    ws = [v] ∨ (Admissible freq v ws ∧ 2 ≤ ws.length ∧ ∀ w ∈ ws, w ≠ v) := by
  cases ws with
  | nil => exact absurd h hv
  | cons w ws =>
    obtain ⟨⟨h1, h2, h3⟩, h4⟩ := h
    by_cases hw : w = v
    · left
      subst hw
      rw [List.drop_length] at h4
      rw [admissible_nil _ _ h4]
    · right
      have hlen : w.length < v.length := by
        rcases Nat.lt_or_ge w.length v.length with h | h
        · exact h
        · exact absurd (h2.eq_of_length (Nat.le_antisymm h2.length_le h)) hw
      have hpos : 0 < w.length := List.length_pos_of_ne_nil h1
      have hshort : (v.drop w.length).length < v.length := by rw [List.length_drop]; omega
      refine ⟨⟨⟨h1, h2, Or.inl ?_⟩, ?_⟩, ?_, ?_⟩
      · rcases h3 with h3 | ⟨-, h3⟩
        · rwa [register_dictWord, if_neg hw] at h3
        · refine absurd ?_ (h3 v hv (List.prefix_refl v))
          rw [register_dictWord, if_pos rfl]; exact hf
      · exact (admissible_register_short freq v f ws _ hshort).mp h4
      · cases ws with
        | nil =>
          have : v.drop w.length = [] := h4
          rw [List.drop_eq_nil_iff] at this
          omega
        | cons x xs => simp
      · intro x hx
        rcases List.mem_cons.mp hx with rfl | hx
        · exact hw
        · have := admissible_short_ne _ ws _ v.length hshort h4 x hx
          rintro rfl
          exact absurd this (lt_irrefl _)

/-- Probability of a segmentation without `v` after registering `v`. -/
theorem segProb_register (freq : Freq) (v : Str) (f : Int) (total total' : Int) (ht : 0 < total) (ws : List Str)
    (h : ∀ w ∈ ws, w ≠ v) :
    segProb (register freq v f) total' ws = segProb freq total ws * ((total : ℝ) / total') ^ ws.length := by
  induction ws with
  | nil => simp [segProb]
  | cons w ws ih =>
    have ih := ih (fun x hx => h x (List.mem_cons_of_mem _ hx))
    have ht' : (total : ℝ) ≠ 0 := by exact_mod_cast ne_of_gt ht
    unfold segProb at ih ⊢
    rw [List.map_cons, List.prod_cons, ih, List.map_cons, List.prod_cons, scoreFreq_register _ _ _ _ (h w (by simp)),
      List.length_cons, pow_succ]
    field_simp

/-- Two ways the best segmentation of `v` gets away: through words with frequency 0, which count as 1. -/
theorem prod_bound (freq : Freq) (hn : NonNeg freq) (total : Int) (ht : 0 < total)
    (hb : ∀ w x, freq.get? w = some x → x ≤ total) (ws : List Str) :
    (ws.map (fun s => (((freq.get? s).getD 1 : Int) : ℝ) / total)).prod = segProb freq total ws ∨
      segProb freq total ws * total ≤ 1 := by
  have htR : (0 : ℝ) < total := by exact_mod_cast ht
  by_cases h : ∃ w ∈ ws, freq.get? w = some 0
  · right
    obtain ⟨w, hw, h0⟩ := h
    have hle : ∀ x, (0 : ℝ) ≤ (scoreFreq freq x : ℝ) / total ∧ (scoreFreq freq x : ℝ) / total ≤ 1 := by
      intro x
      have hpos := scoreFreq_pos freq hn x
      refine ⟨div_nonneg (by exact_mod_cast le_of_lt hpos) (le_of_lt htR), ?_⟩
      rw [div_le_one htR]
      have : scoreFreq freq x ≤ total := by
        unfold scoreFreq
        split
        · rename_i y hy
          have := hb x y hy
          split <;> omega
        · omega
      exact_mod_cast this
    have h1 : ∀ l : List Str, 0 ≤ segProb freq total l ∧ segProb freq total l ≤ 1 := by
      intro l
      induction l with
      | nil => simp [segProb]
      | cons y l ih =>
        have e : segProb freq total (y :: l) = (scoreFreq freq y : ℝ) / total * segProb freq total l := by simp [segProb]
        rw [e]
        exact ⟨mul_nonneg (hle y).1 ih.1, mul_le_one₀ (hle y).2 ih.1 ih.2⟩
    obtain ⟨a, b, rfl⟩ := List.append_of_mem hw
    have e : segProb freq total (a ++ w :: b) = segProb freq total a * ((scoreFreq freq w : ℝ) / total * segProb freq total b) := by
      simp [segProb]
    have e2 : scoreFreq freq w = 1 := by unfold scoreFreq; rw [h0]; rfl
    rw [e, e2]
    have : segProb freq total a * (((1 : Int) : ℝ) / total * segProb freq total b) * total =
        segProb freq total a * segProb freq total b := by
      field_simp; simp
    rw [this]
    exact mul_le_one₀ (h1 a).2 (h1 b).1 (h1 b).2
  · left
    unfold segProb
    congr 1
    apply List.map_congr_left
    intro w hw
    congr 2
    unfold scoreFreq
    cases hg : PyDict.get? freq w with
    | none => rfl
    | some x =>
      have : x ≠ 0 := fun e => h ⟨w, hw, by rw [hg, e]⟩
      simp [this]

/-- The comparison at the heart of `suggest_freq`: with the suggested frequency `v` is the best segmentation of itself. -/
theorem isBest_after_suggest (freq : Freq) (total : Int) (hn : NonNeg freq) (ht : 0 < total)
    (v : Str) (hv : v ≠ []) (f : Int) (hf : 1 ≤ f) (ts : List Str)
    (hmax : ∀ other, Admissible freq v other → segProb freq total other ≤ segProb freq total ts)
    (hq : segProb freq total ts * total ≤ f) :
    IsBest realArith (register freq v f) (total + f) v [v] := by
  have hn' : NonNeg (register freq v f) := nonNeg_register _ _ _ hn (by omega)
  have ht' : 0 < total + f := by omega
  refine ⟨⟨hv, List.prefix_refl _, Or.inl ?_⟩, by rw [List.drop_length]; rfl, ?_⟩
  · rw [register_dictWord, if_pos rfl]; omega
  · intro w ws hadm
    have hwlen : w.length ≤ v.length := hadm.1.2.1.length_le
    obtain ⟨p1, e1⟩ := segScore_real (register freq v f) hn' (total + f) ht' (w :: ws)
    obtain ⟨p2, e2⟩ := segScore_real (register freq v f) hn' (total + f) ht' [v]
    have hle : segProb (register freq v f) (total + f) (w :: ws) ≤ segProb (register freq v f) (total + f) [v] := by
      rcases admissible_register_self freq v hv f (by omega) _ hadm with h | ⟨h1, h2, h3⟩
      · rw [h]
      · rw [segProb_register freq v f total (total + f) ht _ h3]
        have e : segProb (register freq v f) (total + f) [v] = (f : ℝ) / ((total + f : Int) : ℝ) := by
          simp [segProb, scoreFreq_register_self freq v f (by omega)]
        rw [e]
        have htR : (0 : ℝ) < total := by exact_mod_cast ht
        have htR' : (0 : ℝ) < ((total + f : Int) : ℝ) := by exact_mod_cast ht'
        have hr1 : (total : ℝ) / ((total + f : Int) : ℝ) ≤ 1 := by
          rw [div_le_one htR']; exact_mod_cast (by omega : total ≤ total + f)
        have hr0 : 0 ≤ (total : ℝ) / ((total + f : Int) : ℝ) := le_of_lt (div_pos htR htR')
        have hpow : ((total : ℝ) / ((total + f : Int) : ℝ)) ^ (w :: ws).length ≤ (total : ℝ) / ((total + f : Int) : ℝ) :=
          pow_le_of_le_one hr0 hr1 (by omega)
        have hp0 : 0 ≤ segProb freq total (w :: ws) := le_of_lt (segScore_real freq hn total ht _).1
        calc segProb freq total (w :: ws) * ((total : ℝ) / ((total + f : Int) : ℝ)) ^ (w :: ws).length
            ≤ segProb freq total ts * ((total : ℝ) / ((total + f : Int) : ℝ)) :=
              mul_le_mul (hmax _ h1) hpow (pow_nonneg hr0 _) (le_trans hp0 (hmax _ h1))
          _ = (segProb freq total ts * total) / ((total + f : Int) : ℝ) := by ring
          _ ≤ (f : ℝ) / ((total + f : Int) : ℝ) := by gcongr
    rcases lt_or_eq_of_le hle with h | h
    · left; rw [e1, e2]; exact Real.log_lt_log p1 h
    · right; refine ⟨by rw [e1, e2, h], hwlen⟩

/-- If the best path is the whole text, and the text has no ASCII letters/digits, the text comes out whole. -/
theorem cut_whole {F : Type _} [LinearOrder F] (E : Env F) (hA : MonoAdd E.A) (hp : PrefixClosed E.freq) (hn : NonNeg E.freq)
    (ht : 0 < E.total) (v : Str) (hv : v ≠ []) (hs : ∀ c ∈ v, isWordCh c = true ∧ isAlnum c = false)
    (hbest : IsBest E.A E.freq E.total v [v]) (hm : Bool) : cut E false hm v = Gen.ok [v] := by
  have hs' : ∀ c ∈ v, isWordCh c = true := fun c hc => (hs c hc).1
  cases hm with
  | false =>
    obtain ⟨path, ts, h1, h2, h3⟩ := C05_cut_follows_best_path E hA hp hn ht v hv hs'
    have := isBest_unique _ _ _ _ _ _ h1 hbest
    subst this
    rw [h2, regrouped_no_single h3]
    rintro w hw ⟨c, rfl, hc⟩
    have : [c] = v := by simpa using hw
    have := (hs c (by rw [← this]; simp)).2
    rw [hc] at this; exact Bool.noConfusion this
  | true =>
    obtain ⟨path, ts, h1, h2, h3⟩ := hmm_regrouped E hA hp hn ht v hv hs'
    have := isBest_unique _ _ _ _ _ _ h1 hbest
    subst this
    rw [h2]
    by_cases hl : v.length = 1
    · have hnil : ∀ path ts, Regrouped (fun w : Str => w.length = 1)
          (fun r => if r.length = 1 ∨ DictWord E.freq r.flatten then r
                    else (FinalSeg.cut E.A E.tables E.force r.flatten).out) path ts → path = [] → ts = [] := by
        intro path ts h
        cases h with
        | nil => intro _; rfl
        | word w ps ts hw _ => intro h; simp at h
        | run r ps ts hr1 hr2 _ h4 => intro h; exact absurd (List.append_eq_nil_iff.mp h).1 hr1
      have key : ∀ path ts, Regrouped (fun w : Str => w.length = 1)
          (fun r => if r.length = 1 ∨ DictWord E.freq r.flatten then r
                    else (FinalSeg.cut E.A E.tables E.force r.flatten).out) path ts → path = [v] → ts = [v] := by
        intro path ts h
        cases h with
        | nil => intro h; exact h
        | word w ps ts hw _ => intro h; injection h with h _; subst h; exact absurd hl hw
        | run r ps ts hr1 hr2 _ h4 =>
          intro h
          cases r with
          | nil => exact absurd rfl hr1
          | cons x r =>
            injection h with h h'
            obtain ⟨rfl, rfl⟩ := List.append_eq_nil_iff.mp h'
            rw [hnil _ _ h4 rfl, h]; simp
      rw [key _ _ h3 rfl]
    · rw [regrouped_no_single h3]
      intro w hw
      have : w = v := by simpa using hw
      rw [this]; exact hl

end Jieba
