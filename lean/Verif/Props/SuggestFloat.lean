import Mathlib.Data.Nat.Prime.Int
import Mathlib.Tactic.NormNum.Prime
import Verif.Proofs.SuggestRound
import Verif.Props.SuggestValue
import Verif.Props.Ieee
import Verif.Props.SampleKeywords
/-!
# C103 — the value of `suggest_freq` with IEEE doubles
-/

namespace Jieba.Props
open Jieba Jieba.Spec

/-- The expected number of occurrences of the segments one after the other, `total · ∏ (freq / total)`, not rounded. -/
def exactNumber (freq : Freq) (total : Int) (ss : List Str) : ℚ := (((ss.map (segFreq freq)).prod : Int) : ℚ) / ((total ^ (ss.length - 1) : Int) : ℚ)

theorem floor_exactNumber (freq : Freq) (total : Int) (ht : 0 < total) (ss : List Str) : ⌊exactNumber freq total ss⌋ = expected freq total ss := by
  unfold exactNumber expected
  rw [Int.floor_div_cast_of_nonneg (by positivity), Int.floor_intCast]

theorem exactNumber_eq (freq : Freq) (total : Int) (ht : 0 < total) (ss : List Str) (hne : ss ≠ []) :
    (ss.map (fun s => (((freq.get? s).getD 1 : Int) : ℚ) / total)).prod * total = exactNumber freq total ss := by
  have htR : (0 : ℚ) < total := by exact_mod_cast ht
  have hprod : ∀ l : List Str, (l.map (fun s => (((freq.get? s).getD 1 : Int) : ℚ) / total)).prod =
      (((l.map (segFreq freq)).prod : Int) : ℚ) / (total : ℚ) ^ l.length := by
    intro l
    induction l with
    | nil => simp
    | cons s l ih =>
      simp only [List.map_cons, List.prod_cons, ih, List.length_cons, segFreq]
      push_cast
      rw [pow_succ]
      field_simp
  obtain ⟨k, hk⟩ : ∃ k, ss.length = k + 1 := ⟨ss.length - 1, by have := List.length_pos_iff.mpr hne; omega⟩
  unfold exactNumber
  rw [hprod, hk]
  push_cast
  rw [pow_succ]
  field_simp

theorem exactNumber_nonneg (freq : Freq) (hn : NonNeg freq) (total : Int) (ht : 0 < total) (ss : List Str) : 0 ≤ exactNumber freq total ss := by
  unfold exactNumber
  refine div_nonneg ?_ (by exact_mod_cast (pow_pos ht _).le)
  have : 0 ≤ (ss.map (segFreq freq)).prod := by
    apply List.prod_nonneg
    intro x hx
    obtain ⟨s, -, rfl⟩ := List.mem_map.mp hx
    exact segFreq_nonneg freq hn s
  exact_mod_cast this

/-- The number that IEEE doubles give: `int` of something close to the exact number. -/
theorem expectFreq_close (log : Nat → ℚ) (over : ℚ → ℚ) (freq : Freq) (total : Int) (ht : 0 < total) (hT : total ≤ 2 ^ 53)
    (hf : ∀ v x, freq.get? v = some x → 0 ≤ x ∧ x ≤ total) (ss : List Str) (hne : ss ≠ []) (hlen : ss.length ≤ 2 ^ 43) :
    ∃ x : ℚ, expectFreq (ieeeArith log over) freq total ss = .ok ⌊x⌋ ∧ 0 ≤ x ∧
      exactNumber freq total ss * (1 - (2 * ss.length + 1) / 2 ^ 53) ≤ x ∧ x ≤ exactNumber freq total ss * (1 + (4 * ss.length + 2) / 2 ^ 53) := by
  rw [expectFreq_ieee log over freq total ht hT hf, ← exactNumber_eq freq total ht ss hne]
  refine expectFreq_two_sided log freq total ht hT ss hne hlen ?_
  intro s _
  cases h : PyDict.get? freq s with
  | none => simp
  | some x => have := hf s x h; simp; omega

/-- C103: computed with IEEE doubles, `suggest_freq` of a tuple of `n` segments returns `⌊x⌋` (or the present frequency of the joined word, if that is less)
for an `x` that differs from the expected number by at most the fraction `(4n+2)/2^53`. -/
theorem C103_split_close (log : Nat → ℚ) (over : ℚ → ℚ) (S : Sys ℚ) (hS : S.A = ieeeArith log over) (w w1 : World) (t : Nat)
    (segs : List PyText) (tune io : Bool) (hc : checkInit S w t io = (w1, .ok ())) (ht : 0 < (w1.tok t).total) (hT : (w1.tok t).total ≤ 2 ^ 53)
    (hf : ∀ v x, (w1.tok t).freq.get? v = some x → 0 ≤ x ∧ x ≤ (w1.tok t).total) (hne : segs ≠ []) (hlen : segs.length ≤ 2 ^ 43)
    (ss : List Str) (hss : segs.map (strdecode S.gbk) = ss) :
    ∃ x : ℚ, (suggestFreq S w t (.tuple segs) tune io).2 = .ok (min ⌊x⌋ (((w1.tok t).freq.get? ss.flatten).getD 0)) ∧ 0 ≤ x ∧
      |x - exactNumber (w1.tok t).freq (w1.tok t).total ss| ≤ exactNumber (w1.tok t).freq (w1.tok t).total ss * (4 * ss.length + 2) / 2 ^ 53 := by
  have hl : ss.length = segs.length := by rw [← hss, List.length_map]
  obtain ⟨x, h1, h2, h3, h4⟩ := expectFreq_close log over (w1.tok t).freq (w1.tok t).total ht hT hf ss (by rw [← hss]; simpa using hne) (by omega)
  refine ⟨x, ?_, h2, ?_⟩
  · unfold suggestFreq
    rw [hc]
    simp only [suggestCore, suggestSplit, hss, hS, h1]
    rfl
  · have h0 := exactNumber_nonneg (w1.tok t).freq (fun v x hv => (hf v x hv).1) (w1.tok t).total ht ss
    generalize exactNumber (w1.tok t).freq (w1.tok t).total ss = P at *
    have hk : (0 : ℚ) ≤ P * (2 * (ss.length : ℚ) + 1) / 2 ^ 53 := by positivity
    have e1 : P * (1 - (2 * (ss.length : ℚ) + 1) / 2 ^ 53) = P - P * (2 * (ss.length : ℚ) + 1) / 2 ^ 53 := by ring
    have e2 : P * (1 + (4 * (ss.length : ℚ) + 2) / 2 ^ 53) = P + P * (4 * (ss.length : ℚ) + 2) / 2 ^ 53 := by ring
    have e3 : P * (4 * (ss.length : ℚ) + 2) / 2 ^ 53 = 2 * (P * (2 * (ss.length : ℚ) + 1) / 2 ^ 53) := by ring
    rw [e1] at h3
    rw [e2, e3] at h4
    rw [e3, abs_le]
    constructor <;> linarith

/-- C103: and for a text, whose segments are the tokens of `cut(word, HMM=False)`, one more than that. -/
theorem C103_word_close (log : Nat → ℚ) (over : ℚ → ℚ) (S : Sys ℚ) (hS : S.A = ieeeArith log over) (w w1 : World) (t : Nat)
    (word : Str) (tune io : Bool) (hc : checkInit S w t io = (w1, .ok ())) (ht : 0 < (w1.tok t).total) (hT : (w1.tok t).total ≤ 2 ^ 53)
    (hf : ∀ v x, (w1.tok t).freq.get? v = some x → 0 ≤ x ∧ x ≤ (w1.tok t).total) (hne : word ≠ []) (hlen : word.length ≤ 2 ^ 43) :
    ∃ ts, (cutW S w1 t false false (.str word) io).2 = Gen.ok ts ∧ IsSegmentation ts word ∧
      ∃ x : ℚ, (suggestFreq S w t (.text (.str word)) tune io).2 = .ok (max (⌊x⌋ + 1) (((w1.tok t).freq.get? word).getD 1)) ∧ 0 ≤ x ∧
        |x - exactNumber (w1.tok t).freq (w1.tok t).total ts| ≤ exactNumber (w1.tok t).freq (w1.tok t).total ts * (4 * ts.length + 2) / 2 ^ 53 := by
  have hn : NonNeg (w1.tok t).freq := fun v x hv => (hf v x hv).1
  have hi := checkInit_initialized S w w1 t io hc
  have herr := C06_cut_never_raises (w1.env S t) hn ht false false word
  have hl := cut_lossless (w1.env S t) false word
  have hseg : IsSegmentation (cut (w1.env S t) false false word).out word := ⟨hl.complete herr, hl.nonempty⟩
  have hne' : (cut (w1.env S t) false false word).out ≠ [] := by
    intro h0
    have := hseg.1
    rw [h0] at this; exact hne (by simpa using this.symm)
  have hcount : ∀ l : List Str, (∀ x ∈ l, x ≠ []) → l.length ≤ l.flatten.length := by
    intro l
    induction l with
    | nil => simp
    | cons x l ih =>
      intro h
      have h1 := List.length_pos_of_ne_nil (h x (by simp))
      have h2 := ih (fun y hy => h y (List.mem_cons_of_mem _ hy))
      simp only [List.length_cons, List.flatten_cons, List.length_append]; omega
  have hlen' : (cut (w1.env S t) false false word).out.length ≤ 2 ^ 43 := by
    have := hcount _ hl.nonempty
    rw [hl.complete herr] at this
    omega
  obtain ⟨x, h1, h2, h3, h4⟩ := expectFreq_close log over (w1.tok t).freq (w1.tok t).total ht hT hf _ hne' hlen'
  refine ⟨_, ?_, hseg, x, ?_, h2, ?_⟩
  · rw [cutW_of_init _ _ _ _ _ _ _ hi]
    show cut (w1.env S t) false false word = _
    cases h : cut (w1.env S t) false false word with
    | mk o e => rw [h] at herr; simp at herr; rw [herr]; rfl
  · unfold suggestFreq
    rw [hc]
    simp only [suggestCore, suggestWord, hS]
    rw [h1]
    simp only [herr]
    rfl
  · have h0 := exactNumber_nonneg (w1.tok t).freq hn (w1.tok t).total ht (cut (w1.env S t) false false word).out
    generalize exactNumber (w1.tok t).freq (w1.tok t).total (cut (w1.env S t) false false word).out = P at *
    generalize ((cut (w1.env S t) false false word).out.length : ℚ) = n at *
    have hk : (0 : ℚ) ≤ P * (4 * n + 2) / 2 ^ 53 := by
      by_contra hneg
      have : x < 0 ∨ P * (1 + (4 * n + 2) / 2 ^ 53) < P * (1 - (2 * n + 1) / 2 ^ 53) := by
        right
        have e : P * (1 + (4 * n + 2) / 2 ^ 53) - P * (1 - (2 * n + 1) / 2 ^ 53) = 3 / 2 * (P * (4 * n + 2) / 2 ^ 53) := by ring
        linarith
      rcases this with h | h
      · exact absurd h2 (not_le.mpr h)
      · exact absurd (h3.trans h4) (not_le.mpr h)
    have e1 : P * (1 - (2 * n + 1) / 2 ^ 53) = P - P * (4 * n + 2) / 2 ^ 53 / 2 := by ring
    have e2 : P * (1 + (4 * n + 2) / 2 ^ 53) = P + P * (4 * n + 2) / 2 ^ 53 := by ring
    rw [e1] at h3
    rw [e2] at h4
    rw [abs_le]
    constructor <;> linarith

theorem segFreq_le (freq : Freq) (total : Int) (ht : 0 < total) (hf : ∀ v x, freq.get? v = some x → 0 ≤ x ∧ x ≤ total) (s : Str) :
    0 ≤ segFreq freq s ∧ segFreq freq s ≤ total := by
  unfold segFreq
  cases h : PyDict.get? freq s with
  | none => simp; omega
  | some x => simpa using hf s x h

theorem exactNumber_le (freq : Freq) (total : Int) (ht : 0 < total) (hf : ∀ v x, freq.get? v = some x → 0 ≤ x ∧ x ≤ total) (ss : List Str) (hne : ss ≠ []) :
    exactNumber freq total ss ≤ total := by
  unfold exactNumber
  have htq : (0 : ℚ) < total := by exact_mod_cast ht
  have key : ∀ l : List Str, (l.map (segFreq freq)).prod ≤ total ^ l.length := by
    intro l
    induction l with
    | nil => simp
    | cons s l ih =>
      obtain ⟨h1, h2⟩ := segFreq_le freq total ht hf s
      simp only [List.map_cons, List.prod_cons, List.length_cons, pow_succ]
      rw [mul_comm]
      exact mul_le_mul ih h2 h1 (by positivity)
  obtain ⟨k, hk⟩ : ∃ k, ss.length = k + 1 := ⟨ss.length - 1, by have := List.length_pos_iff.mpr hne; omega⟩
  have h := key ss
  rw [hk, pow_succ] at h
  rw [hk, Nat.add_sub_cancel, div_le_iff₀ (by exact_mod_cast pow_pos ht k)]
  rw [mul_comm] at h
  exact_mod_cast h

/-- C103: with up to 1000 segments and a total of up to 2^40 the value is off by at most one. -/
theorem C103_off_by_at_most_one (log : Nat → ℚ) (over : ℚ → ℚ) (S : Sys ℚ) (hS : S.A = ieeeArith log over) (w w1 : World) (t : Nat)
    (segs : List PyText) (tune io : Bool) (hc : checkInit S w t io = (w1, .ok ())) (ht : 0 < (w1.tok t).total) (hT : (w1.tok t).total ≤ 2 ^ 40)
    (hf : ∀ v x, (w1.tok t).freq.get? v = some x → 0 ≤ x ∧ x ≤ (w1.tok t).total) (hne : segs ≠ []) (hlen : segs.length ≤ 1000)
    (ss : List Str) (hss : segs.map (strdecode S.gbk) = ss) :
    ∃ e : Int, (suggestFreq S w t (.tuple segs) tune io).2 = .ok (min e (((w1.tok t).freq.get? ss.flatten).getD 0)) ∧
      |e - expected (w1.tok t).freq (w1.tok t).total ss| ≤ 1 := by
  obtain ⟨x, h1, h2, h3⟩ := C103_split_close log over S hS w w1 t segs tune io hc ht (by omega) hf hne (by omega) ss hss
  refine ⟨⌊x⌋, h1, ?_⟩
  have hl : (ss.length : ℚ) ≤ 1000 := by
    have : ss.length ≤ 1000 := by rw [← hss, List.length_map]; exact hlen
    exact_mod_cast this
  have hP := exactNumber_le (w1.tok t).freq (w1.tok t).total ht hf ss (by rw [← hss]; simpa using hne)
  have hP0 := exactNumber_nonneg (w1.tok t).freq (fun v x hv => (hf v x hv).1) (w1.tok t).total ht ss
  rw [← floor_exactNumber (w1.tok t).freq (w1.tok t).total ht ss]
  have hTq : ((w1.tok t).total : ℚ) ≤ 2 ^ 40 := by exact_mod_cast hT
  generalize exactNumber (w1.tok t).freq (w1.tok t).total ss = P at *
  have hd : P * (4 * (ss.length : ℚ) + 2) / 2 ^ 53 ≤ 1 := by
    rw [div_le_iff₀ (by norm_num)]
    calc P * (4 * (ss.length : ℚ) + 2) ≤ 2 ^ 40 * 4002 := mul_le_mul (hP.trans hTq) (by linarith) (by positivity) (by norm_num)
      _ ≤ 1 * 2 ^ 53 := by norm_num
  obtain ⟨a1, a2⟩ := abs_le.mp (h3.trans hd)
  rw [abs_le]
  have b1 := Int.floor_le_floor (show P ≤ x + 1 by linarith)
  have b2 := Int.floor_le_floor (show x ≤ P + 1 by linarith)
  rw [Int.floor_add_one] at b1 b2
  constructor <;> omega

/-- The numbers behind the next theorem. -/
theorem floor_pair (m T : ℤ) (hT : 0 < T) (hm : 0 ≤ m) (hb : 10 * m < 2 ^ 53) (x : ℚ) (h : |x - (m : ℚ) / T| ≤ (m : ℚ) / T * 10 / 2 ^ 53) :
    ⌊x⌋ = m / T ∨ (T ∣ m ∧ m ≠ 0 ∧ ⌊x⌋ = m / T - 1) := by
  have hTq : (0 : ℚ) < T := by exact_mod_cast hT
  have hmq : (0 : ℚ) ≤ m := by exact_mod_cast hm
  have hbq : 10 * (m : ℚ) < 2 ^ 53 := by exact_mod_cast hb
  have herr : (m : ℚ) / T * 10 / 2 ^ 53 < 1 / T := by
    rw [div_lt_div_iff₀ (by norm_num) hTq]
    rw [div_mul_eq_mul_div, div_mul_eq_mul_div, div_lt_iff₀ hTq]
    nlinarith
  rcases hm.eq_or_lt with h0 | hpos
  · subst h0
    left
    simp only [Int.cast_zero, zero_div, sub_zero, zero_mul] at h
    have : x = 0 := abs_eq_zero.mp (le_antisymm h (abs_nonneg _))
    rw [this]; simp
  obtain ⟨a1, a2⟩ := abs_le.mp h
  have hdm := Int.emod_add_mul_ediv m T
  have hr0 := Int.emod_nonneg m hT.ne'
  have hr1 := Int.emod_lt_of_pos m hT
  generalize hq : m / T = q at *
  generalize hr : m % T = r at *
  have hmT : (m : ℚ) / T = q + (r : ℚ) / T := by
    have : (m : ℚ) = r + T * q := by exact_mod_cast hdm.symm
    rw [this]; field_simp; ring
  rw [hmT] at a1 a2 herr
  have hup : x < q + 1 := by
    have : (r : ℚ) / T ≤ 1 - 1 / T := by
      rw [div_le_iff₀ hTq, sub_mul, one_mul, one_div, inv_mul_cancel₀ hTq.ne']
      have : r + 1 ≤ T := by omega
      have : (r : ℚ) + 1 ≤ T := by exact_mod_cast this
      linarith
    linarith
  by_cases hr00 : r = 0
  · subst hr00
    have hone : (1 : ℚ) / T ≤ 1 := by
      rw [div_le_one hTq]; exact_mod_cast hT
    simp only [Int.cast_zero, zero_div, add_zero] at a1 a2 herr
    by_cases hx : (q : ℚ) ≤ x
    · left
      rw [Int.floor_eq_iff]
      exact ⟨hx, hup⟩
    · right
      refine ⟨⟨q, by omega⟩, by omega, ?_⟩
      rw [Int.floor_eq_iff]
      push_cast
      constructor
      · linarith
      · have := not_le.mp hx
        linarith
  · left
    have : (1 : ℚ) / T ≤ (r : ℚ) / T := by
      apply div_le_div_of_nonneg_right _ hTq.le
      have : 1 ≤ r := by omega
      exact_mod_cast this
    rw [Int.floor_eq_iff]
    exact ⟨by linarith, hup⟩

/-- C103: for two segments whose frequencies have a product below 2^53/10 the value is the documented one, or one less when the product is a multiple
of the total. -/
theorem C103_pair (log : Nat → ℚ) (over : ℚ → ℚ) (S : Sys ℚ) (hS : S.A = ieeeArith log over) (w w1 : World) (t : Nat)
    (a b : PyText) (tune io : Bool) (hc : checkInit S w t io = (w1, .ok ())) (ht : 0 < (w1.tok t).total) (hT : (w1.tok t).total ≤ 2 ^ 53)
    (hf : ∀ v x, (w1.tok t).freq.get? v = some x → 0 ≤ x ∧ x ≤ (w1.tok t).total) (m : Int)
    (hm : m = segFreq (w1.tok t).freq (strdecode S.gbk a) * segFreq (w1.tok t).freq (strdecode S.gbk b)) (hb : 10 * m < 2 ^ 53) :
    ∃ e : Int, (suggestFreq S w t (.tuple [a, b]) tune io).2 = .ok (min e (((w1.tok t).freq.get? (strdecode S.gbk a ++ strdecode S.gbk b)).getD 0)) ∧
      (e = m / (w1.tok t).total ∨ ((w1.tok t).total ∣ m ∧ m ≠ 0 ∧ e = m / (w1.tok t).total - 1)) := by
  obtain ⟨x, h1, h2, h3⟩ := C103_split_close log over S hS w w1 t [a, b] tune io hc ht hT hf (by simp) (by norm_num) _ rfl
  have hP : exactNumber (w1.tok t).freq (w1.tok t).total ([a, b].map (strdecode S.gbk)) = (m : ℚ) / (w1.tok t).total := by
    unfold exactNumber
    simp [hm]
  rw [hP] at h3
  refine ⟨⌊x⌋, ?_, ?_⟩
  · rw [h1]; simp
  · refine floor_pair m _ ht ?_ hb x (h3.trans (le_of_eq ?_))
    · rw [hm]
      exact mul_nonneg (segFreq_le _ _ ht hf _).1 (segFreq_le _ _ ht hf _).1
    · simp only [List.map_cons, List.map_nil, List.length_cons, List.length_nil]
      norm_num

/-! ## The small dictionary -/

theorem prime_of_total : Prime (31242793 : Int) := Nat.prime_iff_prime_int.mp (by norm_num : Nat.Prime 31242793)

/-- C103: with dict.txt.small, for any two segments, the value is the documented one: rounding never matters there, because the total is twice a prime number
that is greater than every frequency. -/
theorem C103_small_pair (log : Nat → ℚ) (over : ℚ → ℚ) (S : Sys ℚ) (hS : S.A = ieeeArith log over) (w w1 : World) (t : Nat)
    (a b : PyText) (tune io : Bool) (hc : checkInit S w t io = (w1, .ok ())) (hs : SmallTable (w1.tok t).freq) (ht : (w1.tok t).total = 62485586) :
    (suggestFreq S w t (.tuple [a, b]) tune io).2 =
      .ok (min (segFreq (w1.tok t).freq (strdecode S.gbk a) * segFreq (w1.tok t).freq (strdecode S.gbk b) / 62485586)
        (((w1.tok t).freq.get? (strdecode S.gbk a ++ strdecode S.gbk b)).getD 0)) := by
  have hseg : ∀ s, 0 ≤ segFreq (w1.tok t).freq s ∧ segFreq (w1.tok t).freq s ≤ 3188252 := by
    intro s
    unfold segFreq
    cases h : PyDict.get? (w1.tok t).freq s with
    | none => simp
    | some x => simpa using hs.get s x h
  have hb : 10 * (segFreq (w1.tok t).freq (strdecode S.gbk a) * segFreq (w1.tok t).freq (strdecode S.gbk b)) < 2 ^ 53 := by
    have : segFreq (w1.tok t).freq (strdecode S.gbk a) * segFreq (w1.tok t).freq (strdecode S.gbk b) ≤ 3188252 * 3188252 :=
      mul_le_mul (hseg _).2 (hseg _).2 (hseg _).1 (by norm_num)
    omega
  obtain ⟨e, h1, h2⟩ := C103_pair log over S hS w w1 t a b tune io hc (by omega) (by omega) (fun v x hv => by have := hs.get v x hv; omega) _ rfl hb
  rw [h1]
  rw [ht] at h2
  rcases h2 with rfl | ⟨h2, h3, -⟩
  · rfl
  · exfalso
    have hsmall : ∀ s, (31242793 : Int) ∣ segFreq (w1.tok t).freq s → segFreq (w1.tok t).freq s = 0 := by
      intro s hd
      have := hseg s
      by_contra hne
      have := Int.le_of_dvd (by omega) hd
      omega
    rcases prime_of_total.dvd_or_dvd (Dvd.dvd.trans (by norm_num) h2) with h | h
    · rw [hsmall _ h, zero_mul] at h3; exact h3 rfl
    · rw [hsmall _ h, mul_zero] at h3; exact h3 rfl

/-- C103: with dict.txt.small, `suggest_freq((a, b), tune=True)` keeps its promise for any two segments of Han characters that are not both frequent (the product of
their frequencies is less than 62485586): with IEEE doubles, no cut in accurate mode, with or without HMM, outputs `ab` any more. -/
theorem C103_small_split (log : Nat → ℚ) (over : ℚ → ℚ) (S : Sys ℚ) (hS : S.A = ieeeArith log over) (w w1 : World) (t : Nat)
    (a b : Str) (io : Bool) (hc : checkInit S w t io = (w1, .ok ())) (hs : SmallTable (w1.tok t).freq) (ht : (w1.tok t).total = 62485586)
    (ha : a ≠ []) (hb : b ≠ []) (hh : ∃ c ∈ a ++ b, isHan c = true)
    (hm : segFreq (w1.tok t).freq a * segFreq (w1.tok t).freq b < 62485586) :
    ∃ w', suggestFreq S w t (.tuple [.str a, .str b]) true io = (w', .ok 0) ∧
      ∀ hmm text io', a ++ b ∉ (cutW S w' t false hmm text io').2.out := by
  have h1 := C103_small_pair log over S hS w w1 t (.str a) (.str b) true io hc hs ht
  simp only [strdecode] at h1
  rw [Int.ediv_eq_zero_of_lt (mul_nonneg (segFreq_nonneg _ hs.nonNeg _) (segFreq_nonneg _ hs.nonNeg _)) hm] at h1
  have hold : 0 ≤ ((w1.tok t).freq.get? (a ++ b)).getD 0 := by
    cases h : PyDict.get? (w1.tok t).freq (a ++ b) with
    | none => simp
    | some x => simpa using (hs.get _ x h).1
  rw [min_eq_left hold] at h1
  have hsf : suggestFreq S w t (.tuple [.str a, .str b]) true io = ((suggestFreq S w t (.tuple [.str a, .str b]) true io).1, .ok 0) := by
    rw [← h1]
  refine ⟨_, hsf, ?_⟩
  intro hmm text io'
  refine C28_zero_forces_split S w _ t _ io hsf (a ++ b) (by simp [strdecode]) ?_ hh hmm text io'
  have := List.length_pos_of_ne_nil ha
  have := List.length_pos_of_ne_nil hb
  rw [List.length_append]; omega

/-! ## Examples -/

/-- A system that computes with IEEE doubles. -/
def ieeeSys : Sys ℚ := { ratSys with A := ieeeArith (fun n => n) (fun x => 4 * x) }

/-- 中 and 将 with the given frequencies, and 中将. -/
def pairFreq (a b : Int) : Freq := [(lit ['中'], a), (lit ['将'], b), (lit ['中', '将'], 2 ^ 28)]

/-- C103: one less does occur: with total 15 and frequencies 9 and 5 the expected number is 3, the value 2. -/
theorem C103_one_less : (suggestFreq ieeeSys (readyWorld (pairFreq 9 5) 15) 0 (.tuple [.str (lit ['中']), .str (lit ['将'])]) false true).2 = .ok 2 ∧
    expected (pairFreq 9 5) 15 [lit ['中'], lit ['将']] = 3 := ⟨by decide +kernel, by decide +kernel⟩

/-- C103: without the bound on the product, one more does occur, too. -/
theorem C103_one_more :
    (suggestFreq ieeeSys (readyWorld (pairFreq (2 ^ 27 - 1) (2 ^ 27 + 1)) (2 ^ 28)) 0 (.tuple [.str (lit ['中']), .str (lit ['将'])]) false true).2 = .ok (2 ^ 26) ∧
    expected (pairFreq (2 ^ 27 - 1) (2 ^ 27 + 1)) (2 ^ 28) [lit ['中'], lit ['将']] = 2 ^ 26 - 1 := ⟨by decide +kernel, by decide +kernel⟩

/-- The hypotheses of `C103_split_close`, `C103_off_by_at_most_one` and `C103_pair`. -/
example : checkInit ieeeSys (readyWorld [(lit ['中'], 9), (lit ['将'], 5)] 15) 0 true = (readyWorld [(lit ['中'], 9), (lit ['将'], 5)] 15, .ok ()) ∧
    (∀ v x, PyDict.get? [(lit ['中'], (9 : Int)), (lit ['将'], 5)] v = some x → 0 ≤ x ∧ x ≤ 15) ∧
    10 * (segFreq [(lit ['中'], 9), (lit ['将'], 5)] (lit ['中']) * segFreq [(lit ['中'], 9), (lit ['将'], 5)] (lit ['将'])) < 2 ^ 53 := by
  refine ⟨rfl, ?_, by decide⟩
  intro v x hv
  have key : ∀ kv ∈ [(lit ['中'], (9 : Int)), (lit ['将'], 5)], 0 ≤ kv.2 ∧ kv.2 ≤ 15 := by decide
  exact key (v, x) ((PyDict.get?_eq_some_iff_mem _ (by decide) _ _).mp hv)

/-- With the small dictionary: 帝国主义 is one of its words, and after `suggest_freq(("帝国", "主义"), tune=True)` it is not output any more. -/
example : ∃ (w : World) (w' : World), SmallTable (w.tok 0).freq ∧ (w.tok 0).freq.get? (lit ['帝', '国', '主', '义']) = some 5674 ∧
    suggestFreq ieeeSys w 0 (.tuple [.str (lit ['帝', '国']), .str (lit ['主', '义'])]) true true = (w', .ok 0) ∧
    ∀ hmm text io, lit ['帝', '国', '主', '义'] ∉ (cutW ieeeSys w' 0 false hmm text io).2.out := by
  obtain ⟨data, h⟩ := C101_encodes
  obtain ⟨d, -, hd⟩ := C101_load data h
  have h1 := hd.lines (lit ['帝', '国'], 3655, lit ['n']) (by decide +kernel)
  have h2 := hd.lines (lit ['主', '义'], 2416, lit ['n']) (by decide +kernel)
  have h3 := hd.lines (lit ['帝', '国', '主', '义'], 5674, lit ['n']) (by decide +kernel)
  have hs : SmallTable (((readyWorld d 62485586).tok 0).freq) := hd
  obtain ⟨w', k1, k2⟩ := C103_small_split (fun n => n) (fun x => 4 * x) ieeeSys rfl (readyWorld d 62485586) (readyWorld d 62485586) 0
    (lit ['帝', '国']) (lit ['主', '义']) true rfl hs rfl (by decide) (by decide) ⟨0x5E1D, by decide, by decide⟩
    (by show segFreq d _ * segFreq d _ < _; unfold segFreq; rw [h1, h2]; decide)
  exact ⟨readyWorld d 62485586, w', hs, h3, k1, k2⟩

end Jieba.Props
