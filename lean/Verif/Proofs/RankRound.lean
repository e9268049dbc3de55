import Verif.Proofs.RankDoubles
import Verif.Proofs.RankValues
/-!
# Rounding errors of TextRank
-/

namespace Jieba
open Jieba.Spec

/-- The factor by which one rounding may change a number, or its inverse. -/
def uu : ℚ := 2 ^ 53 / (2 ^ 53 - 1)

theorem uu_one : 1 ≤ uu := by unfold uu; norm_num
theorem uu_pow_one (k : ℕ) : 1 ≤ uu ^ k := one_le_pow₀ uu_one
theorem uu_pow_pos (k : ℕ) : 0 < uu ^ k := lt_of_lt_of_le one_pos (uu_pow_one k)

theorem uu_pow_le (m : ℕ) (h : m ≤ 2 ^ 45) : uu ^ m ≤ 1 + 2 * m / 2 ^ 53 := by
  induction m with
  | zero => simp
  | succ m ih =>
    have hm : (m : ℚ) ≤ 2 ^ 45 := by exact_mod_cast (by omega : m ≤ 2 ^ 45)
    have h0 : (0 : ℚ) ≤ m := Nat.cast_nonneg _
    rw [pow_succ]
    have h1 := mul_le_mul_of_nonneg_right (ih (by omega)) (le_trans zero_le_one uu_one)
    refine h1.trans ?_
    unfold uu
    push_cast
    rw [mul_div_assoc', div_le_iff₀ (by norm_num)]
    clear * - hm h0
    generalize (m : ℚ) = c at *
    linarith

/-- `y` is `x` up to `k` roundings. -/
def Within (k : ℕ) (x y : ℚ) : Prop := 0 ≤ x ∧ 0 ≤ y ∧ x ≤ y * uu ^ k ∧ y ≤ x * uu ^ k

theorem Within.refl {x : ℚ} (k : ℕ) (h : 0 ≤ x) : Within k x x :=
  ⟨h, h, le_mul_of_one_le_right h (uu_pow_one k), le_mul_of_one_le_right h (uu_pow_one k)⟩

theorem Within.mono {j k : ℕ} (hjk : j ≤ k) {x y : ℚ} (h : Within j x y) : Within k x y := by
  obtain ⟨h1, h2, h3, h4⟩ := h
  have hp := pow_le_pow_right₀ uu_one hjk
  exact ⟨h1, h2, h3.trans (mul_le_mul_of_nonneg_left hp h2), h4.trans (mul_le_mul_of_nonneg_left hp h1)⟩

theorem Within.rnd {k : ℕ} {x y : ℚ} (h : Within k x y) : Within (k + 1) x (rnd y) := by
  obtain ⟨h1, h2, h3, h4⟩ := h
  obtain ⟨e1, e2⟩ := abs_le.mp (rnd_err y)
  rw [abs_of_nonneg h2] at e1 e2
  have a1 : y ≤ Jieba.rnd y * uu := by
    unfold uu
    rw [mul_div_assoc', le_div_iff₀ (by norm_num)]
    have : y * (1 - 1 / 2 ^ 53) ≤ Jieba.rnd y := by linarith
    calc y * (2 ^ 53 - 1) = y * (1 - 1 / 2 ^ 53) * 2 ^ 53 := by ring
      _ ≤ Jieba.rnd y * 2 ^ 53 := mul_le_mul_of_nonneg_right this (by norm_num)
  have a2 : Jieba.rnd y ≤ y * uu := by
    have : y * (1 + 1 / 2 ^ 53) ≤ y * uu := mul_le_mul_of_nonneg_left (by unfold uu; norm_num) h2
    linarith
  refine ⟨h1, rnd_nonneg h2, ?_, ?_⟩
  · rw [pow_succ, mul_comm (uu ^ k), ← mul_assoc]
    exact h3.trans (mul_le_mul_of_nonneg_right a1 (uu_pow_pos k).le)
  · rw [pow_succ, ← mul_assoc]
    exact a2.trans (mul_le_mul_of_nonneg_right h4 (le_trans zero_le_one uu_one))

theorem Within.add {k : ℕ} {x y a b : ℚ} (h : Within k x y) (h' : Within k a b) : Within k (x + a) (y + b) := by
  obtain ⟨h1, h2, h3, h4⟩ := h
  obtain ⟨k1, k2, k3, k4⟩ := h'
  exact ⟨add_nonneg h1 k1, add_nonneg h2 k2, by rw [add_mul]; exact add_le_add h3 k3, by rw [add_mul]; exact add_le_add h4 k4⟩

theorem Within.mul {j k : ℕ} {x y a b : ℚ} (h : Within j x y) (h' : Within k a b) : Within (j + k) (x * a) (y * b) := by
  obtain ⟨h1, h2, h3, h4⟩ := h
  obtain ⟨k1, k2, k3, k4⟩ := h'
  refine ⟨mul_nonneg h1 k1, mul_nonneg h2 k2, ?_, ?_⟩
  · calc x * a ≤ y * uu ^ j * (b * uu ^ k) := mul_le_mul h3 k3 k1 (mul_nonneg h2 (uu_pow_pos j).le)
      _ = y * b * uu ^ (j + k) := by rw [pow_add]; ring
  · calc y * b ≤ x * uu ^ j * (a * uu ^ k) := mul_le_mul h4 k4 k2 (mul_nonneg h1 (uu_pow_pos j).le)
      _ = x * a * uu ^ (j + k) := by rw [pow_add]; ring

theorem Within.pos {k : ℕ} {x y : ℚ} (h : Within k x y) (hx : 0 < x) : 0 < y := by
  obtain ⟨-, h2, h3, -⟩ := h
  rcases h2.eq_or_lt with h | h
  · rw [← h, zero_mul] at h3; linarith
  · exact h

theorem Within.inv {k : ℕ} {x y : ℚ} (h : Within k x y) (hx : 0 < x) : Within k x⁻¹ y⁻¹ := by
  have hy := h.pos hx
  obtain ⟨h1, h2, h3, h4⟩ := h
  refine ⟨inv_nonneg.mpr h1, inv_nonneg.mpr h2, ?_, ?_⟩
  · rw [inv_mul_eq_div, le_div_iff₀ hy, inv_mul_eq_div, div_le_iff₀ hx, mul_comm]; exact h4
  · rw [inv_mul_eq_div, le_div_iff₀ hx, inv_mul_eq_div, div_le_iff₀ hy, mul_comm]; exact h3

theorem Within.div {j k : ℕ} {x y a b : ℚ} (h : Within j x y) (h' : Within k a b) (ha : 0 < a) : Within (j + k) (x / a) (y / b) := by
  rw [div_eq_mul_inv, div_eq_mul_inv]
  exact h.mul (h'.inv ha)

/-- Taking away something that is less than a tenth: at most twice as many roundings. -/
theorem Within.sub {k : ℕ} {x y a b : ℚ} (h : Within k x y) (h' : Within k a b) (ha : 10 * a ≤ x) (hk : k ≤ 2 ^ 45) :
    Within (2 * k) (x - a) (y - b) := by
  obtain ⟨h1, h2, h3, h4⟩ := h
  obtain ⟨k1, k2, k3, k4⟩ := h'
  have hU1 := uu_pow_one k
  have hU2 : uu ^ k ≤ 2 := by
    refine (uu_pow_le k hk).trans ?_
    have : (k : ℚ) ≤ 2 ^ 45 := by exact_mod_cast hk
    clear * - this
    generalize (k : ℚ) = c at *
    linarith
  rw [Within, two_mul, pow_add]
  generalize uu ^ k = U at *
  have hU : 0 < U := by linarith
  -- `y ≥ x / U`, `b ≤ a * U`
  have hy : x / U ≤ y := by rw [div_le_iff₀ hU]; exact h3
  have hb : a / U ≤ b := by rw [div_le_iff₀ hU]; exact k3
  have hUU : U * U ≤ 4 := by nlinarith
  have hxa : 10 * (a * (U * U + U + 1)) ≤ x * 7 := by
    have : a * (U * U + U + 1) ≤ a * 7 := mul_le_mul_of_nonneg_left (by linarith) k1
    linarith
  -- lower
  have low : (x - a) ≤ (x / U - a * U) * (U * U) := by
    have e : (x / U - a * U) * (U * U) = x * U - a * U * U * U := by field_simp
    rw [e]
    have e2 : x * U - a * U * U * U - (x - a) = (U - 1) * (x - a * (U * U + U + 1)) := by ring
    have : 0 ≤ (U - 1) * (x - a * (U * U + U + 1)) := mul_nonneg (by linarith) (by linarith)
    linarith
  refine ⟨by linarith, ?_, ?_, ?_⟩
  · have h5 : 0 ≤ x / U - a * U := by
      by_contra hneg
      have : (x / U - a * U) * (U * U) ≤ 0 := mul_nonpos_of_nonpos_of_nonneg (by linarith) (by positivity)
      have hxa' : x ≤ a := by linarith
      have ha0 : a = 0 := by linarith
      have hx0 : x = 0 := by linarith
      rw [ha0, hx0] at hneg
      simp at hneg
    linarith
  · exact low.trans (mul_le_mul_of_nonneg_right (by linarith) (by positivity))
  · calc y - b ≤ x * U - a / U := by linarith
      _ ≤ (x - a) * (U * U) := by
        have e : (x - a) * (U * U) - (x * U - a / U) = (U - 1) * (x * U - a * (U * U + U + 1) / U) := by field_simp; ring
        have : a * (U * U + U + 1) / U ≤ x * U := by
          rw [div_le_iff₀ hU]
          have : x * 1 ≤ x * (U * U) := mul_le_mul_of_nonneg_left (by nlinarith) h1
          linarith
        have : 0 ≤ (U - 1) * (x * U - a * (U * U + U + 1) / U) := mul_nonneg (by linarith) (by linarith)
        linarith

/-- The relative error. -/
theorem Within.err {k : ℕ} (hk : k ≤ 2 ^ 45) {x y : ℚ} (h : Within k x y) : |y - x| ≤ x * (2 * k / 2 ^ 53) := by
  obtain ⟨h1, h2, h3, h4⟩ := h
  have hU := uu_pow_le k hk
  have h5 : y ≤ x * (1 + 2 * k / 2 ^ 53) := h4.trans (mul_le_mul_of_nonneg_left hU h1)
  have h6 : x ≤ y * (1 + 2 * k / 2 ^ 53) := h3.trans (mul_le_mul_of_nonneg_left hU h2)
  have ht : (0 : ℚ) ≤ 2 * k / 2 ^ 53 := by positivity
  generalize (2 * k / 2 ^ 53 : ℚ) = t at *
  rw [abs_le]
  constructor
  · have : y * t ≤ x * t ∨ x < y := by
      rcases le_or_gt y x with h | h
      · exact Or.inl (mul_le_mul_of_nonneg_right h ht)
      · exact Or.inr h
    have hxt : 0 ≤ x * t := mul_nonneg h1 ht
    rcases this with h | h <;> linarith
  · linarith

namespace Analyse

/-- Two dicts of values, up to `k` roundings. -/
structure WithinW (k : ℕ) (g : Graph) (ws wd : PyDict Key ℚ) : Prop where
  keysE : ws.keys = g.keys
  keysD : wd.keys = g.keys
  near : ∀ n x y, ws.get? n = some x → wd.get? n = some y → Within k x y

variable (log : Nat → ℚ)

theorem edgeSum_within (A : Arith ℚ) (hA : Exact A) (g : Graph) (hg : GraphOK g) (hout : ∀ n, outWeight g n ≤ 2 ^ 44)
    (ws wd : PyDict Key ℚ) (k : ℕ) (hw : WithinW k g ws wd) (es : List (Key × Nat)) (he : ∀ e ∈ es, e.1 ∈ g.keys ∧ e.2 ≤ 2 ^ 44)
    (j : ℕ) (hj : k + 2 ≤ j) (s t : ℚ) (hs : Within j s t) :
    ∃ r q, edgeSum A (g.map (fun e => (e.1, sumOut A e.2))) ws es s = .ok r ∧
      edgeSum (dblArith log) (g.map (fun e => (e.1, sumOut (dblArith log) e.2))) wd es t = .ok q ∧ Within (j + es.length) r q := by
  induction es generalizing s t j with
  | nil => exact ⟨s, t, rfl, rfl, hs⟩
  | cons e es ih =>
    obtain ⟨b, w⟩ := e
    obtain ⟨hb, hwb⟩ := he _ List.mem_cons_self
    simp only [] at hb hwb
    obtain ⟨eb, heb⟩ := (mem_keys_get g b).mp hb
    obtain ⟨x, hx⟩ := (mem_keys_get ws b).mp (by rw [hw.keysE]; exact hb)
    obtain ⟨y, hy⟩ := (mem_keys_get wd b).mp (by rw [hw.keysD]; exact hb)
    have hxy := hw.near b x y hx hy
    have hpos := outWeight_pos g hg b hb
    have hsum : ((eb.map Prod.snd).sum) = outWeight g b := by unfold outWeight; rw [heb]; rfl
    have hsd : sumOut (dblArith log) eb = (outWeight g b : ℚ) := by
      rw [sumOut_dbl log eb (by rw [hsum]; exact le_trans (hout b) (by norm_num)), hsum]
    have hse : sumOut A eb = (outWeight g b : ℚ) := by rw [sumOut_exact A hA, hsum]
    have ho : (0 : ℚ) < (outWeight g b : ℚ) := by exact_mod_cast hpos
    have hd0 : sumOut (dblArith log) eb ≠ (dblArith log).zero := by rw [hsd]; exact ne_of_gt ho
    have he0 : sumOut A eb ≠ A.zero := by rw [hse, hA.zero]; exact ne_of_gt ho
    have hwi : (dblArith log).ofInt w = (w : ℚ) := by
      have := rnd_nat w (by omega)
      show rnd _ = _
      exact_mod_cast this
    have hwe : A.ofInt w = (w : ℚ) := by rw [hA.ofInt]; norm_num
    simp only [edgeSum, getItem, get?_map, heb, Option.map_some, pyDiv, if_neg hd0, if_neg he0, hx, hy]
    rw [hsd, hse, hwi, hwe, hA.add, hA.mul, hA.div]
    have hw0 : (0 : ℚ) ≤ (w : ℚ) / (outWeight g b : ℚ) := div_nonneg (Nat.cast_nonneg _) ho.le
    have q1 : Within (k + 2) ((w : ℚ) / (outWeight g b : ℚ) * x) (rnd (rnd ((w : ℚ) / (outWeight g b : ℚ)) * y)) := by
      have := (((Within.refl 0 hw0).rnd).mul hxy).rnd
      exact this.mono (by omega)
    have hs' : Within (j + 1) (s + (w : ℚ) / (outWeight g b : ℚ) * x) (rnd (t + rnd (rnd ((w : ℚ) / (outWeight g b : ℚ)) * y))) :=
      (hs.add (q1.mono hj)).rnd
    obtain ⟨r, q, h1, h2, h3⟩ := ih (fun e h => he e (List.mem_cons_of_mem _ h)) (j + 1) (by omega) _ _ hs'
    refine ⟨r, q, h1, h2, h3.mono ?_⟩
    rw [List.length_cons]; omega

/-- The number of edges of a node. -/
def degree (g : Graph) (n : Key) : ℕ := ((g.get? n).getD []).length

theorem sweep_within (R R' : RSys ℚ) (hA : R.k.pos.sys.A = dblArith log) (hE : Exact R'.k.pos.sys.A) (hd : R'.d = R.d) (hd0 : 0 ≤ R.d) (hd1 : R.d ≤ 1)
    (g : Graph) (hg : GraphOK g) (hout : ∀ n, outWeight g n ≤ 2 ^ 44) (ns : List Key) (hns : ∀ n ∈ ns, n ∈ g.keys) (k : ℕ)
    (ws wd : PyDict Key ℚ) (hw : WithinW k g ws wd) :
    ∃ ws' wd', sweep R' g (g.map (fun e => (e.1, sumOut R'.k.pos.sys.A e.2))) ns ws = .ok ws' ∧
      sweep R g (g.map (fun e => (e.1, sumOut R.k.pos.sys.A e.2))) ns wd = .ok wd' ∧
      WithinW (k + (ns.map (fun n => degree g n + 4)).sum) g ws' wd' := by
  induction ns generalizing ws wd k with
  | nil => exact ⟨ws, wd, rfl, rfl, hw⟩
  | cons n ns ih =>
    have hn := hns n List.mem_cons_self
    obtain ⟨es, he⟩ := (mem_keys_get g n).mp hn
    have hsum : (es.map Prod.snd).sum = outWeight g n := by unfold outWeight; rw [he]; rfl
    obtain ⟨r, q, h1, h2, h3⟩ := edgeSum_within log R'.k.pos.sys.A hE g hg hout ws wd k hw es
      (fun e h => ⟨((hg.edges n es he).2 e h).1, le_trans (mem_le_sum es e h) (by rw [hsum]; exact hout n)⟩) (k + 2) le_rfl 0 0 (Within.refl _ le_rfl)
    have hz : R'.k.pos.sys.A.zero = 0 := hE.zero
    have h2' : edgeSum R.k.pos.sys.A (g.map (fun e => (e.1, sumOut R.k.pos.sys.A e.2))) wd es R.k.pos.sys.A.zero = .ok q := by rw [hA]; exact h2
    have hone : (dblArith log).ofInt 1 = 1 := by
      have := rnd_int 1 (by norm_num)
      show rnd _ = _
      exact_mod_cast this
    have hvd : R.k.pos.sys.A.add (R.k.pos.sys.A.sub (R.k.pos.sys.A.ofInt 1) R.d) (R.k.pos.sys.A.mul R.d q) = rnd (rnd (1 - R.d) + rnd (R.d * q)) := by
      rw [hA, hone]; rfl
    have hve : R'.k.pos.sys.A.add (R'.k.pos.sys.A.sub (R'.k.pos.sys.A.ofInt 1) R'.d) (R'.k.pos.sys.A.mul R'.d r) = (1 - R.d) + R.d * r := by
      rw [hE.add, hE.sub, hE.mul, hE.ofInt, hd]; simp
    simp only [sweep, getItem, he, hz, h1, h2', hve, hvd]
    have hnew : Within (k + (degree g n + 4)) ((1 - R.d) + R.d * r) (rnd (rnd (1 - R.d) + rnd (R.d * q))) := by
      have a1 : Within (k + 2 + es.length + 1) (1 - R.d) (rnd (1 - R.d)) := ((Within.refl 0 (show 0 ≤ 1 - R.d by linarith)).rnd).mono (by omega)
      have a2 : Within (k + 2 + es.length + 1) (R.d * r) (rnd (R.d * q)) := (((Within.refl 0 hd0).mul h3).rnd).mono (by omega)
      refine (a1.add a2).rnd.mono ?_
      unfold degree; rw [he, Option.getD_some]; omega
    have hw' : WithinW (k + (degree g n + 4)) g (ws.set n ((1 - R.d) + R.d * r)) (wd.set n (rnd (rnd (1 - R.d) + rnd (R.d * q)))) := by
      refine ⟨by rw [keys_set_addNew, hw.keysE, addNew_of_mem _ _ hn], by rw [keys_set_addNew, hw.keysD, addNew_of_mem _ _ hn], ?_⟩
      intro m x y hx hy
      rw [PyDict.get?_set] at hx hy
      by_cases hmn : n = m
      · rw [if_pos hmn] at hx hy
        cases hx; cases hy
        exact hnew
      · rw [if_neg hmn] at hx hy
        exact (hw.near m x y hx hy).mono (by omega)
    obtain ⟨ws', wd', k1, k2, k3⟩ := ih (fun m hm => hns m (List.mem_cons_of_mem _ hm)) _ _ _ hw'
    refine ⟨ws', wd', k1, k2, ?_⟩
    rw [List.map_cons, List.sum_cons, ← add_assoc]
    exact k3

theorem sweeps_within (R R' : RSys ℚ) (hA : R.k.pos.sys.A = dblArith log) (hE : Exact R'.k.pos.sys.A) (hd : R'.d = R.d) (hd0 : 0 ≤ R.d) (hd1 : R.d ≤ 1)
    (g : Graph) (hg : GraphOK g) (hout : ∀ n, outWeight g n ≤ 2 ^ 44) (ns : List Key) (hns : ∀ n ∈ ns, n ∈ g.keys) (i k : ℕ)
    (ws wd : PyDict Key ℚ) (hw : WithinW k g ws wd) :
    ∃ ws' wd', sweeps R' g (g.map (fun e => (e.1, sumOut R'.k.pos.sys.A e.2))) ns i ws = .ok ws' ∧
      sweeps R g (g.map (fun e => (e.1, sumOut R.k.pos.sys.A e.2))) ns i wd = .ok wd' ∧
      WithinW (k + i * (ns.map (fun n => degree g n + 4)).sum) g ws' wd' := by
  induction i generalizing ws wd k with
  | zero => exact ⟨ws, wd, rfl, rfl, by simpa using hw⟩
  | succ i ih =>
    obtain ⟨ws1, wd1, h1, h2, h3⟩ := sweep_within log R R' hA hE hd hd0 hd1 g hg hout ns hns k ws wd hw
    obtain ⟨ws2, wd2, k1, k2, k3⟩ := ih _ ws1 wd1 h3
    refine ⟨ws2, wd2, by simp only [sweeps, h1]; exact k1, by simp only [sweeps, h2]; exact k2, ?_⟩
    have e : k + (ns.map (fun n => degree g n + 4)).sum + i * (ns.map (fun n => degree g n + 4)).sum =
      k + (i + 1) * (ns.map (fun n => degree g n + 4)).sum := by ring
    rw [← e]; exact k3

/-- The smallest and the largest value. -/
theorem minMax_mem (R : RSys ℚ) (vs : List ℚ) (hne : vs ≠ []) (hv : ∀ v ∈ vs, R.fmin < v ∧ v < R.fmax) :
    IsLeast {y | y ∈ vs} (minMax R vs).1 ∧ IsGreatest {y | y ∈ vs} (minMax R vs).2 := by
  obtain ⟨⟨m1, m2⟩, m3, ⟨m4, m5⟩, m6⟩ := minMax_spec vs R.fmax R.fmin
  change ∀ v ∈ vs, (minMax R vs).1 ≤ v at m2
  change (minMax R vs).1 = _ ∨ (minMax R vs).1 ∈ _ at m3
  change ∀ v ∈ vs, v ≤ (minMax R vs).2 at m5
  change (minMax R vs).2 = _ ∨ (minMax R vs).2 ∈ _ at m6
  obtain ⟨v, hvm⟩ := List.exists_mem_of_ne_nil vs hne
  have a1 := m2 v hvm
  have a2 := m5 v hvm
  have a3 := hv v hvm
  refine ⟨⟨?_, fun y hy => m2 y hy⟩, ⟨?_, fun y hy => m5 y hy⟩⟩
  · rcases m3 with h | h
    · rw [h] at a1; exact absurd a3.2 (not_lt.mpr a1)
    · exact h
  · rcases m6 with h | h
    · rw [h] at a2; exact absurd a3.1 (not_lt.mpr a2)
    · exact h

theorem get_of_mem {ws : PyDict Key ℚ} (hn : ws.keys.Nodup) {y : ℚ} (hy : y ∈ ws.values) : ∃ n, ws.get? n = some y := by
  obtain ⟨e, he, rfl⟩ := List.mem_map.mp hy
  exact ⟨e.1, (PyDict.get?_eq_some_iff_mem _ hn e.1 e.2).mpr he⟩

theorem mem_of_get {ws : PyDict Key ℚ} (hn : ws.keys.Nodup) {n : Key} {y : ℚ} (hy : ws.get? n = some y) : y ∈ ws.values :=
  List.mem_map.mpr ⟨(n, y), (PyDict.get?_eq_some_iff_mem _ hn n y).mp hy, rfl⟩

theorem WithinW.partner {k : ℕ} {g : Graph} {ws wd : PyDict Key ℚ} (hw : WithinW k g ws wd) {n : Key} {x : ℚ} (hx : ws.get? n = some x) :
    ∃ y, wd.get? n = some y ∧ Within k x y := by
  obtain ⟨y, hy⟩ := (mem_keys_get wd n).mp (by rw [hw.keysD, ← hw.keysE]; exact (mem_keys_get ws n).mpr ⟨x, hx⟩)
  exact ⟨y, hy, hw.near n x y hx hy⟩

theorem WithinW.partner' {k : ℕ} {g : Graph} {ws wd : PyDict Key ℚ} (hw : WithinW k g ws wd) {n : Key} {y : ℚ} (hy : wd.get? n = some y) :
    ∃ x, ws.get? n = some x ∧ Within k x y := by
  obtain ⟨x, hx⟩ := (mem_keys_get ws n).mp (by rw [hw.keysE, ← hw.keysD]; exact (mem_keys_get wd n).mpr ⟨y, hy⟩)
  exact ⟨x, hx, hw.near n x y hx hy⟩

theorem WithinW.least {k : ℕ} {g : Graph} {ws wd : PyDict Key ℚ} (hg : g.keys.Nodup) (hw : WithinW k g ws wd) {a b : ℚ}
    (ha : IsLeast {y | y ∈ ws.values} a) (hb : IsLeast {y | y ∈ wd.values} b) : Within k a b := by
  have hn1 : ws.keys.Nodup := by rw [hw.keysE]; exact hg
  have hn2 : wd.keys.Nodup := by rw [hw.keysD]; exact hg
  obtain ⟨n, h1⟩ := get_of_mem hn1 ha.1
  obtain ⟨y, h2, h3⟩ := hw.partner h1
  obtain ⟨m, h4⟩ := get_of_mem hn2 hb.1
  obtain ⟨x, h5, h6⟩ := hw.partner' h4
  exact ⟨h3.1, h6.2.1, (ha.2 (mem_of_get hn1 h5)).trans h6.2.2.1, (hb.2 (mem_of_get hn2 h2)).trans h3.2.2.2⟩

theorem WithinW.greatest {k : ℕ} {g : Graph} {ws wd : PyDict Key ℚ} (hg : g.keys.Nodup) (hw : WithinW k g ws wd) {a b : ℚ}
    (ha : IsGreatest {y | y ∈ ws.values} a) (hb : IsGreatest {y | y ∈ wd.values} b) : Within k a b := by
  have hn1 : ws.keys.Nodup := by rw [hw.keysE]; exact hg
  have hn2 : wd.keys.Nodup := by rw [hw.keysD]; exact hg
  obtain ⟨n, h1⟩ := get_of_mem hn1 ha.1
  obtain ⟨y, h2, h3⟩ := hw.partner h1
  obtain ⟨m, h4⟩ := get_of_mem hn2 hb.1
  obtain ⟨x, h5, h6⟩ := hw.partner' h4
  refine ⟨h3.1, h6.2.1, ?_, ?_⟩
  · exact h3.2.2.1.trans (mul_le_mul_of_nonneg_right (hb.2 (mem_of_get hn2 h2)) (uu_pow_pos k).le)
  · exact h6.2.2.2.trans (mul_le_mul_of_nonneg_right (ha.2 (mem_of_get hn1 h5)) (uu_pow_pos k).le)

/-- How many roundings there are between the exact weights and those computed with doubles. -/
def roundings (g : Graph) : ℕ := 4 * (2 + 10 * (g.keys.map (fun n => degree g n + 4)).sum) + 7

theorem rank_within (R R' : RSys ℚ) (hA : R.k.pos.sys.A = dblArith log) (hE : Exact R'.k.pos.sys.A) (hd : R'.d = R.d) (hd0 : 0 ≤ R.d) (hd1 : R.d ≤ 7 / 8)
    (hmin : R.fmin < 1 / 8) (hmax : 2 ^ 45 < R.fmax) (hmin' : R'.fmin < 1 / 8) (hmax' : 2 ^ 45 < R'.fmax)
    (g : Graph) (hg : GraphOK g) (hout : ∀ n, outWeight g n ≤ 2 ^ 44) (hr : roundings g ≤ 2 ^ 45) :
    ∃ ws wd, rank R' g = .ok ws ∧ rank R g = .ok wd ∧ WithinW (roundings g) g ws wd := by
  have hone : R.k.pos.sys.A.ofInt 1 = (1 : ℚ) := by
    rw [hA]
    have := rnd_int 1 (by norm_num)
    show rnd _ = _
    exact_mod_cast this
  have honeE : R'.k.pos.sys.A.ofInt 1 = (1 : ℚ) := by rw [hE.ofInt]; norm_num
  have hrone : rnd 1 = 1 := by exact_mod_cast rnd_int 1 (by norm_num)
  by_cases hg0 : g = []
  · subst hg0
    refine ⟨[], [], ?_, ?_, ⟨rfl, rfl, fun n x y h => by cases h⟩⟩
    · unfold rank
      simp only [pyDiv, honeE]
      rw [if_neg (by simp [hE.zero])]
      rfl
    · unfold rank
      simp only [pyDiv, hone]
      rw [if_neg (by rw [hA]; simp; exact one_ne_zero)]
      rfl
  have hlen : g.length ≠ 0 := by simpa using hg0
  have hlq : (0 : ℚ) < (g.length : ℚ) := by exact_mod_cast Nat.pos_of_ne_zero hlen
  have hlq1 : (1 : ℚ) ≤ (g.length : ℚ) := by exact_mod_cast Nat.one_le_iff_ne_zero.mpr hlen
  have hnE : R'.k.pos.sys.A.ofInt g.length = (g.length : ℚ) := by rw [hE.ofInt]; norm_num
  have hnD : R.k.pos.sys.A.ofInt g.length = rnd (g.length : ℚ) := by
    rw [hA]
    show rnd _ = _
    norm_num
  have hr1 : 1 ≤ rnd (g.length : ℚ) := by
    rw [← hrone]; exact rnd_mono hlq1
  have hstart : Within 2 (1 / (g.length : ℚ)) (rnd (1 / rnd (g.length : ℚ))) :=
    (((Within.refl 0 zero_le_one).div (Within.refl 0 hlq.le).rnd hlq).rnd).mono (by omega)
  have hw0 : WithinW 2 g (g.map (fun e => (e.1, 1 / (g.length : ℚ)))) (g.map (fun e => (e.1, rnd (1 / rnd (g.length : ℚ))))) := by
    refine ⟨by simp [PyDict.keys, Function.comp_def], by simp [PyDict.keys, Function.comp_def], ?_⟩
    intro n x y hx hy
    rw [get?_map g (fun _ => 1 / (g.length : ℚ)) n] at hx
    rw [get?_map g (fun _ => rnd (1 / rnd (g.length : ℚ))) n] at hy
    cases hgn : g.get? n with
    | none => rw [hgn] at hx; cases hx
    | some es => rw [hgn] at hx hy; cases hx; cases hy; exact hstart
  obtain ⟨ws, wd, h1, h2, h3⟩ := sweeps_within log R R' hA hE hd hd0 (by linarith) g hg hout (sortedKeys g)
    (fun n hn => (sortBy_perm _ _).mem_iff.mp hn) 10 2 _ _ hw0
  have hperm : ((sortedKeys g).map (fun n => degree g n + 4)).sum = (g.keys.map (fun n => degree g n + 4)).sum :=
    ((sortBy_perm _ g.keys).map _).sum_eq
  rw [hperm] at h3
  -- the bounds of the values
  have hgoodD : GoodD g (g.map (fun e => (e.1, rnd (1 / rnd (g.length : ℚ))))) := by
    refine ⟨hw0.keysD, ?_⟩
    intro n x hx
    rw [get?_map g (fun _ => rnd (1 / rnd (g.length : ℚ))) n] at hx
    cases hgn : g.get? n with
    | none => rw [hgn] at hx; cases hx
    | some es =>
      rw [hgn] at hx; cases hx
      have a1 : rnd (1 / rnd (g.length : ℚ)) ≤ 1 := by
        nth_rw 2 [← hrone]
        exact rnd_mono (by rw [div_le_one (by linarith)]; exact hr1)
      have a2 : (1 : ℚ) ≤ outWeight g n := by exact_mod_cast outWeight_pos g hg n ((mem_keys_get _ _).mpr ⟨es, hgn⟩)
      exact ⟨rnd_nonneg (le_of_lt (div_pos one_pos (by linarith))), by linarith⟩
  have hgoodE : Good g (g.map (fun e => (e.1, 1 / (g.length : ℚ)))) := by
    refine ⟨hw0.keysE, ?_⟩
    intro n x hx
    rw [get?_map g (fun _ => 1 / (g.length : ℚ)) n] at hx
    cases hgn : g.get? n with
    | none => rw [hgn] at hx; cases hx
    | some es =>
      rw [hgn] at hx; cases hx
      have a1 : 1 / (g.length : ℚ) ≤ 1 := by rw [div_le_one hlq]; exact hlq1
      have a2 : (1 : ℚ) ≤ outWeight g n := by exact_mod_cast outWeight_pos g hg n ((mem_keys_get _ _).mpr ⟨es, hgn⟩)
      exact ⟨by positivity, by linarith⟩
  have hkeys : ∀ n, n ∈ sortedKeys g ↔ n ∈ g.keys := fun n => (sortBy_perm _ _).mem_iff
  obtain ⟨ws', e1, e2, e3⟩ := sweeps_ok R' hE (by rw [hd]; exact hd0) (by rw [hd]; linarith) g hg (sortedKeys g) hkeys 10 _ hgoodE
  obtain rfl : ws = ws' := by rw [h1] at e1; exact Except.ok.inj e1
  obtain ⟨wd', d1, d2, d3⟩ := sweeps_dbl R log hA hd0 hd1 g hg hout (sortedKeys g) hkeys 10 _ hgoodD
  obtain rfl : wd = wd' := by rw [h2] at d1; exact Except.ok.inj d1
  have hnE' : ws.keys.Nodup := by rw [h3.keysE]; exact hg.nodup
  have hnD' : wd.keys.Nodup := by rw [h3.keysD]; exact hg.nodup
  have hvE : ∀ v ∈ ws.values, R'.fmin < v ∧ v < R'.fmax := by
    intro v hv
    obtain ⟨n, hn⟩ := get_of_mem hnE' hv
    have a1 := e3 (by omega) n v hn
    have a2 := (e2.bound n v hn).2
    have a3 : (outWeight g n : ℚ) ≤ 2 ^ 44 := by exact_mod_cast hout n
    rw [hd] at a1
    exact ⟨by linarith, by linarith⟩
  have hvD : ∀ v ∈ wd.values, R.fmin < v ∧ v < R.fmax := by
    intro v hv
    obtain ⟨n, hn⟩ := get_of_mem hnD' hv
    have a1 := d3 (by omega) n v hn
    have a2 := (d2.bound n v hn).2
    have a3 : (outWeight g n : ℚ) ≤ 2 ^ 44 := by exact_mod_cast hout n
    exact ⟨by linarith, by linarith⟩
  have hneE : ws.values ≠ [] := by
    intro h
    have hk := h3.keysE
    have : ws = [] := by simpa [PyDict.values] using h
    rw [this] at hk
    apply hg0
    simpa [PyDict.keys] using hk.symm
  have hneD : wd.values ≠ [] := by
    intro h
    have hk := h3.keysD
    have : wd = [] := by simpa [PyDict.values] using h
    rw [this] at hk
    apply hg0
    simpa [PyDict.keys] using hk.symm
  obtain ⟨lE, gE⟩ := minMax_mem R' ws.values hneE hvE
  obtain ⟨lD, gD⟩ := minMax_mem R wd.values hneD hvD
  have hmn := h3.least hg.nodup lE lD
  have hmx := h3.greatest hg.nodup gE gD
  have rankE : rank R' g = normalise R'.k.pos.sys.A (minMax R' ws.values).1 (minMax R' ws.values).2 ws := by
    unfold rank
    simp only [pyDiv, honeE, if_neg hlen, hnE]
    rw [if_neg (by rw [hE.zero]; exact ne_of_gt hlq)]
    simp only [hE.div]
    rw [h1]
  have rankD : rank R g = normalise R.k.pos.sys.A (minMax R wd.values).1 (minMax R wd.values).2 wd := by
    unfold rank
    simp only [pyDiv, hone, if_neg hlen, hnD]
    rw [if_neg (by rw [hA]; exact ne_of_gt (lt_of_lt_of_le one_pos hr1))]
    have hdiv : R.k.pos.sys.A.div 1 (rnd (g.length : ℚ)) = rnd (1 / rnd (g.length : ℚ)) := by rw [hA]; rfl
    simp only [hdiv]
    rw [h2]
  rw [rankE, rankD]
  generalize (minMax R' ws.values).1 = mnE at *
  generalize (minMax R' ws.values).2 = mxE at *
  generalize (minMax R wd.values).1 = mnD at *
  generalize (minMax R wd.values).2 = mxD at *
  clear rankE rankD
  obtain ⟨K, hK⟩ : ∃ K, K = 2 + 10 * (g.keys.map (fun n => degree g n + 4)).sum := ⟨_, rfl⟩
  have hround : roundings g = 4 * K + 7 := by unfold roundings; rw [hK]
  rw [← hK] at h3 hmn hmx
  rw [hround] at hr ⊢
  -- the exact values are positive
  have hposE : ∀ v ∈ ws.values, 1 / 8 ≤ v := by
    intro v hv
    obtain ⟨n, hn⟩ := get_of_mem hnE' hv
    have a1 := e3 (by omega) n v hn
    rw [hd] at a1
    linarith
  have hmnpos := hposE _ lE.1
  have hm10 : Within (K + 1) (mnE / 10) (rnd (mnD / 10)) := ((hmn.div (Within.refl 0 (show (0 : ℚ) ≤ 10 by norm_num)) (by norm_num)).rnd).mono (by omega)
  have key : ∀ x y, x ∈ ws.values → Within K x y → Within (2 * K + 3) (x - mnE / 10) (rnd (y - rnd (mnD / 10))) := by
    intro x y hx hxy
    have := lE.2 hx
    exact (((hxy.mono (Nat.le_succ K)).sub hm10 (by linarith) (by omega)).rnd).mono (by omega)
  have hden := key _ _ gE.1 hmx
  have hdenpos : 0 < mxE - mnE / 10 := by have := lE.2 gE.1; linarith
  have hdenD := hden.pos hdenpos
  rw [normalise_ok _ hE _ _ (ne_of_gt hdenpos), hA, normalise_dbl log _ _ (ne_of_gt hdenD)]
  refine ⟨_, _, rfl, rfl, ⟨?_, ?_, ?_⟩⟩
  · rw [← h3.keysE]; simp [PyDict.keys, Function.comp_def]
  · rw [← h3.keysD]; simp [PyDict.keys, Function.comp_def]
  · intro n x y hx hy
    rw [get?_map ws (fun v => (v - mnE / 10) / (mxE - mnE / 10)) n] at hx
    rw [get?_map wd (fun v => rnd (rnd (v - rnd (mnD / 10)) / rnd (mxD - rnd (mnD / 10)))) n] at hy
    cases hwn : ws.get? n with
    | none => rw [hwn] at hx; cases hx
    | some a =>
      obtain ⟨b, hb, hab⟩ := h3.partner hwn
      rw [hwn] at hx; rw [hb] at hy
      cases hx; cases hy
      have := ((key a b (mem_of_get hnE' hwn) hab).div hden hdenpos).rnd
      exact this.mono (by omega)

end Analyse
end Jieba
