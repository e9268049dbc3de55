import Verif.Proofs.Double
import Verif.Proofs.TextRank
/-!
# TextRank with doubles: bounds of the values
-/

namespace Jieba
open Jieba.Spec

theorem rnd_pos {x : ℚ} (h : 0 < x) : 0 < rnd x := by
  have := (abs_le.mp (rnd_err_pos h)).1
  have : x / 2 ^ 53 < x := by rw [div_lt_iff₀ (by norm_num)]; linarith
  linarith

/-- Rounding makes a number larger by at most the factor `1 + 2^-53`. -/
theorem rnd_le_mul {x : ℚ} (h : 0 ≤ x) : rnd x ≤ x * (1 + 1 / 2 ^ 53) := by
  have := (abs_le.mp (rnd_err x)).2
  rw [abs_of_nonneg h] at this
  linarith

theorem rnd_int (n : ℤ) (h : |n| ≤ 2 ^ 53) : rnd (n : ℚ) = n := by
  have := isDbl_of n 0 h
  unfold IsDbl at this
  simpa using this

theorem rnd_nat (n : ℕ) (h : n ≤ 2 ^ 53) : rnd (n : ℚ) = n := by
  have := rnd_int n (by rw [abs_of_nonneg (by positivity)]; exact_mod_cast h)
  exact_mod_cast this

theorem pow_bound (m : ℕ) (h : m ≤ 2 ^ 45) : (1 + 1 / 2 ^ 53 : ℚ) ^ m ≤ 1 + 2 * m / 2 ^ 53 := by
  induction m with
  | zero => simp
  | succ m ih =>
    have hm : (m : ℚ) ≤ 2 ^ 45 := by exact_mod_cast (by omega : m ≤ 2 ^ 45)
    have h0 : (0 : ℚ) ≤ m := Nat.cast_nonneg _
    rw [pow_succ]
    have := ih (by omega)
    calc (1 + 1 / 2 ^ 53 : ℚ) ^ m * (1 + 1 / 2 ^ 53) ≤ (1 + 2 * m / 2 ^ 53) * (1 + 1 / 2 ^ 53) :=
          mul_le_mul_of_nonneg_right this (by norm_num)
      _ ≤ _ := by push_cast; nlinarith

namespace Analyse

theorem sumOut_dbl (log : Nat → ℚ) (es : List (Key × Nat)) (h : (es.map Prod.snd).sum ≤ 2 ^ 53) :
    sumOut (dblArith log) es = ((es.map Prod.snd).sum : Nat) := by
  have : ∀ (es : List (Key × Nat)) (k : Nat), k + (es.map Prod.snd).sum ≤ 2 ^ 53 →
      es.foldl (fun s e => (dblArith log).add s ((dblArith log).ofInt e.2)) (k : ℚ) = ((k + (es.map Prod.snd).sum : Nat) : ℚ) := by
    intro es
    induction es with
    | nil => intro k _; simp
    | cons e es ih =>
      intro k hk
      simp only [List.map_cons, List.sum_cons] at hk
      rw [List.foldl_cons]
      have e1 : (dblArith log).ofInt e.2 = (e.2 : ℚ) := by
        have := rnd_nat e.2 (by omega)
        show rnd _ = _
        exact_mod_cast this
      have e2 : (dblArith log).add (k : ℚ) (e.2 : ℚ) = ((k + e.2 : Nat) : ℚ) := by
        show rnd _ = _
        rw [← rnd_nat (k + e.2) (by omega)]
        push_cast; rfl
      rw [e1, e2, ih (k + e.2) (by omega)]
      simp [add_assoc]
  have h0 := this es 0 (by simpa using h)
  simp only [Nat.cast_zero, Nat.zero_add] at h0
  exact h0

/-- Values of a dict for the nodes: at most twice the exact bound. -/
structure GoodD (g : Graph) (ws : PyDict Key ℚ) : Prop where
  keys : ws.keys = g.keys
  bound : ∀ n x, ws.get? n = some x → 0 ≤ x ∧ x ≤ 2 * outWeight g n

theorem edgeSum_dbl (log : Nat → ℚ) (g : Graph) (hg : GraphOK g) (hout : ∀ n, outWeight g n ≤ 2 ^ 44) (ws : PyDict Key ℚ) (hw : GoodD g ws)
    (es : List (Key × Nat)) (he : ∀ e ∈ es, e.1 ∈ g.keys ∧ e.2 ≤ 2 ^ 44) (s : ℚ) (hs : 0 ≤ s) :
    ∃ r, edgeSum (dblArith log) (g.map (fun e => (e.1, sumOut (dblArith log) e.2))) ws es s = .ok r ∧ 0 ≤ r ∧
      r ≤ (s + 2 * ((es.map Prod.snd).sum : Nat) * (1 + 1 / 2 ^ 53) ^ 2) * (1 + 1 / 2 ^ 53) ^ es.length := by
  induction es generalizing s with
  | nil => exact ⟨s, rfl, hs, by simp⟩
  | cons e es ih =>
    obtain ⟨b, w⟩ := e
    obtain ⟨hb, hwb⟩ := he _ List.mem_cons_self
    simp only [] at hb hwb
    obtain ⟨eb, heb⟩ := (mem_keys_get g b).mp hb
    obtain ⟨x, hx⟩ := (mem_keys_get ws b).mp (by rw [hw.keys]; exact hb)
    obtain ⟨hx0, hx1⟩ := hw.bound b x hx
    have hpos := outWeight_pos g hg b hb
    have hsum : ((eb.map Prod.snd).sum) = outWeight g b := by unfold outWeight; rw [heb]; rfl
    have hso : sumOut (dblArith log) eb = (outWeight g b : ℚ) := by
      rw [sumOut_dbl log eb (by rw [hsum]; exact le_trans (hout b) (by norm_num)), hsum]
    have ho : (0 : ℚ) < (outWeight g b : ℚ) := by exact_mod_cast hpos
    have hout0 : sumOut (dblArith log) eb ≠ (dblArith log).zero := by rw [hso]; exact ne_of_gt ho
    simp only [edgeSum, getItem, get?_map, heb, Option.map_some, pyDiv, if_neg hout0, hx]
    rw [hso]
    have hwi : (dblArith log).ofInt w = (w : ℚ) := by
      have := rnd_nat w (by omega)
      show rnd _ = _
      exact_mod_cast this
    rw [hwi]
    show ∃ r, edgeSum _ _ _ _ (rnd (s + rnd (rnd ((w : ℚ) / (outWeight g b : ℚ)) * x))) = _ ∧ _
    have hw0 : (0 : ℚ) ≤ (w : ℚ) := Nat.cast_nonneg _
    have hu : (0 : ℚ) < 1 + 1 / 2 ^ 53 := by norm_num
    have hu1 : (1 : ℚ) ≤ 1 + 1 / 2 ^ 53 := by norm_num
    set u : ℚ := 1 + 1 / 2 ^ 53
    have q0 : 0 ≤ rnd ((w : ℚ) / (outWeight g b : ℚ)) := rnd_nonneg (div_nonneg hw0 ho.le)
    have q1 : rnd ((w : ℚ) / (outWeight g b : ℚ)) ≤ (w : ℚ) / (outWeight g b : ℚ) * u := rnd_le_mul (div_nonneg hw0 ho.le)
    have y0 : 0 ≤ rnd (rnd ((w : ℚ) / (outWeight g b : ℚ)) * x) := rnd_nonneg (mul_nonneg q0 hx0)
    have y1 : rnd (rnd ((w : ℚ) / (outWeight g b : ℚ)) * x) ≤ 2 * w * u ^ 2 := by
      calc _ ≤ rnd ((w : ℚ) / (outWeight g b : ℚ)) * x * u := rnd_le_mul (mul_nonneg q0 hx0)
        _ ≤ (w : ℚ) / (outWeight g b : ℚ) * u * (2 * outWeight g b) * u :=
          mul_le_mul_of_nonneg_right (mul_le_mul q1 hx1 hx0 (mul_nonneg (div_nonneg hw0 ho.le) hu.le)) hu.le
        _ = 2 * w * u ^ 2 := by field_simp
    have s0 : 0 ≤ rnd (s + rnd (rnd ((w : ℚ) / (outWeight g b : ℚ)) * x)) := rnd_nonneg (add_nonneg hs y0)
    have s1 := rnd_le_mul (add_nonneg hs y0)
    obtain ⟨r, h1, h2, h3⟩ := ih (fun e h => he e (List.mem_cons_of_mem _ h)) _ s0
    refine ⟨r, h1, h2, le_trans h3 ?_⟩
    simp only [List.map_cons, List.sum_cons, Nat.cast_add, List.length_cons]
    rw [pow_succ u es.length, mul_comm (u ^ es.length) u, ← mul_assoc]
    apply mul_le_mul_of_nonneg_right _ (pow_nonneg hu.le _)
    set W : ℚ := (((es.map Prod.snd).sum : Nat) : ℚ)
    have hW : 0 ≤ W := Nat.cast_nonneg _
    have hW2 : 2 * W * u ^ 2 ≤ 2 * W * u ^ 2 * u := le_mul_of_one_le_right (by positivity) hu1
    have : (s + rnd (rnd ((w : ℚ) / (outWeight g b : ℚ)) * x)) * u ≤ (s + 2 * w * u ^ 2) * u :=
      mul_le_mul_of_nonneg_right (by linarith) hu.le
    have e1 : (s + 2 * ((w : ℚ) + W) * u ^ 2) * u = (s + 2 * w * u ^ 2) * u + 2 * W * u ^ 2 * u := by ring
    rw [e1]
    linarith

theorem length_le_sum (es : List (Key × Nat)) (h : ∀ e ∈ es, 1 ≤ e.2) : es.length ≤ (es.map Prod.snd).sum := by
  induction es with
  | nil => simp
  | cons e es ih =>
    have h1 := ih (fun x hx => h x (List.mem_cons_of_mem _ hx))
    have h2 := h e List.mem_cons_self
    simp only [List.length_cons, List.map_cons, List.sum_cons]
    omega

theorem mem_le_sum (es : List (Key × Nat)) (e : Key × Nat) (h : e ∈ es) : e.2 ≤ (es.map Prod.snd).sum :=
  List.single_le_sum (fun _ _ => Nat.zero_le _) _ (List.mem_map_of_mem h)

theorem sweep_dbl (R : RSys ℚ) (log : Nat → ℚ) (hA : R.k.pos.sys.A = dblArith log) (hd0 : 0 ≤ R.d) (hd1 : R.d ≤ 7 / 8) (g : Graph) (hg : GraphOK g)
    (hout : ∀ n, outWeight g n ≤ 2 ^ 44) (ns : List Key) (hns : ∀ n ∈ ns, n ∈ g.keys) (ws : PyDict Key ℚ) (hw : GoodD g ws) :
    ∃ ws', sweep R g (g.map (fun e => (e.1, sumOut R.k.pos.sys.A e.2))) ns ws = .ok ws' ∧ GoodD g ws' ∧
      (∀ n x, n ∈ ns → ws'.get? n = some x → 1 / 8 ≤ x) ∧
      (∀ n x y, ws.get? n = some x → 1 / 8 ≤ x → ws'.get? n = some y → 1 / 8 ≤ y) := by
  induction ns generalizing ws with
  | nil =>
    refine ⟨ws, rfl, hw, by simp, ?_⟩
    intro n x y h1 h2 h3
    rw [h1] at h3; cases h3; exact h2
  | cons n ns ih =>
    have hn := hns n List.mem_cons_self
    obtain ⟨es, he⟩ := (mem_keys_get g n).mp hn
    have hsum : (es.map Prod.snd).sum = outWeight g n := by unfold outWeight; rw [he]; rfl
    obtain ⟨r, h1, h2, h3⟩ := edgeSum_dbl log g hg hout ws hw es
      (fun e h => ⟨((hg.edges n es he).2 e h).1, le_trans (mem_le_sum es e h) (by rw [hsum]; exact hout n)⟩) 0 (le_refl _)
    have h1' : edgeSum R.k.pos.sys.A (g.map (fun e => (e.1, sumOut R.k.pos.sys.A e.2))) ws es R.k.pos.sys.A.zero = .ok r := by rw [hA]; exact h1
    simp only [sweep, getItem, he, h1']
    have hlen : es.length ≤ outWeight g n := by
      rw [← hsum]; exact length_le_sum es (fun e h => ((hg.edges n es he).2 e h).2)
    have hpos : (1 : ℚ) ≤ outWeight g n := by exact_mod_cast outWeight_pos g hg n hn
    rw [hsum, zero_add] at h3
    have hr : r ≤ 2 * outWeight g n * (1 + 1 / 200) := by
      refine le_trans h3 ?_
      rw [mul_assoc, ← pow_add]
      apply mul_le_mul_of_nonneg_left _ (by positivity)
      have hm : 2 + es.length ≤ 2 ^ 45 := by have := hout n; omega
      refine le_trans (pow_bound _ hm) ?_
      have hm' : ((2 + es.length : ℕ) : ℚ) ≤ 2 + 2 ^ 44 := by
        have : 2 + es.length ≤ 2 + 2 ^ 44 := by have := hout n; omega
        exact_mod_cast this
      have : (2 * ((2 + es.length : ℕ) : ℚ)) / 2 ^ 53 ≤ (2 * (2 + 2 ^ 44)) / 2 ^ 53 := div_le_div_of_nonneg_right (by linarith) (by norm_num)
      have : (2 * (2 + 2 ^ 44 : ℚ)) / 2 ^ 53 ≤ 1 / 200 := by norm_num
      linarith
    have hone : (dblArith log).ofInt 1 = 1 := by
      have := rnd_int 1 (by norm_num)
      show rnd _ = _
      exact_mod_cast this
    have hval : R.k.pos.sys.A.add (R.k.pos.sys.A.sub (R.k.pos.sys.A.ofInt 1) R.d) (R.k.pos.sys.A.mul R.d r) = rnd (rnd (1 - R.d) + rnd (R.d * r)) := by
      rw [hA, hone]; rfl
    rw [hval]
    have c0 : 1 / 8 ≤ rnd (1 - R.d) := by
      have := isDbl_of 1 (-3) (by norm_num)
      unfold IsDbl at this
      have e : ((1 : ℤ) : ℚ) * 2 ^ (-3 : ℤ) = 1 / 8 := by norm_num
      rw [e] at this
      rw [← this]
      exact rnd_mono (by linarith)
    have m0 : 0 ≤ rnd (R.d * r) := rnd_nonneg (mul_nonneg hd0 h2)
    have hlow : 1 / 8 ≤ rnd (rnd (1 - R.d) + rnd (R.d * r)) := by
      have := isDbl_rnd (1 - R.d)
      unfold IsDbl at this
      refine le_trans c0 ?_
      nth_rw 1 [← this]
      exact rnd_mono (by linarith)
    have hup : rnd (rnd (1 - R.d) + rnd (R.d * r)) ≤ 2 * outWeight g n := by
      have u1 := rnd_le_mul (show 0 ≤ 1 - R.d by linarith)
      have u2 := rnd_le_mul (mul_nonneg hd0 h2)
      have u3 := rnd_le_mul (show 0 ≤ rnd (1 - R.d) + rnd (R.d * r) by linarith)
      set W : ℚ := ((outWeight g n : Nat) : ℚ)
      have hdr : R.d * r ≤ R.d * (2 * W * (1 + 1 / 200)) := mul_le_mul_of_nonneg_left hr hd0
      have hdW : R.d * W ≤ 7 / 8 * W := mul_le_mul_of_nonneg_right hd1 (by linarith)
      have t1 : rnd (1 - R.d) + rnd (R.d * r) ≤ ((1 - R.d) + R.d * r) * (1 + 1 / 2 ^ 53) := by linarith
      have t2 : (1 - R.d) + R.d * r ≤ W * (19 / 10) := by
        have : (1 - R.d) * 1 ≤ (1 - R.d) * W := mul_le_mul_of_nonneg_left hpos (by linarith)
        nlinarith
      have t3 : ((1 - R.d) + R.d * r) * (1 + 1 / 2 ^ 53) ≤ W * (19 / 10) * (1 + 1 / 2 ^ 53) := mul_le_mul_of_nonneg_right t2 (by norm_num)
      have t4 : (rnd (1 - R.d) + rnd (R.d * r)) * (1 + 1 / 2 ^ 53) ≤ W * (19 / 10) * (1 + 1 / 2 ^ 53) * (1 + 1 / 2 ^ 53) :=
        mul_le_mul_of_nonneg_right (le_trans t1 t3) (by norm_num)
      have : W * (19 / 10) * (1 + 1 / 2 ^ 53) * (1 + 1 / 2 ^ 53) ≤ 2 * W := by
        have e : W * (19 / 10) * (1 + 1 / 2 ^ 53) * (1 + 1 / 2 ^ 53) = W * ((19 / 10) * (1 + 1 / 2 ^ 53) * (1 + 1 / 2 ^ 53)) := by ring
        rw [e, mul_comm 2 W]
        exact mul_le_mul_of_nonneg_left (by norm_num) (by linarith)
      linarith
    have hw' : GoodD g (ws.set n (rnd (rnd (1 - R.d) + rnd (R.d * r)))) := by
      refine ⟨by rw [keys_set_addNew, hw.keys, addNew_of_mem _ _ hn], ?_⟩
      intro m x hx
      rw [PyDict.get?_set] at hx
      split at hx
      · next hmn =>
        subst hmn
        cases hx
        exact ⟨by linarith, hup⟩
      · exact hw.bound m x hx
    obtain ⟨ws', k1, k2, k3, k4⟩ := ih (fun m hm => hns m (List.mem_cons_of_mem _ hm)) _ hw'
    refine ⟨ws', k1, k2, ?_, ?_⟩
    · intro m x hm hx
      rcases List.mem_cons.mp hm with rfl | hm
      · exact k4 m _ x (by rw [PyDict.get?_set, if_pos rfl]) hlow hx
      · exact k3 m x hm hx
    · intro m x y hx hlx hy
      by_cases hmn : n = m
      · subst hmn
        exact k4 n _ y (by rw [PyDict.get?_set, if_pos rfl]) hlow hy
      · exact k4 m x y (by rw [PyDict.get?_set, if_neg hmn]; exact hx) hlx hy

theorem sweeps_dbl (R : RSys ℚ) (log : Nat → ℚ) (hA : R.k.pos.sys.A = dblArith log) (hd0 : 0 ≤ R.d) (hd1 : R.d ≤ 7 / 8) (g : Graph) (hg : GraphOK g)
    (hout : ∀ n, outWeight g n ≤ 2 ^ 44) (ns : List Key) (hns : ∀ n, n ∈ ns ↔ n ∈ g.keys) (k : Nat) (ws : PyDict Key ℚ) (hw : GoodD g ws) :
    ∃ ws', sweeps R g (g.map (fun e => (e.1, sumOut R.k.pos.sys.A e.2))) ns k ws = .ok ws' ∧ GoodD g ws' ∧
      (k ≠ 0 → ∀ n x, ws'.get? n = some x → 1 / 8 ≤ x) := by
  induction k generalizing ws with
  | zero => exact ⟨ws, rfl, hw, fun h => absurd rfl h⟩
  | succ k ih =>
    obtain ⟨ws1, h1, h2, h3, -⟩ := sweep_dbl R log hA hd0 hd1 g hg hout ns (fun n hn => (hns n).mp hn) ws hw
    simp only [sweeps, h1]
    obtain ⟨ws2, k1, k2, k3⟩ := ih ws1 h2
    refine ⟨ws2, k1, k2, fun _ => ?_⟩
    by_cases hk : k = 0
    · subst hk
      simp only [sweeps, Except.ok.injEq] at k1
      subst k1
      intro n x hx
      refine h3 n x ((hns n).mpr ?_) hx
      rw [← k2.keys]
      exact (mem_keys_get _ _).mpr ⟨x, hx⟩
    · exact k3 hk

theorem normalise_dbl (log : Nat → ℚ) (mn mx : ℚ) (h : rnd (mx - rnd (mn / 10)) ≠ 0) (ws : PyDict Key ℚ) :
    normalise (dblArith log) mn mx ws = .ok (ws.map (fun e => (e.1, rnd (rnd (e.2 - rnd (mn / 10)) / rnd (mx - rnd (mn / 10)))))) := by
  induction ws with
  | nil => rfl
  | cons e ws ih =>
    obtain ⟨n, w⟩ := e
    have h10 : (dblArith log).ofInt 10 = (10 : ℚ) := by
      have := rnd_int 10 (by norm_num)
      show rnd _ = _
      exact_mod_cast this
    have h0 : (10 : ℚ) ≠ (dblArith log).zero := by show (10 : ℚ) ≠ 0; norm_num
    have h1 : (dblArith log).sub mx ((dblArith log).div mn 10) ≠ (dblArith log).zero := h
    simp only [normalise, pyDiv, h10, if_neg h0, if_neg h1, ih, List.map_cons]
    rfl

/-- `rank` with doubles: it returns, a weight in (0, 1] for every node, and the weight 1 for some node. -/
theorem rank_dbl (R : RSys ℚ) (log : Nat → ℚ) (hA : R.k.pos.sys.A = dblArith log) (hd0 : 0 ≤ R.d) (hd1 : R.d ≤ 7 / 8) (hmin : R.fmin < 1 / 8)
    (hmax : 2 ^ 45 < R.fmax) (g : Graph) (hg : GraphOK g) (hout : ∀ n, outWeight g n ≤ 2 ^ 44) :
    ∃ ws, rank R g = .ok ws ∧ ws.keys = g.keys ∧ (∀ e ∈ ws, 0 < e.2 ∧ e.2 ≤ 1) ∧ (g ≠ [] → ∃ e ∈ ws, e.2 = 1) := by
  unfold rank
  have hone : R.k.pos.sys.A.ofInt 1 = (1 : ℚ) := by
    rw [hA]
    have := rnd_int 1 (by norm_num)
    show rnd _ = _
    exact_mod_cast this
  have hrone : rnd 1 = 1 := by exact_mod_cast rnd_int 1 (by norm_num)
  simp only [pyDiv, hone]
  have hden : (0 : ℚ) < (if g.length = 0 then 1 else R.k.pos.sys.A.ofInt g.length) ∧
      1 ≤ (if g.length = 0 then 1 else R.k.pos.sys.A.ofInt g.length) := by
    split
    · exact ⟨one_pos, le_refl _⟩
    · next h =>
      rw [hA]
      have h1 : (1 : ℚ) ≤ (dblArith log).ofInt g.length := by
        show 1 ≤ rnd _
        rw [← hrone]
        apply rnd_mono
        have : (1 : Int) ≤ (g.length : Int) := by omega
        exact_mod_cast this
      exact ⟨lt_of_lt_of_le one_pos h1, h1⟩
  generalize (if g.length = 0 then (1 : ℚ) else R.k.pos.sys.A.ofInt g.length) = dn at hden
  rw [if_neg (by rw [hA]; exact ne_of_gt hden.1)]
  simp only []
  have hdiv : R.k.pos.sys.A.div 1 dn = rnd (1 / dn) := by rw [hA]; rfl
  rw [hdiv]
  have hgood : GoodD g (g.map (fun e => (e.1, rnd (1 / dn)))) := by
    refine ⟨by simp [PyDict.keys, Function.comp_def], ?_⟩
    intro n x hx
    rw [get?_map g (fun _ => rnd (1 / dn)) n] at hx
    cases hgn : g.get? n with
    | none => rw [hgn] at hx; cases hx
    | some es =>
      rw [hgn] at hx
      simp only [Option.map_some, Option.some.injEq] at hx
      subst hx
      have h1 : rnd (1 / dn) ≤ 1 := by
        nth_rw 2 [← hrone]
        exact rnd_mono (by rw [div_le_one hden.1]; exact hden.2)
      have h2 : (1 : ℚ) ≤ outWeight g n := by exact_mod_cast outWeight_pos g hg n ((mem_keys_get _ _).mpr ⟨es, hgn⟩)
      exact ⟨rnd_nonneg (le_of_lt (div_pos one_pos hden.1)), by linarith⟩
  obtain ⟨ws, h1, h2, h3⟩ := sweeps_dbl R log hA hd0 hd1 g hg hout (sortedKeys g) (fun n => (sortBy_perm _ _).mem_iff) 10 _ hgood
  rw [h1]
  simp only []
  have hnd : ws.keys.Nodup := by rw [h2.keys]; exact hg.nodup
  have hv : ∀ e ∈ ws, 1 / 8 ≤ e.2 ∧ e.2 < R.fmax := by
    intro e he
    have hget := (PyDict.get?_eq_some_iff_mem ws hnd e.1 e.2).mpr he
    refine ⟨h3 (by omega) e.1 e.2 hget, lt_of_le_of_lt (h2.bound e.1 e.2 hget).2 (lt_of_le_of_lt ?_ hmax)⟩
    have : (outWeight g e.1 : ℚ) ≤ 2 ^ 44 := by exact_mod_cast hout e.1
    linarith
  by_cases hg0 : g = []
  · have : ws = [] := by
      have h := h2.keys
      rw [hg0] at h
      simpa [PyDict.keys] using h
    subst this
    refine ⟨[], rfl, h2.keys, by simp, fun h => absurd hg0 h⟩
  · have hne : ws ≠ [] := by
      rintro rfl
      have h := h2.keys
      apply hg0
      simpa [PyDict.keys] using h.symm
    obtain ⟨⟨m1, m2⟩, m3, ⟨m4, m5⟩, m6⟩ := minMax_spec ws.values R.fmax R.fmin
    change (minMax R ws.values).1 ≤ _ at m1
    change ∀ v ∈ ws.values, (minMax R ws.values).1 ≤ v at m2
    change (minMax R ws.values).1 = _ ∨ (minMax R ws.values).1 ∈ _ at m3
    change _ ≤ (minMax R ws.values).2 at m4
    change ∀ v ∈ ws.values, v ≤ (minMax R ws.values).2 at m5
    change (minMax R ws.values).2 = _ ∨ (minMax R ws.values).2 ∈ _ at m6
    generalize (minMax R ws.values).1 = mn at m1 m2 m3
    generalize (minMax R ws.values).2 = mx at m4 m5 m6
    obtain ⟨e0, he0⟩ := List.exists_mem_of_ne_nil ws hne
    have hmem : ∀ e ∈ ws, e.2 ∈ ws.values := fun e he => List.mem_map_of_mem he
    have hmn : mn ∈ ws.values := by
      rcases m3 with h | h
      · exfalso
        have := m2 _ (hmem _ he0)
        have := (hv e0 he0).2
        linarith
      · exact h
    have hmx : mx ∈ ws.values := by
      rcases m6 with h | h
      · exfalso
        have := m5 _ (hmem _ he0)
        have := (hv e0 he0).1
        linarith
      · exact h
    obtain ⟨e1, he1, hmn1⟩ := List.mem_map.mp hmn
    have hmnpos : 0 < mn := by have := (hv e1 he1).1; rw [← hmn1]; linarith
    have hm10 : rnd (mn / 10) < mn := by
      have := rnd_le_mul (show 0 ≤ mn / 10 by linarith)
      have : mn / 10 * (1 + 1 / 2 ^ 53) < mn := by
        rw [div_mul_eq_mul_div, div_lt_iff₀ (by norm_num)]
        exact mul_lt_mul_of_pos_left (by norm_num) hmnpos
      linarith
    have hle := m2 _ hmx
    have hden : 0 < rnd (mx - rnd (mn / 10)) := rnd_pos (by linarith)
    rw [hA, normalise_dbl log _ _ (ne_of_gt hden)]
    refine ⟨_, rfl, ?_, ?_, ?_⟩
    · rw [← h2.keys]; simp [PyDict.keys, Function.comp_def]
    · intro e he
      obtain ⟨e', he', rfl⟩ := List.mem_map.mp he
      have a1 := m2 _ (hmem e' he')
      have a2 := m5 _ (hmem e' he')
      constructor
      · exact rnd_pos (div_pos (rnd_pos (by linarith)) hden)
      · refine le_trans (rnd_mono (y := 1) ?_) (le_of_eq hrone)
        rw [div_le_one hden]
        exact rnd_mono (by linarith)
    · intro _
      obtain ⟨e2, he2, hmx2⟩ := List.mem_map.mp hmx
      refine ⟨_, List.mem_map_of_mem he2, ?_⟩
      simp only []
      rw [hmx2, div_self (ne_of_gt hden)]
      exact hrone

end Analyse
end Jieba
