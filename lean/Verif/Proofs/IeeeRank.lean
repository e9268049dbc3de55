import Verif.Proofs.IeeeSuggest
import Verif.Proofs.RankDoubles
/-!
# The bounded exponents make no difference to TextRank
-/

namespace Jieba
open Jieba.Spec

/-- Between 2^-200 and 2^200 the limits are far. -/
theorem rndIeee_mid (over : ℚ → ℚ) {x : ℚ} (h : x = 0 ∨ 1 / 2 ^ 200 ≤ x) (hu : x ≤ 2 ^ 200) : rndIeee over x = rnd x := by
  have h0 : 0 ≤ x := by
    rcases h with rfl | h
    · exact le_refl _
    · exact le_trans (by positivity) h
  refine rndIeee_normal over ?_ ?_
  · rcases h with h | h
    · exact Or.inl h
    · right
      rw [abs_of_nonneg h0]
      refine le_trans ?_ h
      rw [one_div, ← zpow_natCast, ← zpow_neg]
      exact zpow_le_zpow_right₀ (by norm_num) (by norm_num)
  · rw [abs_of_nonneg h0]
    exact hu.trans (pow_le_pow_right₀ (by norm_num) (by norm_num))

theorem rnd_inv_pow (n : ℕ) : rnd (1 / 2 ^ n) = 1 / 2 ^ n := by
  have := rnd_two_zpow (-(n : ℤ))
  rwa [zpow_neg, zpow_natCast, ← one_div] at this

theorem le_rnd_inv {x : ℚ} {n : ℕ} (h : 1 / 2 ^ n ≤ x) : 1 / 2 ^ n ≤ rnd x := by
  have := rnd_mono h
  rwa [rnd_inv_pow] at this

theorem rnd_le_pow {x : ℚ} {n : ℕ} (h : x ≤ 2 ^ n) : rnd x ≤ 2 ^ n := by
  have := rnd_mono h
  rwa [rnd_two_pow] at this

namespace Analyse

variable (log : Nat → ℚ) (over : ℚ → ℚ)

theorem ofInt_ieee (n : Nat) (h : n ≤ 2 ^ 53) : (ieeeArith log over).ofInt n = (n : ℚ) ∧ (dblArith log).ofInt n = (n : ℚ) := by
  have h1 := rndIeee_int over (n : ℤ) (2 ^ 53) (by omega) (by exact_mod_cast h) le_rfl
  have h2 := rnd_int_mem (n : ℤ) (2 ^ 53) (by omega) (by exact_mod_cast h) le_rfl
  rw [Int.cast_natCast] at h1 h2
  constructor
  · show rndIeee over ((n : ℤ) : ℚ) = _
    rw [Int.cast_natCast]; exact h1
  · show rnd ((n : ℤ) : ℚ) = _
    rw [Int.cast_natCast]; exact h2

theorem sumOut_ieee (es : List (Key × Nat)) (h : (es.map Prod.snd).sum ≤ 2 ^ 53) :
    sumOut (ieeeArith log over) es = ((es.map Prod.snd).sum : Nat) := by
  have : ∀ (es : List (Key × Nat)) (k : Nat), k + (es.map Prod.snd).sum ≤ 2 ^ 53 →
      es.foldl (fun s e => (ieeeArith log over).add s ((ieeeArith log over).ofInt e.2)) (k : ℚ) = ((k + (es.map Prod.snd).sum : Nat) : ℚ) := by
    intro es
    induction es with
    | nil => intro k _; simp
    | cons e es ih =>
      intro k hk
      simp only [List.map_cons, List.sum_cons] at hk
      rw [List.foldl_cons]
      have e2 : (ieeeArith log over).add (k : ℚ) (e.2 : ℚ) = ((k + e.2 : Nat) : ℚ) := by
        have := (ofInt_ieee log over (k + e.2) (by omega)).1
        rw [← this]
        show rndIeee over _ = rndIeee over _
        push_cast; rfl
      rw [(ofInt_ieee log over e.2 (by omega)).1, e2, ih (k + e.2) (by omega)]
      simp [add_assoc]
  have h0 := this es 0 (by simpa using h)
  simp only [Nat.cast_zero, Nat.zero_add] at h0
  exact h0

/-- No value is tiny. -/
def LowD (ws : PyDict Key ℚ) : Prop := ∀ n x, ws.get? n = some x → 1 / 2 ^ 54 ≤ x

theorem edgeSum_ieee (g : Graph) (hg : GraphOK g) (hout : ∀ n, outWeight g n ≤ 2 ^ 44) (ws : PyDict Key ℚ) (hw : GoodD g ws) (hl : LowD ws)
    (o : PyDict Key ℚ) (hoo : o = g.map (fun e => (e.1, (((e.2.map Prod.snd).sum : Nat) : ℚ))))
    (es : List (Key × Nat)) (he : ∀ e ∈ es, e.1 ∈ g.keys ∧ 1 ≤ e.2 ∧ e.2 ≤ 2 ^ 44) (k : ℕ) (hk : k + es.length ≤ 2 ^ 50)
    (s : ℚ) (hs : s = 0 ∨ 1 / 2 ^ 100 ≤ s) (hsu : s ≤ k * 2 ^ 90) :
    ∃ r, edgeSum (ieeeArith log over) o ws es s = .ok r ∧ edgeSum (dblArith log) o ws es s = .ok r ∧ (r = 0 ∨ 1 / 2 ^ 100 ≤ r) ∧
      r ≤ (k + es.length : ℕ) * 2 ^ 90 := by
  induction es generalizing s k with
  | nil => exact ⟨s, rfl, rfl, hs, by simpa using hsu⟩
  | cons e es ih =>
    obtain ⟨b, w⟩ := e
    obtain ⟨hb, hwb1, hwb⟩ := he _ List.mem_cons_self
    simp only [] at hb hwb hwb1
    obtain ⟨eb, heb⟩ := (mem_keys_get g b).mp hb
    obtain ⟨x, hx⟩ := (mem_keys_get ws b).mp (by rw [hw.keys]; exact hb)
    obtain ⟨-, hx1⟩ := hw.bound b x hx
    have hx0 := hl b x hx
    have hpos := outWeight_pos g hg b hb
    have hsum : ((eb.map Prod.snd).sum) = outWeight g b := by unfold outWeight; rw [heb]; rfl
    have hget : o.get? b = some (outWeight g b : ℚ) := by
      rw [hoo, get?_map g (fun es => (((es.map Prod.snd).sum : Nat) : ℚ)), heb, Option.map_some, hsum]
    have ho1 : (1 : ℚ) ≤ (outWeight g b : ℚ) := by exact_mod_cast hpos
    have ho2 : (outWeight g b : ℚ) ≤ 2 ^ 44 := by exact_mod_cast hout b
    generalize (outWeight g b : ℚ) = ob at *
    have hi0 : ob ≠ (ieeeArith log over).zero := by show ob ≠ 0; linarith
    have hd0 : ob ≠ (dblArith log).zero := by show ob ≠ 0; linarith
    obtain ⟨oi, od⟩ := ofInt_ieee log over w (by omega)
    simp only [edgeSum, getItem, hget, pyDiv, if_neg hi0, if_neg hd0, hx, oi, od]
    have hw1 : (1 : ℚ) ≤ (w : ℚ) := by exact_mod_cast hwb1
    have hw2 : (w : ℚ) ≤ 2 ^ 44 := by exact_mod_cast hwb
    have q1 : 1 / 2 ^ 44 ≤ (w : ℚ) / ob := by
      rw [div_le_div_iff₀ (by norm_num) (by linarith)]
      nlinarith
    have q2 : (w : ℚ) / ob ≤ 2 ^ 44 := (div_le_self (by linarith) ho1).trans hw2
    have Q : rndIeee over ((w : ℚ) / ob) = rnd ((w : ℚ) / ob) :=
      rndIeee_mid over (Or.inr (le_trans (by norm_num) q1)) (q2.trans (by norm_num))
    have q1' := le_rnd_inv q1
    have q2' := rnd_le_pow q2
    have hx2 : x ≤ 2 ^ 45 := hx1.trans (by linarith)
    have eI : (ieeeArith log over).div (w : ℚ) ob = rnd ((w : ℚ) / ob) := Q
    have eD : (dblArith log).div (w : ℚ) ob = rnd ((w : ℚ) / ob) := rfl
    rw [eI, eD]
    generalize rnd ((w : ℚ) / ob) = q at *
    have hq0 : 0 ≤ q := le_trans (by norm_num) q1'
    have hxx0 : 0 ≤ x := le_trans (by norm_num) hx0
    have y1 : 1 / 2 ^ 98 ≤ q * x := by
      calc (1 / 2 ^ 98 : ℚ) = 1 / 2 ^ 44 * (1 / 2 ^ 54) := by norm_num
        _ ≤ q * x := mul_le_mul q1' hx0 (by norm_num) hq0
    have y2 : q * x ≤ 2 ^ 89 := by
      calc q * x ≤ 2 ^ 44 * 2 ^ 45 := mul_le_mul q2' hx2 hxx0 (by norm_num)
        _ = 2 ^ 89 := by norm_num
    have eI2 : (ieeeArith log over).mul q x = rnd (q * x) :=
      rndIeee_mid over (Or.inr (le_trans (by norm_num) y1)) (y2.trans (by norm_num))
    have eD2 : (dblArith log).mul q x = rnd (q * x) := rfl
    rw [eI2, eD2]
    have y1' := le_rnd_inv y1
    have y2' := rnd_le_pow y2
    generalize rnd (q * x) = y at *
    have hs0 : 0 ≤ s := by
      rcases hs with rfl | hs
      · exact le_refl _
      · exact le_trans (by norm_num) hs
    have z1 : 1 / 2 ^ 98 ≤ s + y := by linarith
    have hk50 : (k : ℚ) ≤ 2 ^ 50 := by
      have : k ≤ 2 ^ 50 := by omega
      exact_mod_cast this
    have z2 : s + y ≤ k * 2 ^ 90 + 2 ^ 89 := add_le_add hsu y2'
    have z3 : s + y ≤ 2 ^ 200 := by
      refine z2.trans ?_
      have : (k : ℚ) * 2 ^ 90 ≤ 2 ^ 50 * 2 ^ 90 := mul_le_mul_of_nonneg_right hk50 (by norm_num)
      exact le_trans (add_le_add this (le_refl _)) (by norm_num)
    have eI3 : (ieeeArith log over).add s y = rnd (s + y) := rndIeee_mid over (Or.inr (le_trans (by norm_num) z1)) z3
    have eD3 : (dblArith log).add s y = rnd (s + y) := rfl
    rw [eI3, eD3]
    have z1' := le_rnd_inv z1
    have z4 : rnd (s + y) ≤ (k + 1 : ℕ) * 2 ^ 90 := by
      refine (rnd_le_mul (by linarith)).trans ?_
      have h1 : (s + y) * (1 + 1 / 2 ^ 53) ≤ (k * 2 ^ 90 + 2 ^ 89) * (1 + 1 / 2 ^ 53) := mul_le_mul_of_nonneg_right z2 (by norm_num)
      refine h1.trans ?_
      have h2 : ((k : ℚ) + 1 / 2) * (1 + 1 / 2 ^ 53) ≤ k + 1 := by
        clear * - hk50
        generalize (k : ℚ) = c at *
        linarith
      have e : ((k : ℚ) * 2 ^ 90 + 2 ^ 89) * (1 + 1 / 2 ^ 53) = ((k : ℚ) + 1 / 2) * (1 + 1 / 2 ^ 53) * 2 ^ 90 := by ring
      rw [e, Nat.cast_add, Nat.cast_one]
      exact mul_le_mul_of_nonneg_right h2 (by norm_num)
    simp only [List.length_cons] at hk
    obtain ⟨r, h1, h2, h3, h4⟩ := ih (fun e h => he e (List.mem_cons_of_mem _ h)) (k + 1) (by omega) (rnd (s + y))
      (Or.inr (le_trans (by norm_num) z1')) z4
    refine ⟨r, h1, h2, h3, ?_⟩
    rw [List.length_cons, show k + (es.length + 1) = k + 1 + es.length by omega]
    exact h4

/-- What is the same in both. -/
structure SameButArith (R R' : RSys ℚ) : Prop where
  ieee : R.k.pos.sys.A = ieeeArith log over
  dbl : R'.k.pos.sys.A = dblArith log
  d : R'.d = R.d
  fmax : R'.fmax = R.fmax
  fmin : R'.fmin = R.fmin

variable {log over}

theorem sweep_ieee {R R' : RSys ℚ} (hR : SameButArith log over R R') (hd0 : 1 / 8 ≤ R.d) (hd1 : R.d ≤ 7 / 8) (g : Graph) (hg : GraphOK g)
    (hout : ∀ n, outWeight g n ≤ 2 ^ 44) (o : PyDict Key ℚ) (hoo : o = g.map (fun e => (e.1, (((e.2.map Prod.snd).sum : Nat) : ℚ))))
    (ns : List Key) (hns : ∀ n ∈ ns, n ∈ g.keys) (ws : PyDict Key ℚ) (hw : GoodD g ws) (hl : LowD ws) :
    ∃ ws', sweep R g o ns ws = .ok ws' ∧ sweep R' g o ns ws = .ok ws' ∧ GoodD g ws' ∧ LowD ws' := by
  induction ns generalizing ws with
  | nil => exact ⟨ws, rfl, rfl, hw, hl⟩
  | cons n ns ih =>
    have hn := hns n List.mem_cons_self
    obtain ⟨es, he⟩ := (mem_keys_get g n).mp hn
    have hsum : (es.map Prod.snd).sum = outWeight g n := by unfold outWeight; rw [he]; rfl
    have hlen : es.length ≤ outWeight g n := by
      rw [← hsum]; exact length_le_sum es (fun e h => ((hg.edges n es he).2 e h).2)
    have hon := hout n
    obtain ⟨r, h1, h2, h3, h4⟩ := edgeSum_ieee log over g hg hout ws hw hl o hoo es
      (fun e h => ⟨((hg.edges n es he).2 e h).1, ((hg.edges n es he).2 e h).2, le_trans (mem_le_sum es e h) (by rw [hsum]; exact hout n)⟩)
      0 (by omega) 0 (Or.inl rfl) (by simp)
    have hd' : R'.d = R.d := hR.d
    have hoo' : o = g.map (fun e => (e.1, sumOut R'.k.pos.sys.A e.2)) := by
      rw [hoo, hR.dbl]
      apply List.map_congr_left
      intro e hem
      have hge := (PyDict.get?_eq_some_iff_mem g hg.nodup e.1 e.2).mpr hem
      have : (e.2.map Prod.snd).sum = outWeight g e.1 := by unfold outWeight; rw [hge]; rfl
      rw [sumOut_dbl log e.2 (by have := hout e.1; omega)]
    -- one step with doubles
    obtain ⟨ws1, k1, k2, k3, k4⟩ := sweep_dbl R' log hR.dbl (by rw [hd']; linarith) (by rw [hd']; exact hd1) g hg hout [n]
      (fun m hm => by rw [List.mem_singleton.mp hm]; exact hn) ws hw
    rw [← hoo'] at k1
    have zI : R.k.pos.sys.A.zero = (0 : ℚ) := by rw [hR.ieee]; rfl
    have zD : R'.k.pos.sys.A.zero = (0 : ℚ) := by rw [hR.dbl]; rfl
    have h1' : edgeSum R.k.pos.sys.A o ws es R.k.pos.sys.A.zero = .ok r := by rw [zI, hR.ieee]; exact h1
    have h2' : edgeSum R'.k.pos.sys.A o ws es R'.k.pos.sys.A.zero = .ok r := by rw [zD, hR.dbl]; exact h2
    simp only [sweep, getItem, he, h2', Except.ok.injEq] at k1
    simp only [sweep, getItem, he, h1', h2']
    have o1 := ofInt_ieee log over 1 (by norm_num)
    rw [Nat.cast_one, Nat.cast_one] at o1
    have hval : R.k.pos.sys.A.add (R.k.pos.sys.A.sub (R.k.pos.sys.A.ofInt 1) R.d) (R.k.pos.sys.A.mul R.d r) =
        R'.k.pos.sys.A.add (R'.k.pos.sys.A.sub (R'.k.pos.sys.A.ofInt 1) R'.d) (R'.k.pos.sys.A.mul R'.d r) := by
      rw [hd', hR.ieee, hR.dbl]
      rw [o1.1, o1.2]
      show rndIeee over (rndIeee over (1 - R.d) + rndIeee over (R.d * r)) = rnd (rnd (1 - R.d) + rnd (R.d * r))
      have hr0 : 0 ≤ r := by
        rcases h3 with rfl | h
        · exact le_refl _
        · exact le_trans (by norm_num) h
      have hr2 : r ≤ 2 ^ 135 := by
        refine h4.trans ?_
        have : ((0 + es.length : ℕ) : ℚ) ≤ 2 ^ 44 := by
          have : 0 + es.length ≤ 2 ^ 44 := by omega
          exact_mod_cast this
        exact (mul_le_mul_of_nonneg_right this (by norm_num)).trans (by norm_num)
      have e1 : rndIeee over (1 - R.d) = rnd (1 - R.d) :=
        rndIeee_mid over (Or.inr (le_trans (by norm_num) (show 1 / 8 ≤ 1 - R.d by linarith))) (le_trans (show 1 - R.d ≤ 1 by linarith) (by norm_num))
      have b1 : R.d * r ≤ 2 ^ 135 := (mul_le_of_le_one_left hr0 (by linarith)).trans hr2
      have e2 : rndIeee over (R.d * r) = rnd (R.d * r) := by
        refine rndIeee_mid over ?_ (b1.trans (by norm_num))
        rcases h3 with rfl | h
        · left; rw [mul_zero]
        · right
          calc (1 / 2 ^ 200 : ℚ) ≤ 1 / 8 * (1 / 2 ^ 100) := by norm_num
            _ ≤ R.d * r := mul_le_mul hd0 h (by norm_num) (by linarith)
      rw [e1, e2]
      have c0 : 1 / 2 ^ 3 ≤ rnd (1 - R.d) := le_rnd_inv (by norm_num; linarith)
      have c1 : rnd (1 - R.d) ≤ 2 ^ 0 := rnd_le_pow (by rw [pow_zero]; linarith)
      have m0 : 0 ≤ rnd (R.d * r) := rnd_nonneg (mul_nonneg (by linarith) hr0)
      have m1 : rnd (R.d * r) ≤ 2 ^ 135 := rnd_le_pow b1
      refine rndIeee_mid over (Or.inr (le_trans (by norm_num) (show 1 / 2 ^ 3 ≤ rnd (1 - R.d) + rnd (R.d * r) by linarith))) ?_
      exact (add_le_add c1 m1).trans (by norm_num)
    rw [hval, k1]
    refine ih (fun m hm => hns m (List.mem_cons_of_mem _ hm)) ws1 k2 ?_
    intro m x hx
    by_cases hmn : m = n
    · exact le_trans (by norm_num) (k3 m x (by rw [hmn]; exact List.mem_singleton_self n) hx)
    · rw [← k1, PyDict.get?_set, if_neg (fun h => hmn h.symm)] at hx
      exact hl m x hx

theorem sweeps_ieee {R R' : RSys ℚ} (hR : SameButArith log over R R') (hd0 : 1 / 8 ≤ R.d) (hd1 : R.d ≤ 7 / 8) (g : Graph) (hg : GraphOK g)
    (hout : ∀ n, outWeight g n ≤ 2 ^ 44) (o : PyDict Key ℚ) (hoo : o = g.map (fun e => (e.1, (((e.2.map Prod.snd).sum : Nat) : ℚ))))
    (ns : List Key) (hns : ∀ n ∈ ns, n ∈ g.keys) (k : Nat) (ws : PyDict Key ℚ) (hw : GoodD g ws) (hl : LowD ws) :
    sweeps R g o ns k ws = sweeps R' g o ns k ws := by
  induction k generalizing ws with
  | zero => rfl
  | succ k ih =>
    obtain ⟨ws', h1, h2, h3, h4⟩ := sweep_ieee hR hd0 hd1 g hg hout o hoo ns hns ws hw hl
    simp only [sweeps, h1, h2]
    exact ih ws' h3 h4

theorem normalise_ieee (mn mx : ℚ) (h1 : 1 / 8 ≤ mn) (h2 : mn ≤ mx) (h3 : mx ≤ 2 ^ 45) (ws : PyDict Key ℚ) (hw : ∀ e ∈ ws, mn ≤ e.2 ∧ e.2 ≤ mx) :
    normalise (ieeeArith log over) mn mx ws = normalise (dblArith log) mn mx ws := by
  induction ws with
  | nil => rfl
  | cons e ws ih =>
    obtain ⟨n, w⟩ := e
    obtain ⟨w1, w2⟩ := hw _ List.mem_cons_self
    simp only [] at w1 w2
    have o10 := ofInt_ieee log over 10 (by norm_num)
    have e10 : ((10 : ℕ) : ℚ) = 10 := by norm_num
    rw [e10] at o10
    have oI : (ieeeArith log over).ofInt 10 = 10 := o10.1
    have oD : (dblArith log).ofInt 10 = 10 := o10.2
    have hi0 : (10 : ℚ) ≠ (ieeeArith log over).zero := by show (10 : ℚ) ≠ 0; norm_num
    have hd0 : (10 : ℚ) ≠ (dblArith log).zero := by show (10 : ℚ) ≠ 0; norm_num
    have a1 : (ieeeArith log over).div mn 10 = rnd (mn / 10) :=
      rndIeee_mid over (Or.inr (le_trans (show (1 / 2 ^ 200 : ℚ) ≤ 1 / 80 by norm_num) (by linarith)))
        (le_trans (show mn / 10 ≤ 2 ^ 45 by linarith) (by norm_num))
    have a2 : (dblArith log).div mn 10 = rnd (mn / 10) := rfl
    have hm1 : rnd (mn / 10) ≤ mn / 2 := by
      refine (rnd_le_mul (by linarith)).trans ?_
      norm_num
      linarith
    have hm0 : 0 ≤ rnd (mn / 10) := rnd_nonneg (by linarith)
    simp only [normalise, pyDiv, oI, oD, if_neg hi0, if_neg hd0, a1, a2]
    generalize rnd (mn / 10) = m at *
    have sub : ∀ v, mn ≤ v → v ≤ mx → (ieeeArith log over).sub v m = rnd (v - m) ∧ 1 / 2 ^ 4 ≤ rnd (v - m) ∧ rnd (v - m) ≤ 2 ^ 45 := by
      intro v v1 v2
      have l : 1 / 2 ^ 4 ≤ v - m := by norm_num; linarith
      have u : v - m ≤ 2 ^ 45 := by linarith
      exact ⟨rndIeee_mid over (Or.inr (le_trans (by norm_num) l)) (u.trans (by norm_num)), le_rnd_inv l, rnd_le_pow u⟩
    obtain ⟨s1, s2, s3⟩ := sub w w1 w2
    obtain ⟨t1, t2, t3⟩ := sub mx h2 (le_refl _)
    have b1 : (dblArith log).sub w m = rnd (w - m) := rfl
    have b2 : (dblArith log).sub mx m = rnd (mx - m) := rfl
    rw [s1, t1, b1, b2]
    generalize rnd (w - m) = x at *
    generalize rnd (mx - m) = y at *
    have yp : 0 < y := lt_of_lt_of_le (by norm_num) t2
    have yi : y ≠ (ieeeArith log over).zero := by show y ≠ 0; linarith
    have yd : y ≠ (dblArith log).zero := by show y ≠ 0; linarith
    have q : (ieeeArith log over).div x y = rnd (x / y) := by
      refine rndIeee_mid over (Or.inr ?_) ?_
      · rw [div_le_div_iff₀ (by norm_num) yp]
        have : (1 / 2 ^ 4 : ℚ) * 2 ^ 200 ≤ x * 2 ^ 200 := mul_le_mul_of_nonneg_right s2 (by norm_num)
        refine le_trans ?_ this
        rw [one_mul]
        exact t3.trans (by norm_num)
      · rw [div_le_iff₀ yp]
        have : (2 : ℚ) ^ 200 * (1 / 2 ^ 4) ≤ 2 ^ 200 * y := mul_le_mul_of_nonneg_left t2 (by norm_num)
        exact le_trans (s3.trans (by norm_num)) this
    have q' : (dblArith log).div x y = rnd (x / y) := rfl
    rw [if_neg yi, if_neg yd, q, q', ih (fun e h => hw e (List.mem_cons_of_mem _ h))]

/-- `rank` with the exponents of doubles is `rank` without limits. -/
theorem rank_ieee {R R' : RSys ℚ} (hR : SameButArith log over R R') (hd0 : 1 / 8 ≤ R.d) (hd1 : R.d ≤ 7 / 8) (hmin : R.fmin < 1 / 8)
    (hmax : 2 ^ 45 < R.fmax) (g : Graph) (hg : GraphOK g) (hout : ∀ n, outWeight g n ≤ 2 ^ 44) (hlen : g.length ≤ 2 ^ 53) :
    rank R g = rank R' g := by
  unfold rank
  have hd' : R'.d = R.d := hR.d
  have o1 := ofInt_ieee log over 1 (by norm_num)
  have ol := ofInt_ieee log over g.length hlen
  rw [Nat.cast_one, Nat.cast_one] at o1
  have a1 : R.k.pos.sys.A.ofInt 1 = 1 := by rw [hR.ieee]; exact o1.1
  have a2 : R'.k.pos.sys.A.ofInt 1 = 1 := by rw [hR.dbl]; exact o1.2
  have a3 : R.k.pos.sys.A.ofInt g.length = g.length := by rw [hR.ieee]; exact ol.1
  have a4 : R'.k.pos.sys.A.ofInt g.length = g.length := by rw [hR.dbl]; exact ol.2
  have zI : R.k.pos.sys.A.zero = (0 : ℚ) := by rw [hR.ieee]; rfl
  have zD : R'.k.pos.sys.A.zero = (0 : ℚ) := by rw [hR.dbl]; rfl
  have hden : (1 : ℚ) ≤ (if g.length = 0 then 1 else (g.length : ℚ)) ∧ (if g.length = 0 then 1 else (g.length : ℚ)) ≤ 2 ^ 53 := by
    split
    · exact ⟨le_refl _, by norm_num⟩
    · next h =>
      constructor
      · have : 1 ≤ g.length := by omega
        exact_mod_cast this
      · exact_mod_cast hlen
  simp only [pyDiv, a1, a2, a3, a4, zI, zD]
  generalize (if g.length = 0 then (1 : ℚ) else (g.length : ℚ)) = dn at hden
  have hdp : 0 < dn := by linarith [hden.1]
  have l1 : 1 / 2 ^ 54 ≤ 1 / dn := one_div_le_one_div_of_le hdp (hden.2.trans (by norm_num))
  have u1 : 1 / dn ≤ 2 ^ 0 := by rw [pow_zero, div_le_one hdp]; exact hden.1
  have dI : R.k.pos.sys.A.div 1 dn = rnd (1 / dn) := by
    rw [hR.ieee]
    exact rndIeee_mid over (Or.inr (le_trans (by norm_num) l1)) (u1.trans (by norm_num))
  have dD : R'.k.pos.sys.A.div 1 dn = rnd (1 / dn) := by rw [hR.dbl]; rfl
  rw [if_neg hdp.ne', if_neg hdp.ne', dI, dD]
  simp only []
  have l1' := le_rnd_inv l1
  have u1' := rnd_le_pow u1
  generalize rnd (1 / dn) = v at *
  have hsums : ∀ e ∈ g, (e.2.map Prod.snd).sum ≤ 2 ^ 53 := by
    intro e hem
    have hge := (PyDict.get?_eq_some_iff_mem g hg.nodup e.1 e.2).mpr hem
    have : (e.2.map Prod.snd).sum = outWeight g e.1 := by unfold outWeight; rw [hge]; rfl
    have := hout e.1
    omega
  have oI : g.map (fun e => (e.1, sumOut R.k.pos.sys.A e.2)) = g.map (fun e => (e.1, (((e.2.map Prod.snd).sum : Nat) : ℚ))) := by
    rw [hR.ieee]
    exact List.map_congr_left (fun e he => by rw [sumOut_ieee log over e.2 (hsums e he)])
  have oD : g.map (fun e => (e.1, sumOut R'.k.pos.sys.A e.2)) = g.map (fun e => (e.1, (((e.2.map Prod.snd).sum : Nat) : ℚ))) := by
    rw [hR.dbl]
    exact List.map_congr_left (fun e he => by rw [sumOut_dbl log e.2 (hsums e he)])
  have hgood : GoodD g (g.map (fun e => (e.1, v))) ∧ LowD (g.map (fun e => (e.1, v))) := by
    have key : ∀ n x, PyDict.get? (g.map (fun e => (e.1, v))) n = some x → n ∈ g.keys ∧ x = v := by
      intro n x hx
      rw [get?_map g (fun _ => v) n] at hx
      cases hgn : g.get? n with
      | none => rw [hgn] at hx; cases hx
      | some es =>
        rw [hgn] at hx
        simp only [Option.map_some, Option.some.injEq] at hx
        exact ⟨(mem_keys_get _ _).mpr ⟨es, hgn⟩, hx.symm⟩
    refine ⟨⟨by simp [PyDict.keys, Function.comp_def], ?_⟩, ?_⟩
    · intro n x hx
      obtain ⟨hn, rfl⟩ := key n x hx
      have h2 : (1 : ℚ) ≤ outWeight g n := by exact_mod_cast outWeight_pos g hg n hn
      rw [pow_zero] at u1'
      exact ⟨le_trans (by norm_num) l1', by linarith⟩
    · intro n x hx
      obtain ⟨-, rfl⟩ := key n x hx
      exact l1'
  have hs := sweeps_ieee hR hd0 hd1 g hg hout _ rfl (sortedKeys g) (fun n hn => (sortBy_perm _ _).mem_iff.mp hn) 10 _ hgood.1 hgood.2
  obtain ⟨ws, h1, h2, h3⟩ := sweeps_dbl R' log hR.dbl (by rw [hd']; linarith) (by rw [hd']; exact hd1) g hg hout (sortedKeys g)
    (fun n => (sortBy_perm _ _).mem_iff) 10 _ hgood.1
  rw [oD] at h1
  rw [oI, oD, hs, h1]
  simp only []
  have hmm : minMax R ws.values = minMax R' ws.values := by unfold minMax; rw [hR.fmax, hR.fmin]
  rw [hmm, hR.ieee, hR.dbl]
  have hnd : ws.keys.Nodup := by rw [h2.keys]; exact hg.nodup
  have hv : ∀ e ∈ ws, 1 / 8 ≤ e.2 ∧ e.2 ≤ 2 ^ 45 := by
    intro e he
    have hget := (PyDict.get?_eq_some_iff_mem ws hnd e.1 e.2).mpr he
    refine ⟨h3 (by omega) e.1 e.2 hget, (h2.bound e.1 e.2 hget).2.trans ?_⟩
    have : (outWeight g e.1 : ℚ) ≤ 2 ^ 44 := by exact_mod_cast hout e.1
    linarith
  by_cases hne : ws = []
  · subst hne; rfl
  obtain ⟨⟨-, m2⟩, m3, ⟨-, m5⟩, m6⟩ := minMax_spec ws.values R'.fmax R'.fmin
  change ∀ v ∈ ws.values, (minMax R' ws.values).1 ≤ v at m2
  change (minMax R' ws.values).1 = _ ∨ (minMax R' ws.values).1 ∈ _ at m3
  change ∀ v ∈ ws.values, v ≤ (minMax R' ws.values).2 at m5
  change (minMax R' ws.values).2 = _ ∨ (minMax R' ws.values).2 ∈ _ at m6
  generalize (minMax R' ws.values).1 = mn at m2 m3
  generalize (minMax R' ws.values).2 = mx at m5 m6
  rw [hR.fmax] at m3
  rw [hR.fmin] at m6
  obtain ⟨e0, he0⟩ := List.exists_mem_of_ne_nil ws hne
  have hmem : ∀ e ∈ ws, e.2 ∈ ws.values := fun e he => List.mem_map_of_mem he
  have hmn : mn ∈ ws.values := by
    rcases m3 with h | h
    · exfalso
      have := m2 _ (hmem _ he0)
      have := (hv e0 he0).2
      linarith
    · exact h
  have hmx : mx ∈ ws.values := by
    rcases m6 with h | h
    · exfalso
      have := m5 _ (hmem _ he0)
      have := (hv e0 he0).1
      linarith
    · exact h
  obtain ⟨e1, he1, hmn1⟩ := List.mem_map.mp hmn
  obtain ⟨e2, he2, hmx2⟩ := List.mem_map.mp hmx
  refine normalise_ieee mn mx ?_ (m2 _ hmx) ?_ ws (fun e he => ⟨m2 _ (hmem e he), m5 _ (hmem e he)⟩)
  · rw [← hmn1]; exact (hv e1 he1).1
  · rw [← hmx2]; exact (hv e2 he2).2

end Analyse
end Jieba
