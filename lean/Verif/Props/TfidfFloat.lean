import Verif.Proofs.RankRound
import Verif.Proofs.IeeeRank
import Verif.Props.Keywords
import Verif.Props.SampleKeywords
/-!
# C105 — TF-IDF with IEEE doubles
-/

namespace Jieba.Props
open Jieba Jieba.Spec Jieba.Pos Jieba.Analyse

/-- An idf value that is zero or far from the limits of doubles. -/
def FarIdf (x : ℚ) : Prop := x = 0 ∨ 1 / 2 ^ 100 ≤ x ∧ x ≤ 2 ^ 100

theorem ieee_nat (over : ℚ → ℚ) (n : Nat) (h : n ≤ 2 ^ 53) : rndIeee over (n : ℚ) = n := by
  have := rndIeee_int over (n : ℤ) (2 ^ 53) (by omega) (by exact_mod_cast h) le_rfl
  exact_mod_cast this

theorem ones_ieee (log : Nat → ℚ) (over : ℚ → ℚ) (n : Nat) (h : n ≤ 2 ^ 53) : ones (ieeeArith log over) n = n := by
  induction n with
  | zero => rfl
  | succ n ih =>
    have h1 : (ieeeArith log over).ofInt 1 = ((1 : ℕ) : ℚ) := by
      have := ieee_nat over 1 (by norm_num)
      show rndIeee over _ = _
      exact_mod_cast this
    have h2 : (ieeeArith log over).add (n : ℚ) ((1 : ℕ) : ℚ) = rndIeee over ((n + 1 : ℕ) : ℚ) := by
      rw [Nat.cast_add]; rfl
    rw [ones, ih (by omega), h1, h2, ieee_nat over _ h]

theorem foldl_ieee (log : Nat → ℚ) (over : ℚ → ℚ) (l : List Nat) (k : Nat) (h : k + l.sum ≤ 2 ^ 53) :
    (l.map (fun n : ℕ => (n : ℚ))).foldl (ieeeArith log over).add (k : ℚ) = ((k + l.sum : Nat) : ℚ) := by
  induction l generalizing k with
  | nil => simp
  | cons a l ih =>
    rw [List.sum_cons] at h
    have h2 : (ieeeArith log over).add (k : ℚ) (a : ℚ) = ((k + a : ℕ) : ℚ) := by
      have : (ieeeArith log over).add (k : ℚ) (a : ℚ) = rndIeee over ((k + a : ℕ) : ℚ) := by rw [Nat.cast_add]; rfl
      rw [this, ieee_nat over _ (by omega)]
    rw [List.map_cons, List.foldl_cons, h2, ih _ (by omega), List.sum_cons, add_assoc]

theorem total_ieee (log : Nat → ℚ) (over : ℚ → ℚ) (ks : List Key) (h : ks.length ≤ 2 ^ 53) :
    (countKeys (ieeeArith log over) ks).values.foldl (ieeeArith log over).add (ieeeArith log over).zero = ks.length := by
  have hperm : (countKeys (ieeeArith log over) ks).keys.Perm ks.dedup :=
    (List.perm_ext_iff_of_nodup (countKeys_nodup _ ks) (List.nodup_dedup ks)).mpr (fun k => by
      rw [countKeys_mem, List.mem_dedup])
  have hsum : ((countKeys (ieeeArith log over) ks).keys.map (fun k => ks.count k)).sum = ks.length := by
    rw [(hperm.map _).sum_eq, List.sum_map_count_dedup_eq_length]
  have hvals : (countKeys (ieeeArith log over) ks).values = ((countKeys (ieeeArith log over) ks).keys.map (fun k => ks.count k)).map (fun n : ℕ => (n : ℚ)) := by
    rw [PyDict.values, countKeys_eq (ieeeArith log over) ks, List.map_map, List.map_map]
    have hk : PyDict.keys ((countKeys (ieeeArith log over) ks).keys.map (fun k => (k, ones (ieeeArith log over) (ks.count k)))) =
        (countKeys (ieeeArith log over) ks).keys := by rw [← countKeys_eq]
    rw [hk]
    refine List.map_congr_left ?_
    intro k _
    exact ones_ieee log over _ ((List.count_le_length).trans h)
  rw [hvals]
  have := foldl_ieee log over ((countKeys (ieeeArith log over) ks).keys.map (fun k => ks.count k)) 0 (by rw [hsum]; omega)
  rw [hsum, Nat.zero_add] at this
  exact this

/-- The documented weight: (occurrences) * (idf, or the median idf) / (number of accepted tokens). -/
def exactWeight (x : Tfidf ℚ) (ks : List Key) (k : Key) : ℚ := (ks.count k : ℚ) * ((x.idf.get? k.text).getD x.median) / ks.length

theorem weight_within (log : Nat → ℚ) (over : ℚ → ℚ) (c n : Nat) (hc : 1 ≤ c) (hcn : c ≤ n) (hn : n ≤ 2 ^ 53) (q : ℚ) (hq : FarIdf q) :
    Within 2 ((c : ℚ) * q / n) ((ieeeArith log over).mul c ((ieeeArith log over).div q n)) := by
  show Within 2 _ (rndIeee over ((c : ℚ) * rndIeee over (q / n)))
  have hn1 : (1 : ℚ) ≤ n := by exact_mod_cast hc.trans hcn
  have hn2 : (n : ℚ) ≤ 2 ^ 53 := by exact_mod_cast hn
  have hc1 : (1 : ℚ) ≤ c := by exact_mod_cast hc
  have hc2 : (c : ℚ) ≤ 2 ^ 53 := by exact_mod_cast hcn.trans hn
  have hq0 : 0 ≤ q := by
    rcases hq with rfl | ⟨h, -⟩
    · exact le_rfl
    · exact le_trans (by positivity) h
  have hb : q / n = 0 ∨ 1 / 2 ^ 153 ≤ q / n := by
    rcases hq with rfl | ⟨h, -⟩
    · left; simp
    · right
      calc (1 / 2 ^ 153 : ℚ) = 1 / 2 ^ 100 / 2 ^ 53 := by norm_num
        _ ≤ q / 2 ^ 53 := div_le_div_of_nonneg_right h (by norm_num)
        _ ≤ q / n := div_le_div_of_nonneg_left hq0 (by linarith) hn2
  have hu : q / n ≤ 2 ^ 100 := by
    rcases hq with rfl | ⟨-, h⟩
    · simp
    · exact (div_le_self hq0 hn1).trans h
  have e1 : rndIeee over (q / n) = rnd (q / n) := by
    refine rndIeee_mid over ?_ (hu.trans (by norm_num))
    rcases hb with h | h
    · exact Or.inl h
    · exact Or.inr (le_trans (by norm_num) h)
  rw [e1]
  have hr0 : rnd (q / n) = 0 ∨ 1 / 2 ^ 153 ≤ rnd (q / n) := by
    rcases hb with h | h
    · left; rw [h]; exact rnd_zero
    · right; exact le_rnd_inv h
  have hr1 : rnd (q / n) ≤ 2 ^ 100 := rnd_le_pow hu
  have hr2 : 0 ≤ rnd (q / n) := rnd_nonneg (div_nonneg hq0 (by linarith))
  have e2 : rndIeee over ((c : ℚ) * rnd (q / n)) = rnd ((c : ℚ) * rnd (q / n)) := by
    refine rndIeee_mid over ?_ ?_
    · rcases hr0 with h | h
      · left; rw [h, mul_zero]
      · right
        calc (1 / 2 ^ 200 : ℚ) ≤ 1 / 2 ^ 153 := by norm_num
          _ ≤ rnd (q / n) := h
          _ ≤ c * rnd (q / n) := le_mul_of_one_le_left hr2 hc1
    · calc (c : ℚ) * rnd (q / n) ≤ 2 ^ 53 * 2 ^ 100 := mul_le_mul hc2 hr1 hr2 (by norm_num)
        _ ≤ 2 ^ 200 := by norm_num
  rw [e2, mul_div_assoc]
  exact ((Within.refl 0 (by linarith : (0 : ℚ) ≤ c)).mul (Within.refl 0 (div_nonneg hq0 (by linarith))).rnd).rnd

/-- C105: with IEEE doubles, `extract_tags` returns every accepted word, and with each a weight that differs from the documented one by at most the
fraction 2^-51; of two keywords the first one listed has the greater documented weight, or a smaller one by at most the fraction 2^-49. -/
theorem C105_weights (K : KSys ℚ) (log : Nat → ℚ) (over : ℚ → ℚ) (hA : K.pos.sys.A = ieeeArith log over) (p : PWorld) (x : Tfidf ℚ) (s : PyText)
    (allow : List Str) (withFlag io : Bool) (hc : cutErr K p x s allow io = none) (hlen : (occ K p x s allow withFlag io).length ≤ 2 ^ 53)
    (hidf : ∀ w v, x.idf.get? w = some v → FarIdf v) (hmed : FarIdf x.median) :
    ∃ l, (extractTags K p x s none true allow withFlag io).2 = .ok l ∧
      (∀ k, k ∈ l.map Prod.fst ↔ k ∈ occ K p x s allow withFlag io) ∧
      (∀ e ∈ l, ∃ v, e.2 = some v ∧ |v - exactWeight x (occ K p x s allow withFlag io) e.1| ≤ exactWeight x (occ K p x s allow withFlag io) e.1 / 2 ^ 51) ∧
      l.Pairwise (fun e e' => exactWeight x (occ K p x s allow withFlag io) e'.1 ≤ exactWeight x (occ K p x s allow withFlag io) e.1 * (1 + 1 / 2 ^ 49)) := by
  rw [extractTags_eq, hc]
  simp only []
  generalize occ K p x s allow withFlag io = ks at *
  rw [hA, total_ieee log over ks hlen]
  by_cases hks : ks = []
  · subst hks
    exact ⟨[], rfl, by simp, by simp, List.Pairwise.nil⟩
  · have hlen0 : ks.length ≠ 0 := by simpa using hks
    have hlenq : (ks.length : ℚ) ≠ (ieeeArith log over).zero := by
      show (ks.length : ℚ) ≠ 0
      exact_mod_cast hlen0
    rw [scaleBy_ok _ _ _ _ hlenq]
    simp only [rankTags_weights, Except.map, topOf]
    have key : ∀ e ∈ (countKeys (ieeeArith log over) ks).map (fun e => (e.1, (ieeeArith log over).mul e.2 ((ieeeArith log over).div ((x.idf.get? e.1.text).getD x.median) ks.length))),
        e.1 ∈ ks ∧ 0 ≤ exactWeight x ks e.1 ∧ |e.2 - exactWeight x ks e.1| ≤ exactWeight x ks e.1 / 2 ^ 51 := by
      intro e he
      rw [countKeys_eq, List.map_map, List.mem_map] at he
      obtain ⟨k, hk, rfl⟩ := he
      have hm := (countKeys_mem _ _ _).mp hk
      have hfar : FarIdf ((x.idf.get? k.text).getD x.median) := by
        cases h : PyDict.get? x.idf k.text with
        | none => exact hmed
        | some v => exact hidf _ _ h
      have hw := weight_within log over (ks.count k) ks.length (List.count_pos_iff.mpr hm) List.count_le_length hlen _ hfar
      simp only [Function.comp]
      rw [ones_ieee log over _ (List.count_le_length.trans hlen)]
      refine ⟨hm, hw.1, (hw.err (by norm_num)).trans (le_of_eq ?_)⟩
      unfold exactWeight
      norm_num
      ring
    refine ⟨_, rfl, ?_, ?_, ?_⟩
    · intro k
      rw [List.map_map, ((sortBy_perm _ _).map _).mem_iff, List.map_map]
      have : (countKeys (ieeeArith log over) ks).map (Prod.fst : Key × ℚ → Key) = (countKeys (ieeeArith log over) ks).keys := rfl
      rw [← countKeys_mem (ieeeArith log over) ks k, ← this]
      rfl
    · intro e he
      obtain ⟨e', he', rfl⟩ := List.mem_map.mp he
      exact ⟨e'.2, rfl, (key e' ((sortBy_perm _ _).mem_iff.mp he')).2.2⟩
    · rw [List.pairwise_map]
      refine List.Pairwise.imp_of_mem ?_ (sortBy_pairwise (fun e : Key × ℚ => e.2) (fun _ _ => True) _ (List.pairwise_of_forall (fun _ _ => trivial)))
      intro a b ha hb hab
      obtain ⟨-, a1, a2⟩ := key a ((sortBy_perm _ _).mem_iff.mp ha)
      obtain ⟨-, b1, b2⟩ := key b ((sortBy_perm _ _).mem_iff.mp hb)
      have hba : b.2 ≤ a.2 := by
        rcases hab with h | h
        · exact h.le
        · exact h.1.ge
      have u1 := (abs_le.mp a2).2
      have u2 := (abs_le.mp b2).1
      simp only []
      generalize exactWeight x ks a.1 = p at *
      generalize exactWeight x ks b.1 = q at *
      linarith

/-- The sample analyser with doubles. -/
def ieeeKSys : KSys ℚ := { ratKSys with pos := { ratKSys.pos with sys := { ratSys with A := ieeeArith (fun n => n) (fun x => 4 * x) } } }

def swapIdf : Tfidf ℚ := { ratTfidf with idf := [(lit ['北', '京'], 3 / 2 + 2 / 2 ^ 52), (lit ['大', '学'], 3 / 2 + 1 / 2 ^ 52)], median := 1 }

def swapText : PyText := .str (lit ['大', '学', '和', '北', '京', '和', 'I', 'D'])

/-- C105: the order itself can be wrong by that little: 大学 is listed before 北京 although its documented weight is smaller.  (Both quotients are
rounded to the same double, and of equal weights the first one counted comes first.) -/
theorem C105_order_can_differ : ((extractTags ieeeKSys ratPWorld swapIdf swapText none false [] false true).2 =
      .ok [(.word (lit ['大', '学']), none), (.word (lit ['北', '京']), none), (.word (lit ['I', 'D']), none)]) ∧
    exactWeight swapIdf (occ ieeeKSys ratPWorld swapIdf swapText [] false true) (.word (lit ['大', '学'])) <
      exactWeight swapIdf (occ ieeeKSys ratPWorld swapIdf swapText [] false true) (.word (lit ['北', '京'])) ∧
    cutErr ieeeKSys ratPWorld swapIdf swapText [] true = none := by
  decide +kernel

example : (occ ieeeKSys ratPWorld swapIdf swapText [] false true).length = 3 ∧ (∀ w v, swapIdf.idf.get? w = some v → FarIdf v) ∧ FarIdf swapIdf.median := by
  refine ⟨by decide +kernel, ?_, Or.inr ⟨by norm_num [swapIdf], by norm_num [swapIdf]⟩⟩
  intro w v h
  have : (w, v) ∈ swapIdf.idf := (PyDict.get?_eq_some_iff_mem _ (by decide +kernel) _ _).mp h
  simp only [swapIdf, List.mem_cons, Prod.mk.injEq, List.not_mem_nil, or_false] at this
  rcases this with ⟨-, rfl⟩ | ⟨-, rfl⟩ <;> exact Or.inr ⟨by norm_num, by norm_num⟩

end Jieba.Props
