import Verif.Props.SuggestFloat
/-!
# C114 — adding a word, or asking for a split, again and again
-/

namespace Jieba.Props
open Jieba Jieba.Spec

/-- The state after `add_word(v)` without a frequency, `n` times. -/
def addTimes {F : Type _} [LinearOrder F] (S : Sys F) (w : World) (t : Nat) (v : Str) (io : Bool) : Nat → World
  | 0 => w
  | n + 1 => (addWord S (addTimes S w t v io n) t (.str v) .none none io).1

/-- The state after `suggest_freq(segments, tune=True)`, `n` times. -/
def tuneTimes {F : Type _} [LinearOrder F] (S : Sys F) (w : World) (t : Nat) (segs : List PyText) (io : Bool) : Nat → World
  | 0 => w
  | n + 1 => (suggestFreq S (tuneTimes S w t segs io n) t (.tuple segs) true io).1

theorem addWord_none_eq {F : Type _} [LinearOrder F] (S : Sys F) (w : World) (t : Nat) (v : Str) (io : Bool) (hi : (w.tok t).initialized = true)
    (f : Int) (h : suggestWord S w t v = .ok f) : addWord S w t (.str v) .none none io = (addFreq w t v f none, .ok ()) := by
  unfold addWord
  rw [checkInit_of_init _ _ _ _ hi]
  simp only [strdecode, addWordFreq, h]

theorem suggestWord_of_cut (S : Sys ℝ) (hS : S.A = realArith) (w : World) (t : Nat) (v : Str) (hn : NonNeg (w.tok t).freq) (ht : 0 < (w.tok t).total) (f : Int)
    (hf : (w.tok t).freq.get? v = some f) (hcut : cut (w.env S t) false false v = Gen.ok [v]) : suggestWord S w t v = .ok (f + 1) := by
  unfold suggestWord
  simp only [hcut, Gen.ok, hS]
  rw [expectFreq_real _ hn _ ht _ (by simp)]
  simp only [expected, segFreq, hf, List.map_cons, List.map_nil, List.prod_cons, List.prod_nil, Option.getD_some, List.length_cons, List.length_nil]
  simp

/-- C114: `add_word(v)` without a frequency does not settle: every further call raises the frequency by one, and the total by the frequency.  After `n + 1` calls the
frequency is `f + n` and the total has grown by `(n + 1) f + n (n + 1) / 2`, `f` being what the first call gives; the frequencies of other words stay, and `cut(v)`
yields `v` as one token all the time. -/
theorem C114_add_word_again (S : Sys ℝ) (hS : S.A = realArith) (w : World) (t : Nat) (io : Bool) (hi : (w.tok t).initialized = true) (hp : PrefixClosed (w.tok t).freq)
    (hg : Good ((w.tok t).freq, (w.tok t).total)) (ht : 0 < (w.tok t).total) (v : Str) (hv : v ≠ []) (hs : ∀ c ∈ v, isWordCh c = true ∧ isAlnum c = false) :
    ∃ f, 1 ≤ f ∧ (addWord S w t (.str v) .none none io) = addWord S w t (.str v) (.int f) none io ∧ ∀ n : Nat,
      (addWord S (addTimes S w t v io n) t (.str v) .none none io).2 = .ok () ∧
      ((addTimes S w t v io (n + 1)).tok t).freq.get? v = some (f + n) ∧
      2 * ((addTimes S w t v io (n + 1)).tok t).total = 2 * (w.tok t).total + 2 * (n + 1) * f + n * (n + 1) ∧
      (∀ u k, u ≠ v → k ≠ 0 → (((addTimes S w t v io (n + 1)).tok t).freq.get? u = some k ↔ (w.tok t).freq.get? u = some k)) ∧
      ∀ hm io', (cutW S (addTimes S w t v io (n + 1)) t false hm (.str v) io').2 = Gen.ok [v] := by
  -- the first call
  have hn : NonNeg (w.tok t).freq := hg.nonneg
  obtain ⟨f, hf, hf1⟩ : ∃ f, suggestWord S w t v = .ok f ∧ 1 ≤ f := by
    obtain ⟨ts, -, -, h⟩ := C74_word_value S hS w w t v false io (checkInit_of_init _ _ _ _ hi) hn ht hv
    unfold suggestFreq at h
    rw [checkInit_of_init _ _ _ _ hi] at h
    simp only [suggestCore] at h
    cases hq : suggestWord S w t v with
    | error e => rw [hq] at h; simp [Except.map] at h
    | ok x =>
      rw [hq] at h
      simp [Except.map] at h
      refine ⟨x, rfl, ?_⟩
      have h0 : 0 ≤ expected (w.tok t).freq (w.tok t).total ts := by
        unfold expected
        refine Int.ediv_nonneg (List.prod_nonneg fun x hx => ?_) (pow_nonneg ht.le _)
        obtain ⟨s, -, rfl⟩ := List.mem_map.mp hx
        exact segFreq_nonneg _ hn s
      rw [h]
      exact le_trans (by omega) (le_max_left _ _)
  -- one call, from a sound state
  have one : ∀ (w : World) (f : Int), (w.tok t).initialized = true → PrefixClosed (w.tok t).freq → Good ((w.tok t).freq, (w.tok t).total) →
      0 < (w.tok t).total → suggestWord S w t v = .ok f → 0 ≤ f →
      addWord S w t (.str v) .none none io = (addFreq w t v f none, .ok ()) ∧
      ((addFreq w t v f none).tok t).initialized = true ∧ PrefixClosed ((addFreq w t v f none).tok t).freq ∧
      Good (((addFreq w t v f none).tok t).freq, ((addFreq w t v f none).tok t).total) ∧ ((addFreq w t v f none).tok t).total = (w.tok t).total + f ∧
      ((addFreq w t v f none).tok t).freq.get? v = some f ∧
      (∀ u k, u ≠ v → k ≠ 0 → (((addFreq w t v f none).tok t).freq.get? u = some k ↔ (w.tok t).freq.get? u = some k)) ∧
      ∀ hm io', (cutW S (addFreq w t v f none) t false hm (.str v) io').2 = Gen.ok [v] := by
    intro w f hi hp hg ht hf h0
    have e1 := addWord_none_eq S w t v io hi f hf
    have e2 := addFreq_tok_self w t v f none
    refine ⟨e1, by rw [e2]; exact hi, by rw [e2]; exact prefixClosed_register _ _ _ hp, ?_, by rw [e2], ?_, ?_, ?_⟩
    · rw [e2]; exact good_register ((w.tok t).freq, (w.tok t).total) v f hg h0
    · rw [e2]; simp only [register_get?]; simp
    · obtain ⟨w', g1, -, g3, -⟩ := C24_add_word_map S w t (.str v) f none io hi
      have e3 : addWord S w t (.str v) (.int f) none io = (addFreq w t v f none, .ok ()) := by
        unfold addWord; rw [checkInit_of_init _ _ _ _ hi]; rfl
      rw [e3] at g1
      simp only [Prod.mk.injEq, and_true] at g1
      rw [g1]
      exact fun u k hu hk => g3 u hu k hk
    · obtain ⟨w', g1, g2⟩ := C27_add_word_whole S hS w w t (.str v) none io (checkInit_of_init _ _ _ _ hi) hp hg ht v rfl hv hs
      rw [e1] at g1
      simp only [Prod.mk.injEq, and_true] at g1
      rw [g1]
      exact g2
  have e3 : addWord S w t (.str v) (.int f) none io = (addFreq w t v f none, .ok ()) := by
    unfold addWord; rw [checkInit_of_init _ _ _ _ hi]; rfl
  refine ⟨f, hf1, by rw [addWord_none_eq S w t v io hi f hf, e3], ?_⟩
  -- all calls
  have all : ∀ n : Nat, (addWord S (addTimes S w t v io n) t (.str v) .none none io).2 = .ok () ∧
      ((addTimes S w t v io (n + 1)).tok t).initialized = true ∧ PrefixClosed ((addTimes S w t v io (n + 1)).tok t).freq ∧
      Good (((addTimes S w t v io (n + 1)).tok t).freq, ((addTimes S w t v io (n + 1)).tok t).total) ∧
      0 < ((addTimes S w t v io (n + 1)).tok t).total ∧
      ((addTimes S w t v io (n + 1)).tok t).freq.get? v = some (f + n) ∧
      2 * ((addTimes S w t v io (n + 1)).tok t).total = 2 * (w.tok t).total + 2 * (n + 1) * f + n * (n + 1) ∧
      (∀ u k, u ≠ v → k ≠ 0 → (((addTimes S w t v io (n + 1)).tok t).freq.get? u = some k ↔ (w.tok t).freq.get? u = some k)) ∧
      ∀ hm io', (cutW S (addTimes S w t v io (n + 1)) t false hm (.str v) io').2 = Gen.ok [v] := by
    intro n
    induction n with
    | zero =>
      obtain ⟨h1, h2, h3, h4, h5, h6, h7, h8⟩ := one w f hi hp hg ht hf (by omega)
      have e : addTimes S w t v io (0 + 1) = addFreq w t v f none := by
        show (addWord S w t (.str v) .none none io).1 = _
        rw [h1]
      rw [e]
      refine ⟨?_, h2, h3, h4, by rw [h5]; omega, by simpa using h6, by rw [h5]; push_cast; ring, h7, h8⟩
      show (addWord S w t (.str v) .none none io).2 = _
      rw [h1]
    | succ n ih =>
      obtain ⟨-, i2, i3, i4, i5, i6, i7, i8, i9⟩ := ih
      generalize hw : addTimes S w t v io (n + 1) = w1 at *
      have hcut : cut (w1.env S t) false false v = Gen.ok [v] := by
        have := i9 false io
        rw [cutW_of_init _ _ _ _ _ _ _ i2] at this
        exact this
      have hsug := suggestWord_of_cut S hS w1 t v i4.nonneg i5 _ i6 hcut
      obtain ⟨h1, h2, h3, h4, h5, h6, h7, h8⟩ := one w1 _ i2 i3 i4 i5 hsug (by omega)
      have e : addTimes S w t v io (n + 1 + 1) = addFreq w1 t v (f + n + 1) none := by
        show (addWord S (addTimes S w t v io (n + 1)) t (.str v) .none none io).1 = _
        rw [hw, h1]
      rw [e]
      refine ⟨by rw [h1], h2, h3, h4, by rw [h5]; omega, by rw [h6]; push_cast; ring_nf, ?_, fun u k hu hk => (h7 u k hu hk).trans (i8 u k hu hk), h8⟩
      rw [h5]
      push_cast
      linarith [i7]
  intro n
  obtain ⟨h1, -, -, -, -, h6, h7, h8, h9⟩ := all n
  exact ⟨h1, h6, h7, h8, h9⟩

/-- C114: with IEEE doubles a word that comes out whole gets its frequency again, or one more. -/
theorem C114_again_float (log : Nat → ℚ) (over : ℚ → ℚ) (S : Sys ℚ) (hS : S.A = ieeeArith log over) (w : World) (t : Nat) (v : Str) (tune io : Bool)
    (hi : (w.tok t).initialized = true) (ht : 0 < (w.tok t).total) (hT : (w.tok t).total ≤ 2 ^ 50)
    (hf : ∀ u x, (w.tok t).freq.get? u = some x → 0 ≤ x ∧ x ≤ (w.tok t).total) (f : Int) (hv : (w.tok t).freq.get? v = some f)
    (hcut : (cutW S w t false false (.str v) io).2 = Gen.ok [v]) :
    (suggestFreq S w t (.text (.str v)) tune io).2 = .ok f ∨ (suggestFreq S w t (.text (.str v)) tune io).2 = .ok (f + 1) := by
  rw [cutW_of_init _ _ _ _ _ _ _ hi] at hcut
  have hcut : cut (w.env S t) false false v = Gen.ok [v] := hcut
  obtain ⟨x, h1, h2, h3, h4⟩ := expectFreq_close log over (w.tok t).freq (w.tok t).total ht (hT.trans (by norm_num)) hf [v] (by simp) (by simp)
  obtain ⟨f0, fT⟩ := hf v f hv
  have hE : exactNumber (w.tok t).freq (w.tok t).total [v] = f := by
    simp [exactNumber, segFreq, hv]
  rw [hE] at h3 h4
  have hval : (suggestFreq S w t (.text (.str v)) tune io).2 = .ok (max (⌊x⌋ + 1) f) := by
    unfold suggestFreq
    rw [checkInit_of_init _ _ _ _ hi]
    simp only [suggestCore, suggestWord, hcut, Gen.ok, hS]
    rw [h1]
    simp only [hv, Option.getD_some]
    rfl
  have fq0 : (0 : ℚ) ≤ f := by exact_mod_cast f0
  have fq : (f : ℚ) ≤ 2 ^ 50 := by exact_mod_cast (fT.trans hT)
  norm_num at h3 h4 fq
  have b1 : f - 1 ≤ ⌊x⌋ := Int.le_floor.mpr (by push_cast; nlinarith)
  have b2 : ⌊x⌋ < f + 1 := Int.floor_lt.mpr (by push_cast; nlinarith)
  rw [hval]
  rcases (by omega : ⌊x⌋ = f - 1 ∨ ⌊x⌋ = f) with h | h
  · left; rw [h, max_eq_right (by omega)]
  · right; rw [h, max_eq_left (by omega)]

/-- C114: both occur: 1 of 49 stays 1, 5 of 10 becomes 6. -/
theorem C114_float_witness :
    (suggestFreq ieeeSys (readyWorld [(lit ['中'], 1)] 49) 0 (.text (.str (lit ['中']))) true true).2 = .ok 1 ∧
    (suggestFreq ieeeSys (readyWorld [(lit ['中'], 5)] 10) 0 (.text (.str (lit ['中']))) true true).2 = .ok 6 := ⟨by decide +kernel, by decide +kernel⟩

theorem length_lt_flatten {ss : List Str} (hlen : 2 ≤ ss.length) (hne : ∀ s ∈ ss, s ≠ []) : ∀ s ∈ ss, s ≠ ss.flatten := by
  intro s hs he
  obtain ⟨a, b, rfl⟩ := List.append_of_mem hs
  have hl := congrArg List.length he
  simp only [List.flatten_append, List.flatten_cons, List.length_append, List.length_cons] at hl hlen
  have hz : ∀ l : List Str, l.flatten.length = 0 → (∀ s ∈ l, s ≠ []) → l = [] := by
    intro l h1 h2
    cases l with
    | nil => rfl
    | cons x l =>
      have := List.length_pos_of_ne_nil (h2 x (by simp))
      simp only [List.flatten_cons, List.length_append] at h1
      omega
  have ha := hz a (by omega) (fun x hx => hne x (by simp [hx]))
  have hb := hz b (by omega) (fun x hx => hne x (by simp [hx]))
  subst ha; subst hb
  simp at hlen

theorem expected_nonneg (freq : Freq) (hn : NonNeg freq) (total : Int) (ht : 0 < total) (ss : List Str) : 0 ≤ expected freq total ss := by
  unfold expected
  refine Int.ediv_nonneg (List.prod_nonneg fun x hx => ?_) (pow_nonneg ht.le _)
  obtain ⟨s, -, rfl⟩ := List.mem_map.mp hx
  exact segFreq_nonneg _ hn s

theorem prod_segFreq_le {d e : Freq} (hd : NonNeg d) (he : NonNeg e) (ss : List Str) (h : ∀ s ∈ ss, segFreq d s ≤ segFreq e s) :
    (ss.map (segFreq d)).prod ≤ (ss.map (segFreq e)).prod := by
  induction ss with
  | nil => simp
  | cons s ss ih =>
    simp only [List.map_cons, List.prod_cons]
    refine mul_le_mul (h s (by simp)) (ih (fun u hu => h u (by simp [hu]))) (List.prod_nonneg fun y hy => ?_) (segFreq_nonneg _ he s)
    obtain ⟨u, -, rfl⟩ := List.mem_map.mp hy
    exact segFreq_nonneg _ hd u

/-- C114: asking for a split into two or more segments again and again works in the end, although once may not be enough (`C28_does_not_force_split`): the values that
`suggest_freq(segments, tune=True)` returns never grow, and from the call on whose number is the product of the frequencies of the segments they are 0; then the joined word
(with a Han character) is not a token of any text any more, with and without HMM. -/
theorem C114_split_again (S : Sys ℝ) (hS : S.A = realArith) (w : World) (t : Nat) (segs : List PyText) (io : Bool) (hi : (w.tok t).initialized = true)
    (hn : NonNeg (w.tok t).freq) (ht : 0 < (w.tok t).total) (ss : List Str) (hss : segs.map (strdecode S.gbk) = ss) (hlen : 2 ≤ ss.length) (hne : ∀ s ∈ ss, s ≠ []) :
    ∃ f : Nat → Int, (∀ n, (suggestFreq S (tuneTimes S w t segs io n) t (.tuple segs) true io).2 = .ok (f n)) ∧
      (∀ n, ((tuneTimes S w t segs io (n + 1)).tok t).freq.get? ss.flatten = some (f n)) ∧ (∀ n, 0 ≤ f (n + 1) ∧ f (n + 1) ≤ f n) ∧
      ∀ n : Nat, (ss.map (segFreq (w.tok t).freq)).prod ≤ n → f n = 0 ∧
        ((∃ c ∈ ss.flatten, isHan c = true) → ∀ hm text io', ss.flatten ∉ (cutW S (tuneTimes S w t segs io (n + 1)) t false hm text io').2.out) := by
  have hsegs : segs ≠ [] := by rintro rfl; simp at hss; subst hss; simp at hlen
  have hnotw := length_lt_flatten hlen hne
  let val : World → Int := fun w => min (expected (w.tok t).freq (w.tok t).total ss) (((w.tok t).freq.get? ss.flatten).getD 0)
  -- one call
  have one : ∀ w : World, (w.tok t).initialized = true → NonNeg (w.tok t).freq → 0 < (w.tok t).total →
      suggestFreq S w t (.tuple segs) true io = (addFreq w t ss.flatten (val w) none, .ok (val w)) ∧ 0 ≤ val w ∧
      ((addFreq w t ss.flatten (val w) none).tok t).initialized = true ∧ NonNeg ((addFreq w t ss.flatten (val w) none).tok t).freq ∧
      ((addFreq w t ss.flatten (val w) none).tok t).total = (w.tok t).total + val w ∧
      ((addFreq w t ss.flatten (val w) none).tok t).freq.get? ss.flatten = some (val w) ∧
      ∀ s ∈ ss, segFreq ((addFreq w t ss.flatten (val w) none).tok t).freq s ≤ segFreq (w.tok t).freq s := by
    intro w hi hn ht
    have h0 : 0 ≤ val w := by
      refine le_min (expected_nonneg _ hn _ ht _) ?_
      cases h : (w.tok t).freq.get? ss.flatten with
      | none => simp
      | some x => simpa using hn _ _ h
    have e2 := addFreq_tok_self w t ss.flatten (val w) none
    refine ⟨?_, h0, by rw [e2]; exact hi, by rw [e2]; exact nonNeg_register _ _ _ hn h0, by rw [e2], ?_, ?_⟩
    · unfold suggestFreq
      rw [checkInit_of_init _ _ _ _ hi]
      simp only [suggestCore, suggestSplit, hss, hS]
      rw [expectFreq_real _ hn _ ht ss (by rintro rfl; simp at hlen)]
      rfl
    · rw [e2]; simp only [register_get?]; simp
    · intro s hs
      rw [e2]
      unfold segFreq
      simp only [register_get?, if_neg (hnotw s hs)]
      cases hx : (w.tok t).freq.get? s with
      | none => simp only []; split <;> simp
      | some x => simp [PyDict.has, hx]
  -- all calls
  have inv : ∀ n : Nat, ((tuneTimes S w t segs io n).tok t).initialized = true ∧ NonNeg ((tuneTimes S w t segs io n).tok t).freq ∧
      0 < ((tuneTimes S w t segs io n).tok t).total ∧ (∀ s ∈ ss, segFreq ((tuneTimes S w t segs io n).tok t).freq s ≤ segFreq (w.tok t).freq s) ∧
      (0 < val (tuneTimes S w t segs io n) → (n : Int) < ((tuneTimes S w t segs io n).tok t).total) ∧
      (∀ m, n = m + 1 → val (tuneTimes S w t segs io n) ≤ val (tuneTimes S w t segs io m)) := by
    intro n
    induction n with
    | zero => exact ⟨hi, hn, ht, fun _ _ => le_rfl, fun _ => ht, fun m h => by omega⟩
    | succ n ih =>
      obtain ⟨i1, i2, i3, i4, i5, -⟩ := ih
      obtain ⟨h1, h2, h3, h4, h5, h6, h7⟩ := one _ i1 i2 i3
      have e : tuneTimes S w t segs io (n + 1) = addFreq (tuneTimes S w t segs io n) t ss.flatten (val (tuneTimes S w t segs io n)) none := by
        show (suggestFreq S (tuneTimes S w t segs io n) t (.tuple segs) true io).1 = _
        rw [h1]
      have hle : val (tuneTimes S w t segs io (n + 1)) ≤ val (tuneTimes S w t segs io n) := by
        refine (min_le_right _ _).trans ?_
        rw [e, h6]
        exact le_rfl
      refine ⟨by rw [e]; exact h3, by rw [e]; exact h4, by rw [e, h5]; omega, fun s hs => ?_, fun hpos => ?_, ?_⟩
      · rw [e]; exact (h7 s hs).trans (i4 s hs)
      · have hpos' : 0 < val (tuneTimes S w t segs io n) := lt_of_lt_of_le hpos hle
        have := i5 hpos'
        rw [e, h5]
        push_cast
        omega
      · intro m hm
        obtain rfl : n = m := by omega
        exact hle
  have next : ∀ n, tuneTimes S w t segs io (n + 1) = addFreq (tuneTimes S w t segs io n) t ss.flatten (val (tuneTimes S w t segs io n)) none := by
    intro n
    obtain ⟨i1, i2, i3, -⟩ := inv n
    show (suggestFreq S (tuneTimes S w t segs io n) t (.tuple segs) true io).1 = _
    rw [(one _ i1 i2 i3).1]
  refine ⟨fun n => val (tuneTimes S w t segs io n), fun n => ?_, fun n => ?_, fun n => ⟨?_, (inv (n + 1)).2.2.2.2.2 n rfl⟩, fun n hP => ?_⟩
  · obtain ⟨i1, i2, i3, -⟩ := inv n
    rw [(one _ i1 i2 i3).1]
  · obtain ⟨i1, i2, i3, -⟩ := inv n
    rw [next n, (one _ i1 i2 i3).2.2.2.2.2.1]
  · obtain ⟨i1, i2, i3, -⟩ := inv (n + 1)
    exact (one _ i1 i2 i3).2.1
  · obtain ⟨i1, i2, i3, i4, i5, -⟩ := inv n
    obtain ⟨h1, h2, -⟩ := one _ i1 i2 i3
    have hzero : val (tuneTimes S w t segs io n) = 0 := by
      by_contra hne0
      have hpos : 0 < val (tuneTimes S w t segs io n) := by omega
      have hT := i5 hpos
      have hE : 0 < expected ((tuneTimes S w t segs io n).tok t).freq ((tuneTimes S w t segs io n).tok t).total ss := lt_of_lt_of_le hpos (min_le_left _ _)
      generalize (tuneTimes S w t segs io n).tok t = x at *
      have hprod := prod_segFreq_le i2 hn ss i4
      unfold expected at hE
      have hpow : x.total ≤ x.total ^ (ss.length - 1) := by
        calc x.total = x.total ^ 1 := (pow_one _).symm
          _ ≤ _ := pow_le_pow_right₀ (by omega) (by omega)
      rw [Int.ediv_eq_zero_of_lt (List.prod_nonneg fun y hy => by
        obtain ⟨u, -, rfl⟩ := List.mem_map.mp hy
        exact segFreq_nonneg _ i2 u) (by omega)] at hE
      exact lt_irrefl _ hE
    refine ⟨hzero, fun hh hm text io' => ?_⟩
    refine C28_zero_forces_split S (tuneTimes S w t segs io n) _ t segs io ?_ ss.flatten (by rw [hss]) ?_ hh hm text io'
    · rw [h1, hzero, next n, hzero]
    · obtain ⟨a, b, r, rfl⟩ : ∃ a b r, ss = a :: b :: r := by
        match ss, hlen with
        | a :: b :: r, _ => exact ⟨a, b, r, rfl⟩
      have h1 := List.length_pos_of_ne_nil (hne a (by simp))
      have h2 := List.length_pos_of_ne_nil (hne b (by simp))
      simp only [List.flatten_cons, List.length_append]
      omega

/-- The hypotheses are met by a dictionary in which once is not enough. -/
example : ((readyWorld rareFreq 100).tok 0).initialized = true ∧ NonNeg rareFreq ∧ (0 : Int) < 100 ∧ PrefixClosed rareFreq ∧ Good (rareFreq, 100) ∧
    (∃ c ∈ [lit ['中'], lit ['将']].flatten, isHan c = true) := by
  have key : ∀ kv ∈ rareFreq, 0 ≤ kv.2 ∧ ∀ k, k ∈ List.range kv.1.length → rareFreq.has (kv.1.take (k + 1)) = true := by decide
  have hnn : NonNeg rareFreq := fun v x hv => (key (v, x) ((PyDict.get?_eq_some_iff_mem _ (by decide) _ _).mp hv)).1
  refine ⟨rfl, hnn, by norm_num, ?_, ⟨by decide, hnn, by decide⟩, by decide⟩
  intro v hv p hp hpv
  obtain ⟨x, hx⟩ := (PyDict.has_iff _ _).mp hv
  have h1 := (key (v, x) ((PyDict.get?_eq_some_iff_mem _ (by decide) _ _).mp hx)).2 (p.length - 1)
  have hl := List.length_pos_of_ne_nil hp
  have := h1 (List.mem_range.mpr (by have := hpv.length_le; simp only; omega))
  rw [Nat.sub_add_cancel hl] at this
  rwa [← List.prefix_iff_eq_take.mp hpv] at this

end Jieba.Props
