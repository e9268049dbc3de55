import Verif.Props.Stability
import Verif.Proofs.Posseg
/-!
# C123: what the frequencies of a dictionary mean
-/

set_option linter.unusedSectionVars false

namespace Jieba.Spec

/-- Two dictionaries with the same entries, whose frequencies have the same proportions to the totals. -/
structure Proportional (freq : Freq) (total : Int) (freq' : Freq) (total' : Int) : Prop where
  entries : ∀ w, freq'.has w = freq.has w
  ratio : ∀ w v v', freq.get? w = some v → freq'.get? w = some v' → v' * total = v * total'

end Jieba.Spec

namespace Jieba.Props
open Jieba Jieba.Spec

theorem proportional_some {freq freq' : Freq} {total total' : Int} (h : Proportional freq total freq' total') (w : Str) (v : Int)
    (hv : freq.get? w = some v) : ∃ v', freq'.get? w = some v' := by
  have := h.entries w
  unfold PyDict.has at this
  rw [hv] at this
  exact Option.isSome_iff_exists.mp this

theorem proportional_truthy {freq freq' : Freq} {total total' : Int} (h : Proportional freq total freq' total') (ht : 0 < total)
    (ht' : 0 < total') (w : Str) : freq'.truthy w = freq.truthy w := by
  unfold Freq.truthy
  cases hv : freq.get? w with
  | none =>
    have := h.entries w
    unfold PyDict.has at this
    rw [hv] at this
    have : freq'.get? w = none := by simpa using this
    rw [this]
  | some v =>
    obtain ⟨v', hv'⟩ := proportional_some h w v hv
    have hr := h.ratio w v v' hv hv'
    rw [hv']
    have : v' = 0 ↔ v = 0 := by
      constructor
      · rintro rfl
        rw [zero_mul] at hr
        rcases mul_eq_zero.mp hr.symm with h | h
        · exact h
        · omega
      · rintro rfl
        rw [zero_mul] at hr
        rcases mul_eq_zero.mp hr with h | h
        · exact h
        · omega
    by_cases hz : v = 0
    · rw [this.mpr hz, hz]
    · have hz' : v' ≠ 0 := fun e => hz (this.mp e)
      show (v' != 0) = (v != 0)
      rw [bne_iff_ne.mpr hz, bne_iff_ne.mpr hz']

theorem dagRow_eq_of_agree (freq freq' : Freq) (hh : ∀ w, freq'.has w = freq.has w) (ht : ∀ w, freq'.truthy w = freq.truthy w) (s : Str)
    (k : Nat) : dagRow freq' s k = dagRow freq s k := by
  have : ∀ n i frag acc, dagLoop freq' s k n i frag acc = dagLoop freq s k n i frag acc := by
    intro n
    induction n with
    | zero => intros; rfl
    | succ n ih => intro i frag acc; simp only [dagLoop, hh, ht, ih]
  simp only [dagRow, this]

theorem getDAG_eq_of_agree (freq freq' : Freq) (hh : ∀ w, freq'.has w = freq.has w) (ht : ∀ w, freq'.truthy w = freq.truthy w) (s : Str) :
    getDAG freq' s = getDAG freq s := by
  unfold getDAG
  exact List.map_congr_left (fun k _ => dagRow_eq_of_agree freq freq' hh ht s k)

/-- The logarithm of a proportion. -/
theorem log_ratio (v v' T T' : Int) (hv : 0 < v) (hv' : 0 < v') (hT : 0 < T) (hT' : 0 < T') (h : v' * T = v * T') :
    Real.log (v'.toNat : ℝ) - Real.log (T'.toNat : ℝ) = Real.log (v.toNat : ℝ) - Real.log (T.toNat : ℝ) := by
  have c : ∀ z : Int, 0 < z → ((z.toNat : ℕ) : ℝ) = (z : ℝ) := by
    intro z hz
    have := Int.toNat_of_nonneg hz.le
    exact_mod_cast this
  rw [c v hv, c v' hv', c T hT, c T' hT']
  have e : (v' : ℝ) * T = v * T' := by exact_mod_cast h
  have p1 : (v : ℝ) ≠ 0 := by exact_mod_cast hv.ne'
  have p2 : (v' : ℝ) ≠ 0 := by exact_mod_cast hv'.ne'
  have p3 : (T : ℝ) ≠ 0 := by exact_mod_cast hT.ne'
  have p4 : (T' : ℝ) ≠ 0 := by exact_mod_cast hT'.ne'
  have := congrArg Real.log e
  rw [Real.log_mul p2 p3, Real.log_mul p1 p4] at this
  linarith

theorem mapM_congr_mem {α β : Type _} (l : List α) (f g : α → Except PyErr β) (h : ∀ a ∈ l, f a = g a) : l.mapM f = l.mapM g := by
  induction l with
  | nil => rfl
  | cons a l ih => rw [List.mapM_cons, List.mapM_cons, h a (by simp), ih (fun x hx => h x (List.mem_cons_of_mem _ hx))]

/-- The routes of two proportional dictionaries are the same. -/
theorem route_proportional {freq freq' : Freq} {total total' : Int} (h : Proportional freq total freq' total') (ht : 0 < total)
    (ht' : 0 < total') (s : Str) (hs : ∀ c ∈ s, DictWord freq [c]) :
    calcRoute realArith freq' total' s (getDAG freq' s) = calcRoute realArith freq total s (getDAG freq s) := by
  have htr := proportional_truthy h ht ht'
  rw [getDAG_eq_of_agree freq freq' h.entries htr]
  unfold calcRoute
  simp only [Arith.pylog, if_pos ht, if_pos ht']
  show calcLoop realArith freq' (Real.log (total'.toNat : ℝ)) s _ _ _ = calcLoop realArith freq (Real.log (total.toNat : ℝ)) s _ _ _
  have edge : ∀ tail k, k < s.length → ∀ x ∈ dagRow freq s k,
      edgeScore realArith freq' (Real.log (total'.toNat : ℝ)) s tail k x = edgeScore realArith freq (Real.log (total.toNat : ℝ)) s tail k x := by
    intro tail k hk x hx
    have hw : DictWord freq (slice s k (x + 1)) := by
      rcases dagRow_mem freq s k x hk hx with h | ⟨rfl, -⟩
      · exact h
      · have : slice s x (x + 1) = [s[x]] := by
          unfold slice
          rw [List.drop_take, List.drop_eq_getElem_cons hk, Nat.add_sub_cancel_left, List.take_succ_cons, List.take_zero]
        rw [this]
        exact hs _ (List.getElem_mem hk)
    obtain ⟨v, hv, hv0⟩ := hw
    obtain ⟨v', hv'⟩ := proportional_some h _ v hv
    have hr := h.ratio _ v v' hv hv'
    have hv0' : v' ≠ 0 := by
      rintro rfl
      rw [zero_mul] at hr
      rcases mul_eq_zero.mp hr.symm with h | h
      · exact hv0 h
      · omega
    unfold edgeScore
    simp only [freqOr1, hv, hv', if_neg hv0, if_neg hv0', Arith.pylog]
    have hsign : 0 < v' ↔ 0 < v := by
      constructor <;> intro hp
      · by_contra hn
        have h1 := Int.mul_pos hp ht
        have h2 : v * total' ≤ 0 := Int.mul_nonpos_of_nonpos_of_nonneg (by omega) ht'.le
        omega
      · by_contra hn
        have h1 := Int.mul_pos hp ht'
        have h2 : v' * total ≤ 0 := Int.mul_nonpos_of_nonpos_of_nonneg (by omega) ht.le
        omega
    by_cases hp : 0 < v
    · rw [if_pos hp, if_pos (hsign.mpr hp)]
      have := log_ratio v v' total total' hp (hsign.mpr hp) ht ht' hr
      show (if x < k then _ else _) = (if x < k then _ else _)
      split
      · rfl
      · split
        · rfl
        · show Except.ok (Real.log (v'.toNat : ℝ) - Real.log (total'.toNat : ℝ) + _, x) = Except.ok (Real.log (v.toNat : ℝ) - Real.log (total.toNat : ℝ) + _, x)
          rw [this]
    · rw [if_neg hp, if_neg (fun h => hp (hsign.mp h))]
      rfl
  have loop : ∀ n tail, n ≤ s.length → calcLoop realArith freq' (Real.log (total'.toNat : ℝ)) s (getDAG freq s) n tail =
      calcLoop realArith freq (Real.log (total.toNat : ℝ)) s (getDAG freq s) n tail := by
    intro n
    induction n with
    | zero => intros; rfl
    | succ n ih =>
      intro tail hn
      simp only [calcLoop, getDAG_get freq s n (by omega)]
      rw [mapM_congr_mem _ _ _ (edge tail n (by omega))]
      congr 1
      funext c
      congr 1
      funext b
      exact ih _ (by omega)
  exact loop _ _ (Nat.le_refl _)

/-- C123: in exact arithmetic only the proportions of the frequencies to the total matter for texts all of whose word characters are in
the dictionary, in all modes (with and without HMM). -/
theorem C123_proportional (freq freq' : Freq) (total total' : Int) (T : FinalSeg.Tables ℝ) (force : List Str)
    (h : Proportional freq total freq' total') (ht : 0 < total) (ht' : 0 < total') (s : Str)
    (hs : ∀ c ∈ s, isWordCh c = true → DictWord freq [c]) (ca hm : Bool) :
    cut ⟨realArith, freq', total', T, force⟩ ca hm s = cut ⟨realArith, freq, total, T, force⟩ ca hm s := by
  have htr := proportional_truthy h ht ht'
  rw [cut_eq_scan, cut_eq_scan]
  unfold scan
  apply Gen.forEach_congr
  intro b hb
  split
  · next ha =>
    have hw : ∀ c ∈ b, isWordCh c = true := by
      rcases chunks_uniform _ _ b hb with hu | hu
      · exact hu
      · obtain ⟨c, hc, hc2⟩ := List.any_eq_true.mp ha
        rw [hu c hc] at hc2; exact absurd hc2 (by simp)
    have hr := route_proportional h ht ht' b (fun c hc => hs c ((chunk_infix _ _ _ hb).subset hc) (hw c hc))
    unfold cutBlock
    split
    · unfold cutAll
      rw [getDAG_eq_of_agree freq freq' h.entries htr]
    · split
      · unfold cutDAG
        simp only [hr]
        congr 1
        funext route
        have hfl : ∀ buf, flushBuf freq' (Env.hmm ⟨realArith, freq', total', T, force⟩) buf =
            flushBuf freq (Env.hmm ⟨realArith, freq, total, T, force⟩) buf := by
          intro buf
          unfold flushBuf
          rw [htr]
          rfl
        have : ∀ n x buf, dagCutLoop freq' (Env.hmm ⟨realArith, freq', total', T, force⟩) b route n x buf =
            dagCutLoop freq (Env.hmm ⟨realArith, freq, total, T, force⟩) b route n x buf := by
          intro n
          induction n with
          | zero => intro x buf; exact hfl buf
          | succ n ih => intro x buf; simp only [dagCutLoop, hfl, ih]
        exact this _ _ _
      · unfold cutDAGNoHMM
        simp only [hr]
  · rfl

/-- C123 for `cut_for_search`. -/
theorem C123_proportional_search (freq freq' : Freq) (total total' : Int) (T : FinalSeg.Tables ℝ) (force : List Str)
    (h : Proportional freq total freq' total') (ht : 0 < total) (ht' : 0 < total') (s : Str)
    (hs : ∀ c ∈ s, isWordCh c = true → DictWord freq [c]) (hm : Bool) :
    cutForSearch ⟨realArith, freq', total', T, force⟩ hm s = cutForSearch ⟨realArith, freq, total, T, force⟩ hm s := by
  have htr := proportional_truthy h ht ht'
  have hg : ∀ n w, grams freq' n w = grams freq n w := by
    intro n w
    unfold grams
    simp only [htr]
  unfold cutForSearch
  rw [C123_proportional freq freq' total total' T force h ht ht' s hs false hm]
  simp only [hg]

/-- C123 for `posseg.cut`. -/
theorem C123_proportional_posseg (E E' : Pos.PEnv ℝ) (hA : E.A = realArith) (hA' : E'.A = realArith) (htab : E'.tab = E.tab)
    (htb : E'.tables = E.tables) (hσ : E'.σ = E.σ) (h : Proportional E.freq E.total E'.freq E'.total) (ht : 0 < E.total) (ht' : 0 < E'.total)
    (s : Str) (hs : ∀ c ∈ s, isWordChPos c = true → DictWord E.freq [c]) (hm : Bool) : Pos.cut E' hm s = Pos.cut E hm s := by
  have htr := proportional_truthy h ht ht'
  rw [Pos.cut_eq_scan, Pos.cut_eq_scan]
  unfold scan
  apply Gen.forEach_congr
  intro b hb
  split
  · next ha =>
    have hw : ∀ c ∈ b, isWordChPos c = true := by
      rcases chunks_uniform _ _ b hb with hu | hu
      · exact hu
      · obtain ⟨c, hc, hc2⟩ := List.any_eq_true.mp ha
        rw [hu c hc] at hc2; exact absurd hc2 (by simp)
    have hr := route_proportional h ht ht' b (fun c hc => hs c ((chunk_infix _ _ _ hb).subset hc) (hw c hc))
    unfold Pos.cutBlock
    split
    · unfold Pos.cutDAG
      rw [hA, hA', hr]
      congr 1
      funext route
      have hd : ∀ b, Pos.cutDetail E' b = Pos.cutDetail E b := by
        intro b
        unfold Pos.cutDetail Pos.hmmCut
        rw [hA, hA', htb, hσ]
      have hfl : ∀ buf, Pos.flushBuf E' buf = Pos.flushBuf E buf := by
        intro buf
        unfold Pos.flushBuf
        rw [htr, htab, hd]
      have : ∀ n x buf, Pos.dagCutLoop E' b route n x buf = Pos.dagCutLoop E b route n x buf := by
        intro n
        induction n with
        | zero => intro x buf; exact hfl buf
        | succ n ih => intro x buf; simp only [Pos.dagCutLoop, hfl, ih, htab]
      exact this _ _ _
    · unfold Pos.cutDAGNoHMM
      rw [hA, hA', hr, htab]
  · rfl

/-- All frequencies and the total, multiplied by `k`. -/
def scaled (k : Int) (freq : Freq) : Freq := freq.map (fun e => (e.1, k * e.2))

theorem get?_scaled (k : Int) (freq : Freq) (w : Str) : (scaled k freq).get? w = (freq.get? w).map (k * ·) := by
  unfold scaled
  induction freq with
  | nil => rfl
  | cons e d ih =>
    simp only [List.map_cons, PyDict.get?]
    split
    · rfl
    · exact ih

theorem proportional_scaled (k : Int) (freq : Freq) (total : Int) : Proportional freq total (scaled k freq) (k * total) where
  entries w := by unfold PyDict.has; rw [get?_scaled]; simp
  ratio w v v' hv hv' := by
    rw [get?_scaled, hv] at hv'
    simp only [Option.map_some, Option.some.injEq] at hv'
    subst hv'
    ring

/-- C123: in particular multiplying all frequencies by the same number changes nothing. -/
theorem C123_scaled (freq : Freq) (total k : Int) (T : FinalSeg.Tables ℝ) (force : List Str) (ht : 0 < total) (hk : 0 < k) (s : Str)
    (hs : ∀ c ∈ s, isWordCh c = true → DictWord freq [c]) (ca hm : Bool) :
    cut ⟨realArith, scaled k freq, k * total, T, force⟩ ca hm s = cut ⟨realArith, freq, total, T, force⟩ ca hm s :=
  C123_proportional freq _ total _ T force (proportional_scaled k freq total) ht (Int.mul_pos hk ht) s hs ca hm

/-- 丙 is not in the dictionary, only a beginning. -/
def scaleFreq : Freq := [(lit ['甲'], 2), (lit ['甲', '乙'], 3), (lit ['乙'], 1), (lit ['乙', '丙'], 1)]

/-- C123, negative part: characters that are not in the dictionary count as frequency 1, whatever the others are.  With all frequencies
doubled 甲乙丙 is no longer cut into 甲乙 and the unknown 丙, but into 甲 and 乙丙. -/
theorem C123_unknown_characters :
    (∀ T force, cut ⟨realArith, scaleFreq, 7, T, force⟩ false false (lit ['甲', '乙', '丙']) = Gen.ok [lit ['甲', '乙'], lit ['丙']]) ∧
    (∀ T force, cut ⟨realArith, scaled 2 scaleFreq, 14, T, force⟩ false false (lit ['甲', '乙', '丙']) =
      Gen.ok [lit ['甲'], lit ['乙', '丙']]) := by
  constructor
  · intro T force; rw [cut_real]; decide +kernel
  · intro T force; rw [cut_real]; decide +kernel

/-- The hypotheses of C123 are met: 甲乙。乙 with the dictionary above. -/
example : (∀ c ∈ lit ['甲', '乙', '。', '乙'], isWordCh c = true → DictWord scaleFreq [c]) ∧
    (∀ T force, cut ⟨realArith, scaleFreq, 7, T, force⟩ false false (lit ['甲', '乙', '。', '乙']) =
      Gen.ok [lit ['甲', '乙'], lit ['。'], lit ['乙']]) := by
  refine ⟨by decide +kernel, fun T force => ?_⟩
  rw [cut_real]; decide +kernel

/-! ## Equal frequencies -/

theorem segScore_equal (freq : Freq) (total f : Int) (l : List Str) (h : ∀ w ∈ l, scoreFreq freq w = f) :
    segScore realArith freq total l = l.length * (Real.log (f.toNat : ℝ) - Real.log (total.toNat : ℝ)) := by
  induction l with
  | nil => simp [segScore, realArith]
  | cons w l ih =>
    show (Real.log ((scoreFreq freq w).toNat : ℝ) - Real.log (total.toNat : ℝ)) + segScore realArith freq total l = _
    rw [ih (fun x hx => h x (List.mem_cons_of_mem _ hx)), h w (by simp), List.length_cons]
    push_cast
    ring

/-- C123: if all words of the dictionary have the same frequency, a text of which every character is in the dictionary is cut into as
few words as possible (without HMM; runs without ASCII letters and digits; exact arithmetic).  If that frequency is 1, this also holds
for texts with unknown characters. -/
theorem C123_fewest_words (freq : Freq) (total f : Int) (T : FinalSeg.Tables ℝ) (force : List Str)
    (hp : PrefixClosed freq) (hf : 0 < f) (ht : f < total) (heq : ∀ w v, freq.get? w = some v → v = 0 ∨ v = f) (s : Str) (hne : s ≠ [])
    (hs : ∀ c ∈ s, isWordCh c = true ∧ isAlnum c = false) (hk : f = 1 ∨ ∀ c ∈ s, DictWord freq [c]) :
    ∃ ts, cut ⟨realArith, freq, total, T, force⟩ false false s = Gen.ok ts ∧ Admissible freq s ts ∧
      ∀ other, Admissible freq s other → ts.length ≤ other.length := by
  have hn : NonNeg freq := by
    intro w v hv
    rcases heq w v hv with rfl | rfl
    · exact le_refl _
    · exact hf.le
  obtain ⟨ts, h1, h2, h3⟩ := C04_cut_optimal ⟨realArith, freq, total, T, force⟩ realArith_mono hp hn (lt_trans hf ht) s hne hs
  refine ⟨ts, h1, h2, fun other ho => ?_⟩
  have score : ∀ l, Admissible freq s l → ∀ w ∈ l, scoreFreq freq w = f := by
    intro l hl w hw
    have hin := admissible_infix _ _ _ hl w hw
    have hdict : DictWord freq w → scoreFreq freq w = f := by
      rintro ⟨v, hv, hv0⟩
      unfold scoreFreq
      rw [hv]
      simp only [if_neg hv0]
      exact (heq w v hv).resolve_left hv0
    by_cases hd : DictWord freq w
    · exact hdict hd
    · rcases hk with rfl | hk
      · unfold scoreFreq
        cases hv : freq.get? w with
        | none => rfl
        | some v =>
          have : v = 0 := by
            by_contra h0
            exact hd ⟨v, hv, h0⟩
          simp [this]
      · exfalso
        have single : ∃ c, w = [c] := by
          have : ∀ (l : List Str) (s : Str), Admissible freq s l → ∀ w ∈ l, DictWord freq w ∨ ∃ c, w = [c] := by
            intro l
            induction l with
            | nil => intro s _ w hw; cases hw
            | cons u l ih =>
              intro s hl w hw
              rcases List.mem_cons.mp hw with rfl | hw
              · rcases hl.1.2.2 with h | ⟨h, -⟩
                · exact Or.inl h
                · exact Or.inr (List.length_eq_one_iff.mp h)
              · exact ih _ hl.2 w hw
          exact (this l s hl w hw).resolve_left hd
        obtain ⟨c, rfl⟩ := single
        exact hd (hk c (hin.subset (List.mem_singleton_self c)))
  have e := h3 other ho
  rw [segScore_equal freq total f _ (score ts h2), segScore_equal freq total f _ (score other ho)] at e
  have neg : Real.log (f.toNat : ℝ) - Real.log (total.toNat : ℝ) < 0 := by
    have : Real.log (f.toNat : ℝ) < Real.log (total.toNat : ℝ) := by
      apply Real.log_lt_log
      · exact_mod_cast (by omega : 0 < f.toNat)
      · exact_mod_cast (by omega : f.toNat < total.toNat)
    linarith
  have := (mul_le_mul_right_of_neg neg).mp e
  exact_mod_cast this

/-- Five characters, 甲乙, 甲乙丙 and 丙丁戊, all equally frequent. -/
def equalFreq : Freq := [(lit ['甲'], 1), (lit ['乙'], 1), (lit ['丙'], 1), (lit ['丁'], 1), (lit ['戊'], 1), (lit ['甲', '乙'], 1),
  (lit ['甲', '乙', '丙'], 1), (lit ['丙', '丁'], 0), (lit ['丙', '丁', '戊'], 1)]

/-- The hypotheses are met, and the result is not that of taking the longest word at each place (甲乙丙 丁 戊). -/
example : PrefixClosed equalFreq ∧ (∀ w v, equalFreq.get? w = some v → v = 0 ∨ v = 1) ∧
    (∀ c ∈ lit ['甲', '乙', '丙', '丁', '戊'], isWordCh c = true ∧ isAlnum c = false) ∧
    (∀ c ∈ lit ['甲', '乙', '丙', '丁', '戊'], DictWord equalFreq [c]) ∧
    (∀ T force, cut ⟨realArith, equalFreq, 8, T, force⟩ false false (lit ['甲', '乙', '丙', '丁', '戊']) =
      Gen.ok [lit ['甲', '乙'], lit ['丙', '丁', '戊']]) := by
  refine ⟨?_, ?_, by decide +kernel, by decide +kernel, fun T force => by rw [cut_real]; decide +kernel⟩
  · have key : ∀ w ∈ equalFreq.map Prod.fst, ∀ p ∈ w.inits, p ≠ [] → PyDict.has equalFreq p = true := by decide +kernel
    intro w hw p hne hpre
    exact key w ((PyDict.mem_keys_iff _ _).mpr hw) p ((List.mem_inits _ _).mpr hpre) hne
  · intro w v hv
    have key : ∀ e ∈ equalFreq, e.2 = 0 ∨ e.2 = 1 := by decide +kernel
    have mem : ∀ d : Freq, d.get? w = some v → (w, v) ∈ d := by
      intro d
      induction d with
      | nil => intro h; simp [PyDict.get?] at h
      | cons e d ih =>
        intro h
        simp only [PyDict.get?] at h
        split at h
        · next he => cases h; subst he; exact List.mem_cons_self
        · exact List.mem_cons_of_mem _ (ih h)
    exact key (w, v) (mem _ hv)

end Jieba.Props
