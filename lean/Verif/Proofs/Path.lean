import Verif.Proofs.Cut
/-!
# Optimality of the chosen path, and how tokens arise from it
-/

set_option linter.unusedSectionVars false

namespace Jieba
open Jieba.Spec

variable {F : Type _} [LinearOrder F]

/-! ## Rows and next words -/

theorem nextWord_of_row (freq : Freq) (hp : PrefixClosed freq) (s : Str) (k x : Nat) (hk : k < s.length)
    (hx : x ∈ dagRow freq s k) : NextWord freq (s.drop k) (slice s k (x + 1)) := by
  obtain ⟨hb1, hb2⟩ := (dagRow_bounds freq s k hk).2 x hx
  refine ⟨slice_ne_nil _ _ _ (by omega) hk, ?_, ?_⟩
  · rw [slice_eq]; exact List.take_prefix _ _
  · rcases dagRow_mem freq s k x hk hx with h | ⟨rfl, h⟩
    · exact Or.inl h
    · by_cases hw : DictWord freq (slice s x (x + 1))
      · exact Or.inl hw
      right
      refine ⟨by rw [slice_length _ _ _ (by omega)]; omega, ?_⟩
      intro v hv hpre hd
      rw [prefix_drop_iff s x v (by omega)] at hpre
      have hl : 0 < v.length := List.length_pos_of_ne_nil hv
      rw [dagRow_exact freq hp s x hk] at h
      have hm : x + v.length - 1 ∈ (List.range' x (s.length - x)).filter (fun j => freq.truthy (slice s x (j + 1))) := by
        rw [filter_range'_mem]
        refine ⟨by omega, by omega, ?_⟩
        rw [truthy_iff, show x + v.length - 1 + 1 = x + v.length by omega, ← hpre.1]; exact hd
      have hne : (List.range' x (s.length - x)).filter (fun j => freq.truthy (slice s x (j + 1))) ≠ [] :=
        List.ne_nil_of_mem hm
      rw [if_neg hne] at h
      rw [h] at hm
      simp at hm
      have : v.length = 1 := by omega
      rw [this] at hpre
      rw [hpre.1] at hd
      exact hw hd

theorem row_of_nextWord (freq : Freq) (hp : PrefixClosed freq) (s : Str) (k : Nat) (hk : k < s.length) (w : Str)
    (h : NextWord freq (s.drop k) w) :
    ∃ x ∈ dagRow freq s k, w = slice s k (x + 1) ∧ x + 1 = k + w.length := by
  obtain ⟨hne, hpre, h⟩ := h
  have hl : 0 < w.length := List.length_pos_of_ne_nil hne
  rw [prefix_drop_iff s k w (by omega)] at hpre
  refine ⟨k + w.length - 1, ?_, ?_, by omega⟩
  · rw [dagRow_exact freq hp s k hk]
    rcases h with h | ⟨h1, h2⟩
    · have hm : k + w.length - 1 ∈ (List.range' k (s.length - k)).filter (fun j => freq.truthy (slice s k (j + 1))) := by
        rw [filter_range'_mem]
        refine ⟨by omega, by omega, ?_⟩
        rw [truthy_iff, show k + w.length - 1 + 1 = k + w.length by omega, ← hpre.1]; exact h
      rw [if_neg (List.ne_nil_of_mem hm)]; exact hm
    · have : (List.range' k (s.length - k)).filter (fun j => freq.truthy (slice s k (j + 1))) = [] := by
        rw [List.filter_eq_nil_iff]
        intro x hx ht
        rw [List.mem_range'_1] at hx
        refine h2 (slice s k (x + 1)) (slice_ne_nil _ _ _ (by omega) hk) ?_ ((truthy_iff _ _).mp ht)
        rw [slice_eq]; exact List.take_prefix _ _
      rw [if_pos this, h1]; simp
  · rw [show k + w.length - 1 + 1 = k + w.length by omega]; exact hpre.1

/-! ## Optimality -/

theorem admissible_of_drop_ne {freq : Freq} {s : Str} {ws : List Str} (h : Admissible freq s ws) (hs : s ≠ []) :
    ∃ w ws', ws = w :: ws' := by
  cases ws with
  | nil => exact absurd h hs
  | cons w ws => exact ⟨w, ws, rfl⟩

theorem route_best (A : Arith F) (hA : MonoAdd A) (freq : Freq) (hp : PrefixClosed freq) (total : Int) (s : Str)
    (route : List (F × Nat)) (h : calcRoute A freq total s (getDAG freq s) = .ok route) (n : Nat) :
    ∀ x fuel, x ≤ s.length → s.length - x = n → n ≤ fuel → ∃ r, route[x]? = some r ∧
      r.1 = segScore A freq total (pathFrom s route fuel x) ∧
      IsBest A freq total (s.drop x) (pathFrom s route fuel x) ∧
      ∀ ws, Admissible freq (s.drop x) ws → segScore A freq total ws ≤ r.1 := by
  obtain ⟨ht, hlen, hend, hrow⟩ := calcRoute_ok A freq total s _ route h
  induction n using Nat.strong_induction_on with
  | _ n ih =>
    intro x fuel hx hn hf
    by_cases hx' : x = s.length
    · subst hx'
      have hd : s.drop s.length = [] := by simp
      have hpf : pathFrom s route fuel s.length = [] := by cases fuel <;> simp [pathFrom]
      refine ⟨_, hend, by rw [hpf]; rfl, by rw [hpf, hd]; rfl, ?_⟩
      intro ws hws
      rw [hd] at hws
      cases ws with
      | nil => exact le_refl _
      | cons w ws =>
        have := hws.1.2.1
        have h0 := hws.1.1
        simp at this; exact absurd this h0
    · have hxl : x < s.length := by omega
      obtain ⟨L, best, nxt, h1, h2, h3, h4, h5, h6, h7, h8⟩ := (hrow x hxl).exists_best
      rw [getDAG_get freq s x hxl] at h1
      simp at h1; subst h1
      obtain ⟨hb1, hb2⟩ := (dagRow_bounds freq s x hxl).2 _ h3
      obtain ⟨fuel, rfl⟩ : ∃ f, fuel = f + 1 := ⟨fuel - 1, by omega⟩
      have hpath : pathFrom s route (fuel + 1) x = slice s x (best.2 + 1) :: pathFrom s route fuel (best.2 + 1) := by
        conv_lhs => unfold pathFrom
        rw [if_pos hxl, h2]
      obtain ⟨r', hr', i1, i2, i3⟩ := ih (s.length - (best.2 + 1)) (by omega) (best.2 + 1) fuel (by omega) rfl (by omega)
      rw [h5] at hr'; simp at hr'; subst hr'
      have hscore : best.1 = segScore A freq total (pathFrom s route (fuel + 1) x) := by
        rw [hpath, h7]; simp only [segScore]; rw [i1]
      have hdl : (s.drop x).drop (slice s x (best.2 + 1)).length = s.drop (best.2 + 1) := by
        rw [slice_length _ _ _ (by omega), List.drop_drop]; congr 1; omega
      -- bound for every competitor
      have hcmp : ∀ w' ws', Admissible freq (s.drop x) (w' :: ws') →
          segScore A freq total (w' :: ws') < best.1 ∨
          (segScore A freq total (w' :: ws') = best.1 ∧ w'.length ≤ (slice s x (best.2 + 1)).length) := by
        intro w' ws' hadm
        obtain ⟨y, hy, hw', hyl⟩ := row_of_nextWord freq hp s x hxl w' hadm.1
        obtain ⟨hy1, hy2⟩ := (dagRow_bounds freq s x hxl).2 _ hy
        obtain ⟨-, nx, hnx, hle⟩ := h8 y hy
        obtain ⟨r'', hr'', j1, j2, j3⟩ := ih (s.length - (y + 1)) (by omega) (y + 1) s.length (by omega) rfl (by omega)
        rw [hnx] at hr''; simp at hr''; subst hr''
        have hadm2 : Admissible freq (s.drop (y + 1)) ws' := by
          have := hadm.2
          rw [List.drop_drop, ← hyl] at this
          exact this
        have hsc := hA.right _ _ (A.sub (A.log (scoreFreq freq (slice s x (y + 1))).toNat) (A.log total.toNat)) (j3 ws' hadm2)
        have hseg : segScore A freq total (w' :: ws') =
            A.add (A.sub (A.log (scoreFreq freq (slice s x (y + 1))).toNat) (A.log total.toNat)) (segScore A freq total ws') := by
          rw [hw']; rfl
        rw [hseg]
        rcases hle with hle | ⟨hle, hlen'⟩
        · exact Or.inl (lt_of_le_of_lt hsc hle)
        · rcases lt_or_eq_of_le hsc with hlt | heq
          · left; exact lt_of_lt_of_eq hlt hle
          · right
            refine ⟨heq.trans hle, ?_⟩
            rw [slice_length _ _ _ (by omega)]; omega
      refine ⟨best, h2, hscore, ?_, ?_⟩
      · rw [hpath]
        refine ⟨nextWord_of_row freq hp s x _ hxl h3, by rw [hdl]; exact i2, ?_⟩
        rw [← hpath, ← hscore]
        exact hcmp
      · intro ws hws
        obtain ⟨w', ws', rfl⟩ := admissible_of_drop_ne hws (by simp; omega)
        rcases hcmp w' ws' hws with h | h
        · exact le_of_lt h
        · exact le_of_eq h.1

theorem isBest_admissible (A : Arith F) (freq : Freq) (total : Int) (s : Str) (ws : List Str)
    (h : IsBest A freq total s ws) : Admissible freq s ws := by
  induction ws generalizing s with
  | nil => exact h
  | cons w ws ih => exact ⟨h.1, ih _ h.2.1⟩

theorem isBest_unique (A : Arith F) (freq : Freq) (total : Int) (s : Str) (p q : List Str)
    (hp : IsBest A freq total s p) (hq : IsBest A freq total s q) : p = q := by
  induction p generalizing s q with
  | nil =>
    cases q with
    | nil => rfl
    | cons w ws =>
      have h0 : s = [] := hp
      have := hq.1.2.1
      rw [h0] at this
      simp at this
      exact absurd this hq.1.1
  | cons w ws ih =>
    cases q with
    | nil =>
      have h0 : s = [] := hq
      have := hp.1.2.1
      rw [h0] at this
      simp at this
      exact absurd this hp.1.1
    | cons w' ws' =>
      have h1 := hp.2.2 w' ws' (isBest_admissible A freq total s _ hq)
      have h2 := hq.2.2 w ws (isBest_admissible A freq total s _ hp)
      have hl : w.length = w'.length := by
        rcases h1 with h1 | h1 <;> rcases h2 with h2 | h2
        · exact absurd (lt_trans h1 h2) (lt_irrefl _)
        · exact absurd (h2.1 ▸ h1) (lt_irrefl _)
        · exact absurd (h1.1 ▸ h2) (lt_irrefl _)
        · omega
      have hw : w = w' := by
        have e1 := List.prefix_iff_eq_take.mp hp.1.2.1
        have e2 := List.prefix_iff_eq_take.mp hq.1.2.1
        rw [e1, e2, hl]
      subst hw
      rw [ih _ _ hp.2.1 hq.2.1]

theorem isBest_max (A : Arith F) (freq : Freq) (total : Int) (s : Str) (p q : List Str)
    (hp : IsBest A freq total s p) (hq : Admissible freq s q) : segScore A freq total q ≤ segScore A freq total p := by
  cases p with
  | nil =>
    have h0 : s = [] := hp
    cases q with
    | nil => exact le_refl _
    | cons w ws =>
      have := hq.1.2.1
      rw [h0] at this
      simp at this
      exact absurd this hq.1.1
  | cons w ws =>
    cases q with
    | nil =>
      have h0 : s = [] := hq
      have := hp.1.2.1
      rw [h0] at this
      simp at this
      exact absurd this hp.1.1
    | cons w' ws' =>
      rcases hp.2.2 w' ws' hq with h | h
      · exact le_of_lt h
      · exact le_of_eq h.1

/-! ## Tokens from the path -/

theorem reEng_letter (w : Str) : (reEng.isMatch w && w.length == 1) = true ↔ IsLetter w := by
  unfold reEng IsLetter
  rw [isMatch_cls]
  cases w with
  | nil => simp
  | cons c w =>
    cases w with
    | nil => simp
    | cons d w => simp

theorem mergeEng_regrouped_aux (ws : List Str) :
    ∀ r : List Str, (∀ w ∈ r, IsLetter w) →
      Regrouped IsLetter (fun r => [r.flatten]) (r ++ ws) (mergeEng r.flatten ws) := by
  induction ws with
  | nil =>
    intro r hr
    unfold mergeEng
    by_cases h : r = []
    · subst h; simp; exact .nil
    · have hne : r.flatten ≠ [] := by
        cases r with
        | nil => exact absurd rfl h
        | cons w r => obtain ⟨c, rfl, _⟩ := hr w (by simp); simp
      rw [if_neg hne]
      have := Regrouped.run (f := fun r => [r.flatten]) r [] [] h hr (by simp) .nil
      simpa using this
  | cons w ws ih =>
    intro r hr
    unfold mergeEng
    by_cases hw : (reEng.isMatch w && w.length == 1) = true
    · rw [if_pos hw]
      have hw' := (reEng_letter w).mp hw
      have := ih (r ++ [w]) (by
        intro x hx
        rcases List.mem_append.mp hx with h | h
        · exact hr x h
        · simp at h; subst h; exact hw')
      simpa using this
    · rw [if_neg hw]
      have hw' : ¬ IsLetter w := fun h => hw ((reEng_letter w).mpr h)
      have h2 := Regrouped.word (single := IsLetter) (f := fun r => [r.flatten]) w ws _ hw' (by simpa using ih [] (by simp))
      by_cases h : r = []
      · subst h; simpa using h2
      · have hne : r.flatten ≠ [] := by
          cases r with
          | nil => exact absurd rfl h
          | cons w r => obtain ⟨c, rfl, _⟩ := hr w (by simp); simp
        rw [if_neg hne]
        exact Regrouped.run (f := fun r => [r.flatten]) r _ _ h hr (by simpa using hw') h2

theorem mergeEng_regrouped (ws : List Str) :
    Regrouped IsLetter (fun r => [r.flatten]) ws (mergeEng [] ws) := by
  simpa using mergeEng_regrouped_aux ws [] (by simp)

/-- The tokens given to a run of single-character words by `__cut_DAG`. -/
def runTokens (freq : Freq) (hmm : Str → List Str) (r : List Str) : List Str :=
  if r.length = 1 ∨ freq.truthy r.flatten = true then r else hmm r.flatten

theorem flatten_singles (r : List Str) (hr : ∀ w ∈ r, w.length = 1) :
    r.flatten.length = r.length ∧ r.flatten.map (fun c => [c]) = r := by
  induction r with
  | nil => simp
  | cons w r ih =>
    obtain ⟨h1, h2⟩ := ih (fun x hx => hr x (by simp [hx]))
    have hw := hr w (by simp)
    match w, hw with
    | [c], _ => simp [h1]; simpa using h2

theorem flushBuf_run (freq : Freq) (hmm : Str → List Str) (r : List Str) (hne : r ≠ []) (hr : ∀ w ∈ r, w.length = 1) :
    flushBuf freq (fun s => Gen.ok (hmm s)) r.flatten = Gen.ok (runTokens freq hmm r) := by
  obtain ⟨h1, h2⟩ := flatten_singles r hr
  unfold flushBuf runTokens
  have h0 : r.flatten ≠ [] := by
    intro e; rw [e] at h1; simp at h1; exact hne (List.length_eq_zero_iff.mp (by simpa using h1.symm))
  rw [if_neg h0, h1]
  by_cases hl : r.length = 1
  · rw [if_pos hl, if_pos (Or.inl hl)]
    match r, hl with
    | [w], _ => simp
  · rw [if_neg hl]
    cases ht : freq.truthy r.flatten
    · simp [hl]
    · simp [h2]

theorem regroup_regrouped_aux (freq : Freq) (hmm : Str → List Str) (ws : List Str) (hw : ∀ w ∈ ws, w ≠ []) :
    ∀ r : List Str, (∀ w ∈ r, w.length = 1) → ∃ ts,
      regroup freq (fun s => Gen.ok (hmm s)) r.flatten ws = Gen.ok ts ∧
      Regrouped (fun w => w.length = 1) (runTokens freq hmm) (r ++ ws) ts := by
  induction ws with
  | nil =>
    intro r hr
    unfold regroup
    by_cases h : r = []
    · subst h; exact ⟨[], by simp [flushBuf], by simpa using Regrouped.nil⟩
    · refine ⟨_, flushBuf_run freq hmm r h hr, ?_⟩
      have := Regrouped.run (f := runTokens freq hmm) r [] [] h hr (by simp) .nil
      simpa using this
  | cons w ws ih =>
    intro r hr
    have hws : ∀ w ∈ ws, w ≠ [] := fun x hx => hw x (by simp [hx])
    unfold regroup
    by_cases hl : w.length = 1
    · rw [if_pos hl]
      obtain ⟨ts, h1, h2⟩ := ih hws (r ++ [w]) (by
        intro x hx
        rcases List.mem_append.mp hx with h | h
        · exact hr x h
        · simp at h; subst h; exact hl)
      refine ⟨ts, ?_, by simpa using h2⟩
      simpa using h1
    · rw [if_neg hl]
      obtain ⟨ts, h1, h2⟩ := ih hws [] (by simp)
      simp only [List.flatten_nil] at h1
      have h3 := Regrouped.word (single := fun w : Str => w.length = 1) (f := runTokens freq hmm) w ws ts hl (by simpa using h2)
      rw [h1]
      by_cases h : r = []
      · subst h
        exact ⟨w :: ts, by simp [flushBuf], by simpa using h3⟩
      · rw [flushBuf_run freq hmm r h hr]
        exact ⟨_, rfl, Regrouped.run (f := runTokens freq hmm) r _ _ h hr (by simpa using hl) h3⟩

/-- `finalseg.cut` as a function (it never raises). -/
def hmmTokens (E : Env F) (s : Str) : List Str := (E.hmm s).out

theorem hmm_eq (E : Env F) : E.hmm = fun s => Gen.ok (hmmTokens E s) := by
  funext s
  obtain ⟨ws, h1, h2⟩ := FinalSeg.cut_spec E.A E.tables E.force s
  have : E.hmm s = Gen.ok ws := h1
  unfold hmmTokens
  rw [this]; rfl

/-- On a well-formed dictionary both accurate block cutters succeed, and their tokens come from one path. -/
theorem blocks_from_path (E : Env F) (hn : NonNeg E.freq) (ht : 0 < E.total) (s : Str) :
    ∃ route, calcRoute E.A E.freq E.total s (getDAG E.freq s) = .ok route ∧ RouteWF s route ∧
      ∃ path, path = pathFrom s route s.length 0 ∧ path.flatten = s ∧ (∀ w ∈ path, w ≠ []) ∧
        (∃ ts, cutBlock E false false s = Gen.ok ts ∧ Regrouped IsLetter (fun r => [r.flatten]) path ts) ∧
        (∃ ts, cutBlock E false true s = Gen.ok ts ∧
          Regrouped (fun w => w.length = 1) (runTokens E.freq (hmmTokens E)) path ts) := by
  obtain ⟨route, hroute⟩ := calcRoute_total E.A E.freq hn E.total ht s
  have hr := routeWF_of_calc _ _ _ _ _ hroute
  obtain ⟨h1, h2⟩ := pathFrom_flatten s route hr s.length 0 (by omega)
  refine ⟨route, hroute, hr, _, rfl, by simpa using h1, h2, ?_, ?_⟩
  · refine ⟨_, ?_, mergeEng_regrouped _⟩
    unfold cutBlock cutDAGNoHMM
    simp only [Bool.false_eq_true, if_false, hroute, Gen.ofExcept_ok]
    exact noHmmLoop_eq s route hr _ _ _ (by omega)
  · obtain ⟨ts, h3, h4⟩ := regroup_regrouped_aux E.freq (hmmTokens E) _ h2 [] (by simp)
    refine ⟨ts, ?_, by simpa using h4⟩
    unfold cutBlock cutDAG
    simp only [Bool.false_eq_true, if_false, if_true, hroute, Gen.ofExcept_ok]
    rw [dagCutLoop_eq _ _ s route hr _ _ _ (by omega), hmm_eq]
    exact h3

/-- A non-empty text of word characters is one block. -/
theorem cut_of_word_block (E : Env F) (hm : Bool) (s : Str) (hne : s ≠ []) (hs : ∀ c ∈ s, isWordCh c = true) :
    cut E false hm s = cutBlock E false hm s := by
  rw [cut_accurate_eq_scan]
  have := scan_word isWordCh (cutBlock E false hm) (fun b => Gen.ok (charTokens b)) s [] hne hs (by simp)
  rw [List.append_nil] at this
  rw [this, scan_nil]
  simp

end Jieba
