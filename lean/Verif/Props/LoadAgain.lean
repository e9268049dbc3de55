import Verif.Proofs.LoadAgain
import Verif.Props.DictOrder
import Verif.Props.Stability
import Verif.Props.Totals
/-!
# C125 — loading the same user dictionary again and again
-/

namespace Jieba.Props
open Jieba Jieba.Spec

/-- The state after `load_userdict(src)`, `n` times. -/
def loadTimes {F : Type _} [LinearOrder F] (S : Sys F) (w : World) (t : Nat) (src : UserDict) (io : Bool) : Nat → World
  | 0 => w
  | n + 1 => (loadUserdict S (loadTimes S w t src io n) t src io).1

theorem loadUserdict_adds {F : Type _} [LinearOrder F] (S : Sys F) (w : World) (t : Nat) (src : UserDict) (io : Bool) (lns : List PyText)
    (es : List (Option Added)) (hi : (w.tok t).initialized = true) (hl : LinesOf w src lns) (he : List.Forall₂ LineAdds lns es) :
    loadUserdict S w t src io = (addMany t w (es.filterMap id), .ok ()) := by
  rw [← userdictLoop_adds S t lns es he w hi]
  unfold loadUserdict
  rw [checkInit_of_init S w t io hi]
  cases hl with
  | path p f ls h1 h2 => simp only [h1, (fileLines_iff _ _).mp h2]
  | file data ls h => simp only [(fileLines_iff _ _).mp h]
  | lines l => rfl

theorem linesOf_files {w w' : World} (h : w'.files = w.files) {src : UserDict} {lns : List PyText} (hl : LinesOf w src lns) :
    LinesOf w' src lns := by
  cases hl with
  | path p f ls h1 h2 => exact .path p f ls (by rw [h]; exact h1) h2
  | file data ls h => exact .file data ls h
  | lines => exact .lines _

theorem lineAdds_nonneg {ln : PyText} {e : Option Added} (h : LineAdds ln e) (x : Added) (hx : e = some x) : 0 ≤ x.2.1 := by
  cases h with
  | blank => cases hx
  | entry line word f n tag h1 h2 h3 h4 =>
    cases hx
    exact pyInt_nonneg f (userFields_freq_digits line word f tag (userFields_of_entry _ _ _ _ h3)) n ((intText_iff f n).mp h4)

theorem lines_nonneg {lns : List PyText} {es : List (Option Added)} (he : List.Forall₂ LineAdds lns es) :
    ∀ x ∈ es.filterMap id, 0 ≤ x.2.1 := by
  induction he with
  | nil => simp
  | cons h _ ih =>
    intro x hx
    rw [List.mem_filterMap] at hx
    obtain ⟨e, he, hx⟩ := hx
    rcases List.mem_cons.mp he with rfl | he
    · exact lineAdds_nonneg h x hx
    · exact ih x (List.mem_filterMap.mpr ⟨e, he, hx⟩)

theorem loadTimes_facts {F : Type _} [LinearOrder F] (S : Sys F) (w : World) (t : Nat) (src : UserDict) (io : Bool) (lns : List PyText)
    (es : List (Option Added)) (hi : (w.tok t).initialized = true) (hl : LinesOf w src lns) (he : List.Forall₂ LineAdds lns es) (n : Nat) :
    ((loadTimes S w t src io n).tok t).initialized = true ∧ (loadTimes S w t src io n).files = w.files ∧
    (loadUserdict S (loadTimes S w t src io n) t src io).2 = .ok () ∧
    ((loadTimes S w t src io n).tok t).total = (w.tok t).total + n * ((es.filterMap id).map (·.2.1)).sum ∧
    SameUpToTotal t (loadTimes S w t src io (n + 1)) (loadTimes S w t src io 1) := by
  have h1 : loadTimes S w t src io 1 = addMany t w (es.filterMap id) := by
    show (loadUserdict S w t src io).1 = _
    rw [loadUserdict_adds S w t src io lns es hi hl he]
  induction n with
  | zero =>
    refine ⟨hi, rfl, ?_, by simp [loadTimes], ⟨fun _ => rfl, fun _ => rfl, fun _ => Iff.rfl⟩⟩
    show (loadUserdict S w t src io).2 = _
    rw [loadUserdict_adds S w t src io lns es hi hl he]
  | succ n ih =>
    obtain ⟨a1, a2, a3, a4, a5⟩ := ih
    have e : loadTimes S w t src io (n + 1) = addMany t (loadTimes S w t src io n) (es.filterMap id) := by
      show (loadUserdict S (loadTimes S w t src io n) t src io).1 = _
      rw [loadUserdict_adds S _ t src io lns es a1 (linesOf_files a2 hl) he]
    have b1 : ((loadTimes S w t src io (n + 1)).tok t).initialized = true := by rw [e, addMany_init]; exact a1
    have b2 : (loadTimes S w t src io (n + 1)).files = w.files := by rw [e, addMany_files]; exact a2
    have hn := loadUserdict_adds S _ t src io lns es b1 (linesOf_files b2 hl) he
    refine ⟨b1, b2, by rw [hn], ?_, ?_⟩
    · rw [e, addMany_total, a4]; push_cast; ring
    · rw [h1] at a5 ⊢
      show SameUpToTotal t (loadUserdict S (loadTimes S w t src io (n + 1)) t src io).1 _
      rw [hn]
      exact addMany_again t _ w _ a5

/-- C125: a user dictionary in which every line has a frequency, loaded again: it succeeds, and every word, every tag and every forced split is
as after the first time, but the total grows by the sum of the frequencies each time. -/
theorem C125_state {F : Type _} [LinearOrder F] (S : Sys F) (w : World) (t : Nat) (src : UserDict) (io : Bool) (lns : List PyText)
    (es : List (Option Added)) (hi : (w.tok t).initialized = true) (hl : LinesOf w src lns) (he : List.Forall₂ LineAdds lns es) (n : Nat) :
    (loadUserdict S (loadTimes S w t src io n) t src io).2 = .ok () ∧
    ((loadTimes S w t src io n).tok t).total = (w.tok t).total + n * ((es.filterMap id).map (·.2.1)).sum ∧
    (1 ≤ n → (∀ v, ((loadTimes S w t src io n).tok t).freq.get? v = ((loadTimes S w t src io 1).tok t).freq.get? v) ∧
      (∀ v, ((loadTimes S w t src io n).tok t).tags.get? v = ((loadTimes S w t src io 1).tok t).tags.get? v) ∧
      ∀ v, v ∈ (loadTimes S w t src io n).force ↔ v ∈ (loadTimes S w t src io 1).force) := by
  obtain ⟨-, -, a3, a4, -⟩ := loadTimes_facts S w t src io lns es hi hl he n
  refine ⟨a3, a4, fun hn => ?_⟩
  obtain ⟨m, rfl⟩ := Nat.exists_eq_add_of_le' hn
  have := (loadTimes_facts S w t src io lns es hi hl he m).2.2.2.2
  exact ⟨this.freq, this.tags, this.force⟩

theorem loadTimes_cut {F : Type _} [LinearOrder F] (S : Sys F) (w : World) (t : Nat) (src : UserDict) (io : Bool) (lns : List PyText)
    (es : List (Option Added)) (hi : (w.tok t).initialized = true) (hl : LinesOf w src lns) (he : List.Forall₂ LineAdds lns es) (n : Nat)
    (hn : 1 ≤ n) (text : PyText) (ca hm io' : Bool) :
    (cutW S (loadTimes S w t src io n) t ca hm text io').2 =
      cut ⟨S.A, (addMany t w (es.filterMap id)).tok t |>.freq, (w.tok t).total + n * ((es.filterMap id).map (·.2.1)).sum, S.tables,
        (addMany t w (es.filterMap id)).force⟩ ca hm (strdecode S.gbk text) := by
  have h1 : loadTimes S w t src io 1 = addMany t w (es.filterMap id) := by
    show (loadUserdict S w t src io).1 = _
    rw [loadUserdict_adds S w t src io lns es hi hl he]
  obtain ⟨j, rfl⟩ := Nat.exists_eq_add_of_le' hn
  obtain ⟨i2, -, -, t2, -⟩ := loadTimes_facts S w t src io lns es hi hl he (j + 1)
  have hsame := (loadTimes_facts S w t src io lns es hi hl he j).2.2.2.2
  rw [h1] at hsame
  rw [cutW_of_init _ _ _ _ _ _ _ i2]
  have hE : SameEnv ((loadTimes S w t src io (j + 1)).env S t) ⟨S.A, ((addMany t w (es.filterMap id)).tok t).freq,
      (w.tok t).total + ((j + 1 : Nat) : Int) * ((es.filterMap id).map (·.2.1)).sum, S.tables, (addMany t w (es.filterMap id)).force⟩ :=
    ⟨rfl, t2, rfl, hsame.freq, hsame.force⟩
  exact hE.cut ca hm _

/-- C125: full mode does not see any difference; if all frequencies are 0 no mode does. -/
theorem C125_full_mode {F : Type _} [LinearOrder F] (S : Sys F) (w : World) (t : Nat) (src : UserDict) (io : Bool) (lns : List PyText)
    (es : List (Option Added)) (hi : (w.tok t).initialized = true) (hl : LinesOf w src lns) (he : List.Forall₂ LineAdds lns es) (n : Nat)
    (hn : 1 ≤ n) (text : PyText) (hm io' : Bool) :
    (cutW S (loadTimes S w t src io n) t true hm text io').2 = (cutW S (loadTimes S w t src io 1) t true hm text io').2 ∧
    ((∀ e ∈ es.filterMap id, e.2.1 = 0) → ∀ ca,
      (cutW S (loadTimes S w t src io n) t ca hm text io').2 = (cutW S (loadTimes S w t src io 1) t ca hm text io').2) := by
  constructor
  · rw [loadTimes_cut S w t src io lns es hi hl he n hn, loadTimes_cut S w t src io lns es hi hl he 1 (le_refl 1)]
    rfl
  · intro h0 ca
    rw [loadTimes_cut S w t src io lns es hi hl he n hn, loadTimes_cut S w t src io lns es hi hl he 1 (le_refl 1)]
    have hsum : ((es.filterMap id).map (·.2.1)).sum = 0 :=
      List.sum_eq_zero (fun x hx => by obtain ⟨e, he, rfl⟩ := List.mem_map.mp hx; exact h0 e he)
    rw [hsum, mul_zero, mul_zero]

theorem scoreFreq_pos (freq : Freq) (hn : NonNeg freq) (u : Str) : 1 ≤ scoreFreq freq u := by
  unfold scoreFreq
  cases h : PyDict.get? freq u with
  | none => simp
  | some x =>
    have := hn u x h
    simp only
    split <;> omega

/-- Two totals, block by block. -/
theorem cut_two_totals (freq : Freq) (T T' : Int) (tables : FinalSeg.Tables ℝ) (force : List Str) (hp : PrefixClosed freq) (hn : NonNeg freq)
    (ht : 0 < T) (hle : T ≤ T') (s : Str) (hl : ∀ c ∈ s, isAlnum c = false) :
    ∃ ts ts', cut ⟨realArith, freq, T, tables, force⟩ false false s = Gen.ok ts ∧
      cut ⟨realArith, freq, T', tables, force⟩ false false s = Gen.ok ts' ∧ ts'.length ≤ ts.length ∧
      ∀ M : Nat, 1 ≤ M → (∀ v f, freq.get? v = some f → f ≤ M) → (M : Int) ^ s.length < T → ts' = ts := by
  have ht' : 0 < T' := lt_of_lt_of_le ht hle
  have c1 := cut_out_eq_chunks ⟨realArith, freq, T, tables, force⟩ hn ht false s
  have c2 := cut_out_eq_chunks ⟨realArith, freq, T', tables, force⟩ hn ht' false s
  have key : ∀ b ∈ chunks isWordCh s, b.any isWordCh = true →
      (cut ⟨realArith, freq, T', tables, force⟩ false false b).out.length ≤ (cut ⟨realArith, freq, T, tables, force⟩ false false b).out.length ∧
      ∀ M : Nat, 1 ≤ M → (∀ v f, freq.get? v = some f → f ≤ M) → (M : Int) ^ s.length < T →
        (cut ⟨realArith, freq, T', tables, force⟩ false false b).out = (cut ⟨realArith, freq, T, tables, force⟩ false false b).out := by
    intro b hb hany
    have hbs := chunk_infix _ _ _ hb
    have hbw : ∀ c ∈ b, isWordCh c = true ∧ isAlnum c = false := by
      intro c hc
      refine ⟨?_, hl c (hbs.subset hc)⟩
      rcases chunks_uniform _ _ b hb with hu | hu
      · exact hu c hc
      · obtain ⟨d, hd, hd2⟩ := List.any_eq_true.mp hany
        rw [hu d hd] at hd2; exact absurd hd2 (by simp)
    obtain ⟨p, p1, p2⟩ := cut_block_path ⟨realArith, freq, T, tables, force⟩ realArith_mono hp hn ht b (chunks_ne_nil _ _ b hb) hbw
    obtain ⟨q, q1, q2⟩ := cut_block_path ⟨realArith, freq, T', tables, force⟩ realArith_mono hp hn ht' b (chunks_ne_nil _ _ b hb) hbw
    simp only at p1 q1
    rw [p2, q2]
    refine ⟨?_, ?_⟩
    · rcases eq_or_lt_of_le hle with h | h
      · subst h
        rw [isBest_unique _ _ _ _ _ _ p1 q1]
      · exact isBest_total_mono freq freq T T' ht h b p q (fun _ _ => Iff.rfl) (fun _ _ => rfl) p1 q1
    · intro M hM hf hT
      have hT' : (M : Int) ^ b.length < T := lt_of_le_of_lt (pow_le_pow_right₀ (by exact_mod_cast hM) hbs.length_le) hT
      have hsf : ∀ u, u <:+: b → 1 ≤ scoreFreq freq u ∧ scoreFreq freq u ≤ M := by
        intro u _
        refine ⟨scoreFreq_pos freq hn u, ?_⟩
        unfold scoreFreq
        cases h : PyDict.get? freq u with
        | none => simpa using hM
        | some x =>
          have := hf u x h
          simp only
          split
          · exact_mod_cast hM
          · exact this
      exact isBest_unique _ _ _ _ _ _ q1 (isBest_stays freq T T' hle M hM p b hsf hT' p1)
  refine ⟨_, _, c1, c2, ?_, ?_⟩
  · generalize chunks isWordCh s = l at key
    induction l with
    | nil => simp
    | cons b l ih =>
      have ih := ih (fun x hx => key x (List.mem_cons_of_mem _ hx))
      rw [List.flatMap_cons, List.flatMap_cons, List.length_append, List.length_append]
      refine Nat.add_le_add ?_ ih
      split
      · next ha => exact (key b (by simp) ha).1
      · exact le_refl _
  · intro M hM hf hT
    apply List.flatMap_congr
    intro b hb
    split
    · next ha => exact (key b hb ha).2 M hM hf hT
    · rfl

/-- C125: with every further time texts are cut into the same number of words or fewer (exact arithmetic, no HMM, texts without ASCII letters and
digits).  This comes to an end: if the frequencies are not all 0 and no frequency is above `M`, then from the time number `M ^ length + 1` on the
segmentation of a text stays as it is. -/
theorem C125_coarser (S : Sys ℝ) (hS : S.A = realArith) (w : World) (t : Nat) (src : UserDict) (io : Bool) (lns : List PyText)
    (es : List (Option Added)) (hi : (w.tok t).initialized = true) (hl : LinesOf w src lns) (he : List.Forall₂ LineAdds lns es)
    (hp : PrefixClosed (w.tok t).freq) (hn : NonNeg (w.tok t).freq) (ht : 0 < (w.tok t).total) (text : PyText) (s : Str)
    (hs : strdecode S.gbk text = s) (ha : ∀ c ∈ s, isAlnum c = false) (io' : Bool) (m n : Nat) (hm : 1 ≤ m) (hmn : m ≤ n) :
    ∃ ts ts', (cutW S (loadTimes S w t src io m) t false false text io').2 = Gen.ok ts ∧
      (cutW S (loadTimes S w t src io n) t false false text io').2 = Gen.ok ts' ∧ ts'.length ≤ ts.length ∧
      ∀ M : Nat, 1 ≤ M → (∀ v f, ((loadTimes S w t src io 1).tok t).freq.get? v = some f → f ≤ M) →
        (∃ e ∈ es.filterMap id, e.2.1 ≠ 0) → M ^ s.length < m → ts' = ts := by
  have hnn := lines_nonneg he
  have hK : 0 ≤ ((es.filterMap id).map (·.2.1)).sum :=
    List.sum_nonneg (fun x hx => by obtain ⟨e, he, rfl⟩ := List.mem_map.mp hx; exact hnn e he)
  have h1 : loadTimes S w t src io 1 = addMany t w (es.filterMap id) := by
    show (loadUserdict S w t src io).1 = _
    rw [loadUserdict_adds S w t src io lns es hi hl he]
  have hp1 : PrefixClosed ((loadTimes S w t src io 1).tok t).freq := by
    rw [h1, addMany_freq]
    exact registerAll_inv PrefixClosed _ _ hp (fun d e _ h => prefixClosed_register d _ _ h)
  have hn1 : NonNeg ((loadTimes S w t src io 1).tok t).freq := by
    rw [h1, addMany_freq]
    refine registerAll_inv NonNeg _ _ hn (fun d e hm h => nonNeg_register d _ _ h ?_)
    unfold pairsOf at hm
    obtain ⟨x, hx, rfl⟩ := List.mem_map.mp hm
    exact hnn x hx
  have env : ∀ k, 1 ≤ k → (cutW S (loadTimes S w t src io k) t false false text io').2 =
      cut ⟨realArith, ((loadTimes S w t src io 1).tok t).freq, (w.tok t).total + k * ((es.filterMap id).map (·.2.1)).sum, S.tables,
        (loadTimes S w t src io 1).force⟩ false false s := by
    intro k hk
    rw [loadTimes_cut S w t src io lns es hi hl he k hk, hs, hS, h1]
  have hTm : 0 < (w.tok t).total + m * ((es.filterMap id).map (·.2.1)).sum := by positivity
  have hle : (w.tok t).total + m * ((es.filterMap id).map (·.2.1)).sum ≤ (w.tok t).total + n * ((es.filterMap id).map (·.2.1)).sum := by
    have : (m : Int) ≤ n := by exact_mod_cast hmn
    nlinarith
  obtain ⟨ts, ts', e1, e2, e3, e4⟩ := cut_two_totals ((loadTimes S w t src io 1).tok t).freq _ _ S.tables (loadTimes S w t src io 1).force
    hp1 hn1 hTm hle s ha
  refine ⟨ts, ts', by rw [env m hm, e1], by rw [env n (by omega), e2], e3, ?_⟩
  rintro M hM hf ⟨e, hem, he0⟩ hlt
  refine e4 M hM hf ?_
  have hK1 : 1 ≤ ((es.filterMap id).map (·.2.1)).sum := by
    have h1 : e.2.1 ≤ ((es.filterMap id).map (·.2.1)).sum :=
      List.single_le_sum (fun x hx => by obtain ⟨e, he, rfl⟩ := List.mem_map.mp hx; exact hnn e he) _ (List.mem_map.mpr ⟨e, hem, rfl⟩)
    have h2 := hnn e hem
    omega
  have h2 : (M : Int) ^ s.length < m := by exact_mod_cast hlt
  have h3 : (0 : Int) ≤ m := by positivity
  nlinarith

/-- C125: what it comes to: if no frequency is above `M` and the total is above `M ^ length`, a run of word characters (without ASCII letters and
digits) is cut into the fewest words possible, however likely or unlikely they are (exact arithmetic, no HMM). -/
theorem C125_fewest_words (tables : FinalSeg.Tables ℝ) (force : List Str) (freq : Freq) (total : Int) (hp : PrefixClosed freq) (hn : NonNeg freq)
    (M : Nat) (hM : 1 ≤ M) (hf : ∀ v f, freq.get? v = some f → f ≤ M) (s : Str) (hs : ∀ c ∈ s, isWordCh c = true ∧ isAlnum c = false)
    (ht : (M : Int) ^ s.length < total) :
    ∃ ts, cut ⟨realArith, freq, total, tables, force⟩ false false s = Gen.ok ts ∧ Admissible freq s ts ∧
      ∀ l, Admissible freq s l → ts.length ≤ l.length := by
  by_cases hne : s = []
  · subst hne
    exact ⟨[], rfl, rfl, fun l _ => by simp⟩
  have ht0 : 0 < total := lt_of_le_of_lt (by positivity) ht
  obtain ⟨p, p1, p2⟩ := cut_block_path ⟨realArith, freq, total, tables, force⟩ realArith_mono hp hn ht0 s hne hs
  refine ⟨p, p2, isBest_admissible _ _ _ _ _ p1, fun l hl => isBest_fewest freq total M hM s ?_ ht p l p1 hl⟩
  intro u _
  refine ⟨scoreFreq_pos freq hn u, ?_⟩
  unfold scoreFreq
  cases h : PyDict.get? freq u with
  | none => simpa using hM
  | some x =>
    have := hf u x h
    simp only
    split
    · exact_mod_cast hM
    · exact this

/-- A user dictionary of one line. -/
def onceMore : UserDict := .lines [.str (lit ['人', ' ', '5', '0'])]

theorem onceMore_lines : LinesOf (readyWorld totalFreq 21) onceMore [.str (lit ['人', ' ', '5', '0'])] ∧
    List.Forall₂ LineAdds [.str (lit ['人', ' ', '5', '0'])] [some (lit ['人'], 50, none)] := by
  refine ⟨.lines _, .cons (.entry _ (lit ['人', ' ', '5', '0']) _ (lit ['5', '0']) _ _ ((userLine_iff _ _).mp (by decide +kernel)) (by decide) ?_
    ((intText_iff _ _).mpr (by decide +kernel))) .nil⟩
  refine (userFields_some_iff (.str (lit ['人', ' ', '5', '0'])) _ ((userLine_iff _ _).mp (by decide +kernel)) (by decide) _ _ _).mp ?_
  decide +kernel

/-- C125, negative part: loading a user dictionary twice is not loading it once.  The line `人 50` loaded once leaves 中国 in two words; loaded a
second time it makes 中国 come out whole, though nothing about 中国 was said. -/
theorem C125_twice_is_not_once (io : Bool) :
    (cutW realSys (loadTimes realSys (readyWorld totalFreq 21) 0 onceMore io 1) 0 false false (.str (lit ['中', '国'])) true).2 =
      Gen.ok [lit ['中'], lit ['国']] ∧
    (cutW realSys (loadTimes realSys (readyWorld totalFreq 21) 0 onceMore io 2) 0 false false (.str (lit ['中', '国'])) true).2 =
      Gen.ok [lit ['中', '国']] := by
  obtain ⟨h1, h2⟩ := onceMore_lines
  have hA : realSys.A = realArith := rfl
  constructor
  · rw [loadTimes_cut realSys _ 0 onceMore io _ _ rfl h1 h2 1 (by omega), hA, cut_real]
    decide +kernel
  · rw [loadTimes_cut realSys _ 0 onceMore io _ _ rfl h1 h2 2 (by omega), hA, cut_real]
    decide +kernel

/-- The hypotheses of `C125_coarser` and `C125_fewest_words` are met: the dictionary above with `M = 50`, and a total above `50 ^ 2`. -/
example : PrefixClosed totalFreq ∧ NonNeg totalFreq ∧ (∀ v f, PyDict.get? totalFreq v = some f → f ≤ (50 : Nat)) ∧
    (∀ c ∈ lit ['中', '国'], isWordCh c = true ∧ isAlnum c = false) ∧
    cut ⟨realArith, totalFreq, 2501, realSys.tables, []⟩ false false (lit ['中', '国']) = Gen.ok [lit ['中', '国']] := by
  refine ⟨?_, nonNeg_of_all _ (by decide), ?_, by decide, by rw [cut_real]; decide +kernel⟩
  · have key : ∀ w ∈ totalFreq.map Prod.fst, ∀ p ∈ w.inits, p ≠ [] → PyDict.has totalFreq p = true := by decide +kernel
    intro w hw p hne hpre
    exact key w ((PyDict.mem_keys_iff _ _).mpr hw) p ((List.mem_inits _ _).mpr hpre) hne
  · intro v f h
    have hv : v ∈ totalFreq.map Prod.fst := (PyDict.mem_keys_iff _ _).mpr (by unfold PyDict.has; rw [h]; rfl)
    have key : ∀ v ∈ totalFreq.map Prod.fst, (PyDict.get? totalFreq v).all (· ≤ 50) = true := by decide +kernel
    have := key v hv
    rw [h] at this
    simpa using this

end Jieba.Props
