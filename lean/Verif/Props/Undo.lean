import Verif.Props.Stability
import Verif.Proofs.DictOrder
/-!
# C116 — taking back `add_word` and `del_word`
-/

namespace Jieba.Props
open Jieba Jieba.Spec

/-- Two tables with the same words and the same frequencies; they may differ in entries with frequency 0. -/
def SameWords (d d' : Freq) : Prop := ∀ v n, n ≠ 0 → (d.get? v = some n ↔ d'.get? v = some n)

theorem SameWords.dictWord {d d' : Freq} (h : SameWords d d') (v : Str) : DictWord d v ↔ DictWord d' v :=
  ⟨fun ⟨n, h1, h2⟩ => ⟨n, (h v n h2).mp h1, h2⟩, fun ⟨n, h1, h2⟩ => ⟨n, (h v n h2).mpr h1, h2⟩⟩

theorem SameWords.truthy {d d' : Freq} (h : SameWords d d') (v : Str) : d.truthy v = d'.truthy v := by
  rw [Bool.eq_iff_iff, truthy_iff, truthy_iff]; exact h.dictWord v

theorem SameWords.score {d d' : Freq} (h : SameWords d d') (v : Str) : scoreFreq d v = scoreFreq d' v := by
  have one : ∀ x : Freq, ¬ DictWord x v → scoreFreq x v = 1 := by
    intro x hx
    unfold scoreFreq
    split
    · next n hn =>
      by_cases h0 : n = 0
      · rw [if_pos h0]
      · exact absurd ⟨n, hn, h0⟩ hx
    · rfl
  by_cases hd : DictWord d v
  · obtain ⟨n, h1, h2⟩ := hd
    unfold scoreFreq
    rw [h1, (h v n h2).mp h1]
  · rw [one d hd, one d' (fun hd' => hd ((h.dictWord v).mpr hd'))]

theorem SameWords.dag {d d' : Freq} (h : SameWords d d') (hp : PrefixClosed d) (hp' : PrefixClosed d') (s : Str) : getDAG d s = getDAG d' s := by
  unfold getDAG
  refine List.map_congr_left fun k hk => ?_
  have hk := List.mem_range.mp hk
  rw [dagRow_exact d hp s k hk, dagRow_exact d' hp' s k hk]
  simp only [h.truthy]

section
variable {F : Type _} [LinearOrder F]

theorem SameWords.route {d d' : Freq} (h : SameWords d d') (A : Arith F) (total : Int) (s : Str) (dag : List (List Nat)) :
    calcRoute A d total s dag = calcRoute A d' total s dag := by
  have he : ∀ lt, edgeScore A d lt = edgeScore A d' lt := by
    intro lt; funext s tail idx x
    unfold edgeScore
    simp only [freqOr1_eq, h.score]
  have hl : ∀ lt n tail, calcLoop A d lt s dag n tail = calcLoop A d' lt s dag n tail := by
    intro lt n
    induction n with
    | zero => intro tail; rfl
    | succ n ih =>
      intro tail
      unfold calcLoop
      rw [he]
      cases dag[n]? with
      | none => rfl
      | some L => simp only [ih]
  unfold calcRoute
  simp only [hl]

omit [LinearOrder F] in
theorem SameWords.cutLoop {d d' : Freq} (h : SameWords d d') (hmm : Str → Gen Str) (s : Str) (route : List (F × Nat))
    (fuel x : Nat) (buf : Str) : dagCutLoop d hmm s route fuel x buf = dagCutLoop d' hmm s route fuel x buf := by
  have hf : ∀ buf, flushBuf d hmm buf = flushBuf d' hmm buf := fun buf => by unfold flushBuf; rw [h.truthy]
  induction fuel generalizing x buf with
  | zero => exact hf buf
  | succ n ih => unfold dagCutLoop; simp only [ih, hf]

/-- C116: entries with frequency 0 do not matter: tables with the same words, frequencies and total (and the same words to be split) give the same segmentation in every
mode; in full mode the total and the words to be split do not matter either. -/
theorem C116_same_words (A : Arith F) (freq freq' : Freq) (h : SameWords freq freq') (hp : PrefixClosed freq) (hp' : PrefixClosed freq')
    (T : FinalSeg.Tables F) (s : Str) :
    (∀ total force ca hmm, cut ⟨A, freq, total, T, force⟩ ca hmm s = cut ⟨A, freq', total, T, force⟩ ca hmm s) ∧
    ∀ total total' force force' hmm, cut ⟨A, freq, total, T, force⟩ true hmm s = cut ⟨A, freq', total', T, force'⟩ true hmm s := by
  refine ⟨fun total force ca hmm => ?_, fun total total' force force' hmm => ?_⟩
  · unfold Jieba.cut
    congr 1
    funext blk
    have : cutBlock ⟨A, freq, total, T, force⟩ ca hmm blk = cutBlock ⟨A, freq', total, T, force⟩ ca hmm blk := by
      unfold cutBlock cutAll cutDAG cutDAGNoHMM
      simp only [h.dag hp hp', h.route, h.cutLoop]
      rfl
    rw [this]
  · unfold Jieba.cut
    congr 1
    funext blk
    have : cutBlock ⟨A, freq, total, T, force⟩ true hmm blk = cutBlock ⟨A, freq', total', T, force'⟩ true hmm blk := by
      unfold cutBlock cutAll
      simp only [h.dag hp hp']
      rfl
    rw [this]

end

/-- C116: tables with the same words and frequencies, the second with the greater total: in exact arithmetic, the segmentation without HMM has at most as many tokens with the
second one. -/
theorem C116_greater_total (freq freq' : Freq) (h : SameWords freq freq') (hp : PrefixClosed freq) (hp' : PrefixClosed freq') (hn : NonNeg freq) (hn' : NonNeg freq')
    (total total' : Int) (ht : 0 < total) (hle : total ≤ total') (T : FinalSeg.Tables ℝ) (force force' : List Str) (s : Str) (hl : ∀ c ∈ s, isAlnum c = false) :
    ∃ ts ts', cut ⟨realArith, freq, total, T, force⟩ false false s = Gen.ok ts ∧ cut ⟨realArith, freq', total', T, force'⟩ false false s = Gen.ok ts' ∧
      ts'.length ≤ ts.length := by
  have c1 := cut_out_eq_chunks ⟨realArith, freq, total, T, force⟩ hn ht false s
  have c2 := cut_out_eq_chunks ⟨realArith, freq', total', T, force'⟩ hn' (by simp only; omega) false s
  refine ⟨_, _, c1, c2, ?_⟩
  have key : ∀ b ∈ chunks isWordCh s, b.any isWordCh = true → ∃ p q,
      cut ⟨realArith, freq, total, T, force⟩ false false b = Gen.ok p ∧ cut ⟨realArith, freq', total', T, force'⟩ false false b = Gen.ok q ∧
      q.length ≤ p.length := by
    intro b hb hany
    have hbs := chunk_infix _ _ _ hb
    have hbw : ∀ c ∈ b, isWordCh c = true ∧ isAlnum c = false := by
      intro c hc
      refine ⟨?_, hl c (hbs.subset hc)⟩
      rcases chunks_uniform _ _ b hb with hu | hu
      · exact hu c hc
      · obtain ⟨d, hd, hd2⟩ := List.any_eq_true.mp hany
        rw [hu d hd] at hd2; exact absurd hd2 (by simp)
    obtain ⟨p, p1, p2⟩ := cut_block_path ⟨realArith, freq, total, T, force⟩ realArith_mono hp hn ht b (chunks_ne_nil _ _ b hb) hbw
    obtain ⟨q, q1, q2⟩ := cut_block_path ⟨realArith, freq', total', T, force'⟩ realArith_mono hp' hn' (by simp only; omega) b (chunks_ne_nil _ _ b hb) hbw
    refine ⟨p, q, p2, q2, ?_⟩
    rcases hle.eq_or_lt with rfl | hlt
    · -- the same dictionary as far as segmentation goes
      have e : cut ⟨realArith, freq, total, T, force⟩ false false b = cut ⟨realArith, freq', total, T, force⟩ false false b :=
        (C116_same_words realArith freq freq' h hp hp' T b).1 total force false false
      obtain ⟨r, r1, r2⟩ := cut_block_path ⟨realArith, freq', total, T, force⟩ realArith_mono hp' hn' ht b (chunks_ne_nil _ _ b hb) hbw
      obtain rfl := isBest_unique _ _ _ _ _ _ q1 r1
      rw [p2, r2] at e
      have : p = q := by simpa [Gen.ok] using e
      rw [this]
    · exact isBest_total_mono freq freq' total total' ht hlt b p q (fun u _ => (h.dictWord u).symm) (fun u _ => (h.score u).symm) p1 q1
  generalize chunks isWordCh s = l at key
  induction l with
  | nil => simp
  | cons b l ih =>
    have ih := ih (fun x hx => key x (List.mem_cons_of_mem _ hx))
    rw [List.flatMap_cons, List.flatMap_cons, List.length_append, List.length_append]
    refine Nat.add_le_add ?_ ih
    split
    · next ha =>
      obtain ⟨p, q, k1, k2, k3⟩ := key b (by simp) ha
      rw [k1, k2]; exact k3
    · exact le_refl _

section
variable {F : Type _} [LinearOrder F]

theorem addWord_ready (S : Sys F) (w : World) (t : Nat) (v : Str) (f : Int) (tag : Option Str) (io : Bool) (hi : (w.tok t).initialized = true) :
    addWord S w t (.str v) (.int f) tag io = (addFreq w t v f tag, .ok ()) := by
  unfold addWord
  rw [checkInit_of_init S w t io hi]
  rfl

/-- The state after `add_word(v, f, tag); add_word(v, g, tag')`. -/
theorem two_adds (S : Sys F) (w : World) (t : Nat) (v : Str) (f g : Int) (tag tag' : Option Str) (io io' : Bool) (hi : (w.tok t).initialized = true) :
    ∃ w', addWord S (addWord S w t (.str v) (.int f) tag io).1 t (.str v) (.int g) tag' io' = (w', .ok ()) ∧
      (w'.tok t).initialized = true ∧ (w'.tok t).freq = register (register (w.tok t).freq v f) v g ∧ (w'.tok t).total = (w.tok t).total + f + g ∧
      (∀ u, u ∈ w'.force ↔ u ∈ w.force ∨ u = v ∧ (f = 0 ∨ g = 0)) := by
  have hi' : ((addFreq w t v f tag).tok t).initialized = true := by rw [addFreq_tok_self]; exact hi
  refine ⟨addFreq (addFreq w t v f tag) t v g tag', ?_, ?_, ?_, ?_, ?_⟩
  · rw [addWord_ready S w t v f tag io hi]
    exact addWord_ready S _ t v g tag' io' hi'
  · rw [addFreq_tok_self]; exact hi'
  · rw [addFreq_tok_self, addFreq_tok_self]
  · rw [addFreq_tok_self, addFreq_tok_self]
  · intro u
    rw [mem_addFreq_force, mem_addFreq_force]; tauto

theorem register_twice (d : Freq) (v : Str) (f g : Int) (u : Str) : (register (register d v f) v g).get? u = (register d v g).get? u := by
  rw [register_get?, register_get?, register_get?]
  by_cases h : u = v
  · simp [h]
  · simp only [h, if_false]
    cases PyDict.get? d u with
    | some x => rfl
    | none => by_cases h2 : u ≠ [] ∧ u <+: v <;> simp [h2]

theorem sameWords_register {d : Freq} {v : Str} {g : Int} (h : d.get? v = some g ∨ g = 0 ∧ ¬ DictWord d v) : SameWords d (register d v g) := by
  intro u n hn
  rw [register_get?]
  by_cases hu : u = v
  · subst hu
    rw [if_pos rfl]
    rcases h with h | ⟨rfl, h⟩
    · rw [h]
    · constructor
      · intro e; exact absurd ⟨n, e, hn⟩ h
      · intro e; exact absurd (Option.some.inj e).symm hn
  · rw [if_neg hu]
    cases PyDict.get? d u with
    | some x => exact Iff.rfl
    | none =>
      simp only [reduceCtorEq, false_iff]
      split
      · intro e; exact hn (Option.some.inj e).symm
      · simp

theorem sameWords_congr {d d' e : Freq} (h : SameWords d d') (he : ∀ u, d'.get? u = e.get? u) : SameWords d e :=
  fun v n hn => by rw [h v n hn, he]

/-- C116, the state: `add_word(v, f)` for a new word and `del_word(v)` leave the words and frequencies as they were, but the total is greater by `f`, and the HMM must split `v`
from now on; so it is for `del_word(v)` and `add_word(v, f)` for a word with frequency `f`. -/
theorem C116_state (S : Sys F) (w : World) (t : Nat) (v : Str) (f : Int) (tag : Option Str) (io io' : Bool) (hi : (w.tok t).initialized = true) :
    (¬ DictWord (w.tok t).freq v → ∃ w', delWord S (addWord S w t (.str v) (.int f) tag io).1 t (.str v) io' = (w', .ok ()) ∧
      SameWords (w.tok t).freq (w'.tok t).freq ∧ (w'.tok t).total = (w.tok t).total + f ∧ ∀ u, u ∈ w'.force ↔ u ∈ w.force ∨ u = v) ∧
    ((w.tok t).freq.get? v = some f → ∃ w', addWord S (delWord S w t (.str v) io).1 t (.str v) (.int f) tag io' = (w', .ok ()) ∧
      SameWords (w.tok t).freq (w'.tok t).freq ∧ (w'.tok t).total = (w.tok t).total + f ∧ ∀ u, u ∈ w'.force ↔ u ∈ w.force ∨ u = v) := by
  constructor
  · intro hd
    obtain ⟨w', h1, h2, h3, h4, h5⟩ := two_adds S w t v f 0 tag none io io' hi
    refine ⟨w', h1, ?_, by omega, fun u => by rw [h5]; simp⟩
    rw [h3]
    exact sameWords_congr (sameWords_register (Or.inr ⟨rfl, hd⟩)) (fun u => (register_twice _ _ _ _ _).symm)
  · intro hf
    obtain ⟨w', h1, h2, h3, h4, h5⟩ := two_adds S w t v 0 f none tag io io' hi
    refine ⟨w', h1, ?_, by omega, fun u => by rw [h5]; simp⟩
    rw [h3]
    exact sameWords_congr (sameWords_register (Or.inl hf)) (fun u => (register_twice _ _ _ _ _).symm)

end

/-- What taking back does to texts: full mode is as before, and without HMM there are at most as many tokens as before. -/
theorem taken_back (S : Sys ℝ) (hS : S.A = realArith) (w w' : World) (t : Nat) (hi : (w.tok t).initialized = true) (hi' : (w'.tok t).initialized = true)
    (hp : PrefixClosed (w.tok t).freq) (hp' : PrefixClosed (w'.tok t).freq) (hn : NonNeg (w.tok t).freq) (hn' : NonNeg (w'.tok t).freq)
    (ht : 0 < (w.tok t).total) (hle : (w.tok t).total ≤ (w'.tok t).total) (h : SameWords (w.tok t).freq (w'.tok t).freq) :
    (∀ text hm io1 io2, (cutW S w' t true hm text io1).2 = (cutW S w t true hm text io2).2) ∧
    ∀ text, (∀ c ∈ strdecode S.gbk text, isAlnum c = false) → ∀ io1 io2, ∃ ts ts', (cutW S w t false false text io1).2 = Gen.ok ts ∧
      (cutW S w' t false false text io2).2 = Gen.ok ts' ∧ ts'.length ≤ ts.length := by
  refine ⟨fun text hm io1 io2 => ?_, fun text hl io1 io2 => ?_⟩
  · rw [cutW_of_init S w t true hm io2 text hi, cutW_of_init S w' t true hm io1 text hi']
    exact ((C116_same_words S.A _ _ h hp hp' S.tables _).2 _ _ _ _ hm).symm
  · rw [cutW_of_init S w t false false io1 text hi, cutW_of_init S w' t false false io2 text hi']
    have := C116_greater_total _ _ h hp hp' hn hn' _ _ ht hle S.tables w.force w'.force _ hl
    unfold World.env
    rw [hS]
    exact this

/-- C116: after `add_word(v, f)` for a new word and `del_word(v)`, every text comes out in full mode as before, and without HMM with at most as many tokens as before (exact
arithmetic, text without ASCII letters and digits). -/
theorem C116_added_and_deleted (S : Sys ℝ) (hS : S.A = realArith) (w : World) (t : Nat) (v : Str) (f : Int) (hf : 0 ≤ f) (tag : Option Str) (io io' : Bool)
    (hi : (w.tok t).initialized = true) (hp : PrefixClosed (w.tok t).freq) (hn : NonNeg (w.tok t).freq) (ht : 0 < (w.tok t).total) (hd : ¬ DictWord (w.tok t).freq v) :
    let w' := (delWord S (addWord S w t (.str v) (.int f) tag io).1 t (.str v) io').1
    (∀ text hm io1 io2, (cutW S w' t true hm text io1).2 = (cutW S w t true hm text io2).2) ∧
    ∀ text, (∀ c ∈ strdecode S.gbk text, isAlnum c = false) → ∀ io1 io2, ∃ ts ts', (cutW S w t false false text io1).2 = Gen.ok ts ∧
      (cutW S w' t false false text io2).2 = Gen.ok ts' ∧ ts'.length ≤ ts.length := by
  obtain ⟨w', h1, h2, h3, h4, -⟩ := two_adds S w t v f 0 tag none io io' hi
  have e : (delWord S (addWord S w t (.str v) (.int f) tag io).1 t (.str v) io').1 = w' := congrArg Prod.fst h1
  simp only [e]
  refine taken_back S hS w w' t hi h2 hp ?_ hn ?_ ht (by omega) ?_
  · rw [h3]; exact prefixClosed_register _ _ _ (prefixClosed_register _ _ _ hp)
  · rw [h3]; exact nonNeg_register _ _ _ (nonNeg_register _ _ _ hn hf) le_rfl
  · rw [h3]; exact sameWords_congr (sameWords_register (Or.inr ⟨rfl, hd⟩)) (fun u => (register_twice _ _ _ _ _).symm)

/-- C116: the same after `del_word(v)` and `add_word(v, f)` for a word that has had the frequency `f`. -/
theorem C116_deleted_and_restored (S : Sys ℝ) (hS : S.A = realArith) (w : World) (t : Nat) (v : Str) (f : Int) (tag : Option Str) (io io' : Bool)
    (hi : (w.tok t).initialized = true) (hp : PrefixClosed (w.tok t).freq) (hn : NonNeg (w.tok t).freq) (ht : 0 < (w.tok t).total) (hv : (w.tok t).freq.get? v = some f) :
    let w' := (addWord S (delWord S w t (.str v) io).1 t (.str v) (.int f) tag io').1
    (∀ text hm io1 io2, (cutW S w' t true hm text io1).2 = (cutW S w t true hm text io2).2) ∧
    ∀ text, (∀ c ∈ strdecode S.gbk text, isAlnum c = false) → ∀ io1 io2, ∃ ts ts', (cutW S w t false false text io1).2 = Gen.ok ts ∧
      (cutW S w' t false false text io2).2 = Gen.ok ts' ∧ ts'.length ≤ ts.length := by
  obtain ⟨w', h1, h2, h3, h4, -⟩ := two_adds S w t v 0 f none tag io io' hi
  have e : (addWord S (delWord S w t (.str v) io).1 t (.str v) (.int f) tag io').1 = w' := congrArg Prod.fst h1
  have hf := hn v f hv
  simp only [e]
  refine taken_back S hS w w' t hi h2 hp ?_ hn ?_ ht (by omega) ?_
  · rw [h3]; exact prefixClosed_register _ _ _ (prefixClosed_register _ _ _ hp)
  · rw [h3]; exact nonNeg_register _ _ _ (nonNeg_register _ _ _ hn le_rfl) hf
  · rw [h3]; exact sameWords_congr (sameWords_register (Or.inl hv)) (fun u => (register_twice _ _ _ _ _).symm)

/-- C116: it is not as if nothing had happened.  With 人 added and deleted again, 中国 comes out whole and not as 中 / 国 as before. -/
theorem C116_not_undone :
    (cutW realSys (readyWorld totalFreq 21) 0 false false (.str (lit ['中', '国'])) true).2 = Gen.ok [lit ['中'], lit ['国']] ∧
    (cutW realSys (delWord realSys (addWord realSys (readyWorld totalFreq 21) 0 (.str (lit ['人'])) (.int 1000) none true).1 0 (.str (lit ['人'])) true).1 0 false false
      (.str (lit ['中', '国'])) true).2 = Gen.ok [lit ['中', '国']] := by
  refine ⟨C70_unrelated_word_changes.1, ?_⟩
  have e1 := addWord_ready realSys (readyWorld totalFreq 21) 0 (lit ['人']) 1000 none true rfl
  have e2 := addWord_ready realSys (addFreq (readyWorld totalFreq 21) 0 (lit ['人']) 1000 none) 0 (lit ['人']) 0 none true (by rw [addFreq_tok_self]; rfl)
  unfold delWord
  rw [e1, e2]
  simp only
  rw [cutW_of_init _ _ _ _ _ _ _ (by rw [addFreq_tok_self, addFreq_tok_self]; rfl)]
  have he : (addFreq (addFreq (readyWorld totalFreq 21) 0 (lit ['人']) 1000 none) 0 (lit ['人']) 0 none).env realSys 0 =
      ⟨realArith, register (register totalFreq (lit ['人']) 1000) (lit ['人']) 0, 1021, realSys.tables, [lit ['人']]⟩ := by
    unfold World.env; rw [addFreq_tok_self, addFreq_tok_self]; rfl
  rw [he, cut_real]
  decide +kernel

/-- C116: nor with HMM.  In 中文人 the HMM finds 中文, which is a rare word; after deleting and restoring it with its frequency it is cut. -/
theorem C116_not_restored :
    let w := readyWorld rareWordFreq 66
    (cutW sampleSys w 0 false true (.str (lit ['中', '文', '人'])) true).2 = Gen.ok [lit ['中', '文'], lit ['人']] ∧
    (cutW sampleSys (addWord sampleSys (delWord sampleSys w 0 (.str (lit ['中', '文'])) true).1 0 (.str (lit ['中', '文'])) (.int 1) none true).1 0 false true
      (.str (lit ['中', '文', '人'])) true).2 = Gen.ok [lit ['中'], lit ['文'], lit ['人']] := by
  decide +kernel

/-- The hypotheses of the theorems are met. -/
example : PrefixClosed totalFreq ∧ NonNeg totalFreq ∧ ¬ DictWord totalFreq (lit ['人']) ∧ PyDict.get? totalFreq (lit ['中', '国']) = some 1 := by
  refine ⟨?_, nonNeg_of_all _ (by decide), by decide, by decide⟩
  have key : ∀ w ∈ totalFreq.map Prod.fst, ∀ p ∈ w.inits, p ≠ [] → PyDict.has totalFreq p = true := by decide +kernel
  intro w hw p hne hpre
  exact key w ((PyDict.mem_keys_iff _ _).mpr hw) p ((List.mem_inits _ _).mpr hpre) hne

end Jieba.Props
