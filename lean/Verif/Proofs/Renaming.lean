import Verif.Proofs.Search
import Verif.Spec.Renaming
/-!
# Lemmas: renaming characters
-/

set_option linter.unusedSectionVars false

namespace Jieba
open Jieba.Spec

variable {F : Type _} [LinearOrder F]

/-- `π` does not change the answer of `p`. -/
def Keeps (π : Ch → Ch) (p : Ch → Bool) : Prop := ∀ c, p (π c) = p c

theorem Spec.Renames.isHan {π : Ch → Ch} (h : Renames π) : Keeps π isHan := by
  intro c
  cases hc : Jieba.isHan c with
  | true => exact h.han c hc
  | false => rw [h.other c hc]; exact hc

theorem Spec.Renames.keeps {π : Ch → Ch} (h : Renames π) (p : Ch → Bool) (b : Bool) (hp : ∀ c, Jieba.isHan c = true → p c = b) :
    Keeps π p := by
  intro c
  cases hc : Jieba.isHan c with
  | true => rw [hp c hc, hp _ (h.han c hc)]
  | false => rw [h.other c hc]

theorem han_range {c : Nat} (h : isHan c = true) : 0x4E00 ≤ c ∧ c ≤ 0x9FD5 := by
  simpa [isHan] using h

theorem han_alnum (c : Ch) (h : isHan c = true) : isAlnum c = false := by
  have := han_range h
  simp only [isAlnum, isLower, isUpper, isDigit, Bool.or_eq_false_iff, Bool.and_eq_false_iff, decide_eq_false_iff_not]
  unfold Ch at *; omega

theorem han_digit (c : Ch) (h : isHan c = true) : isDigit c = false := by
  have := han_range h
  simp only [isDigit, Bool.and_eq_false_iff, decide_eq_false_iff_not]
  unfold Ch at *; omega

theorem han_ne (c : Ch) (n : Nat) (hn : n < 0x4E00) (h : isHan c = true) : (c == n) = false := by
  have := han_range h
  rw [beq_eq_false_iff_ne]
  unfold Ch at *; omega

theorem han_space (c : Ch) (h : isHan c = true) : isSpace c = false := by
  have := han_range h
  simp only [isSpace, Bool.or_eq_false_iff, Bool.and_eq_false_iff, decide_eq_false_iff_not, beq_eq_false_iff_ne]
  unfold Ch at *; omega

theorem han_decimal (c : Ch) (h : isHan c = true) : isDecimal c = false := by
  have hr := han_range h
  have hall : ∀ b ∈ ndStarts, b + 10 ≤ 0x4E00 ∨ 0x9FD5 < b := by decide +kernel
  unfold isDecimal digitValue
  have : ndStarts.find? (fun b => decide (b ≤ c) && decide (c < b + 10)) = none := by
    rw [List.find?_eq_none]
    intro b hb
    have := hall b hb
    simp only [Bool.and_eq_true, decide_eq_true_eq]
    unfold Ch at *; omega
  rw [this]; rfl

theorem han_word (c : Ch) (h : isHan c = true) : isWordCh c = true := by simp [isWordCh, h]

theorem han_wordPos (c : Ch) (h : isHan c = true) : isWordChPos c = true := by simp [isWordChPos, h]

/-! ## Patterns -/

/-- No character class of the pattern tells renamed characters from the original ones. -/
def RE.KeptBy (π : Ch → Ch) : RE → Prop
  | .cls p => Keeps π p
  | .plus p => Keeps π p
  | .plusLazy p => Keeps π p
  | .seq a b => a.KeptBy π ∧ b.KeptBy π
  | .alt a b => a.KeptBy π ∧ b.KeptBy π
  | .opt a => a.KeptBy π
  | .grp _ a => a.KeptBy π
  | .bos => True
  | .eos => Keeps π (fun c => c == 0x0A)

def renCaps (π : Ch → Ch) (h : Nat × Caps) : Nat × Caps := (h.1, h.2.map (fun g => (g.1, g.2.map π)))

theorem takeWhile_ren (π : Ch → Ch) (p : Ch → Bool) (h : Keeps π p) (s : Str) : (s.map π).takeWhile p = (s.takeWhile p).map π := by
  induction s with
  | nil => rfl
  | cons c s ih =>
    simp only [List.map_cons, List.takeWhile_cons, h c, ih]
    split <;> rfl

theorem run_ren (π : Ch → Ch) (r : RE) (h : r.KeptBy π) (st : Bool) (s : Str) :
    RE.run r st (s.map π) = (RE.run r st s).map (renCaps π) := by
  induction r generalizing st s with
  | cls p =>
    cases s with
    | nil => rfl
    | cons c s =>
      simp only [List.map_cons, RE.run, h c]
      split <;> rfl
  | plus p =>
    simp only [RE.run, takeWhile_ren π p h, List.length_map, List.map_map]
    rfl
  | plusLazy p =>
    simp only [RE.run, takeWhile_ren π p h, List.length_map, List.map_map]
    rfl
  | seq a b iha ihb =>
    simp only [RE.run, iha h.1, List.flatMap_map, List.map_flatMap]
    congr 1
    funext x
    simp only [renCaps, ← List.map_drop, ihb h.2, List.map_map]
    congr 1
    funext y
    simp [renCaps]
  | alt a b iha ihb => simp only [RE.run, iha h.1, ihb h.2, List.map_append]
  | opt a iha => simp only [RE.run, iha h, List.map_append]; rfl
  | grp n a iha =>
    simp only [RE.run, iha h, List.map_map]
    congr 1
    funext x
    simp [renCaps]
  | bos => simp only [RE.run]; split <;> rfl
  | eos =>
    simp only [RE.run]
    have e : (s.map π = [] ∨ s.map π = [0x0A]) ↔ (s = [] ∨ s = [0x0A]) := by
      match s with
      | [] => simp
      | [c] =>
        have : (π c == 0x0A) = (c == 0x0A) := h c
        simp only [List.map_cons, List.map_nil, List.cons.injEq, and_true, reduceCtorEq, false_or]
        rw [← beq_iff_eq, this, beq_iff_eq]
      | a :: b :: s => simp
    simp only [e]
    split <;> rfl

theorem isMatch_ren (π : Ch → Ch) (r : RE) (h : r.KeptBy π) (s : Str) : r.isMatch (s.map π) = r.isMatch s := by
  unfold RE.isMatch RE.pmatch
  rw [run_ren π r h, List.head?_map]
  simp

theorem group_ren (π : Ch → Ch) (n : Nat) (caps : Caps) :
    RE.group (caps.map (fun g => (g.1, g.2.map π))) n = (RE.group caps n).map (List.map π) := by
  unfold RE.group
  rw [List.find?_map]
  simp [Function.comp_def]

theorem splitGo_ren (π : Ch → Ch) (r : RE) (h : r.KeptBy π) (fuel : Nat) (st : Bool) (acc s : Str) :
    RE.splitGo r fuel st (acc.map π) (s.map π) = (RE.splitGo r fuel st acc s).map (List.map π) := by
  induction fuel generalizing st acc s with
  | zero => rfl
  | succ n ih =>
    cases s with
    | nil => rfl
    | cons c s =>
      have hr := run_ren π r h st (c :: s)
      rw [List.map_cons] at hr
      simp only [List.map_cons, RE.splitGo, hr, List.head?_map]
      have i1 := ih false (acc ++ [c]) s
      simp only [List.map_append, List.map_cons, List.map_nil] at i1
      cases (RE.run r st (c :: s)).head? with
      | none => simpa using i1
      | some x =>
        obtain ⟨k, caps⟩ := x
        cases k with
        | zero => simpa [renCaps] using i1
        | succ k =>
          have i2 := ih false [] (s.drop k)
          simp only [Option.map_some, renCaps, List.map_cons, group_ren, List.drop_succ_cons, ← List.map_drop]
          rw [← i2]
          simp only [List.map_nil, List.cons.injEq, true_and, and_true]
          cases RE.group caps 1 <;> simp

theorem split_ren (π : Ch → Ch) (r : RE) (h : r.KeptBy π) (s : Str) : r.split (s.map π) = (r.split s).map (List.map π) := by
  unfold RE.split
  have := splitGo_ren π r h (s.length + 1) true [] s
  simpa using this

section Patterns
variable {π : Ch → Ch} (h : Renames π)
include h

theorem kept_hanDefault : reHanDefault.KeptBy π := h.keeps _ true han_word
theorem kept_hanInternal : reHanInternal.KeptBy π := h.keeps _ true han_wordPos
theorem kept_skip : reSkipDefault.KeptBy π :=
  ⟨⟨h.keeps _ false (fun c hc => han_ne c _ (by decide) hc), h.keeps _ false (fun c hc => han_ne c _ (by decide) hc)⟩, h.keeps _ false han_space⟩
theorem kept_eng : reEng.KeptBy π := h.keeps _ false han_alnum
theorem kept_han : reHan.KeptBy π := h.isHan
theorem kept_skipFinal : reSkipFinal.KeptBy π :=
  ⟨h.keeps _ false han_alnum, ⟨h.keeps _ false (fun c hc => han_ne c _ (by decide) hc), h.keeps _ false han_decimal⟩,
    h.keeps _ false (fun c hc => han_ne c _ (by decide) hc)⟩
theorem kept_numCls : Keeps π (fun c => c == 0x2E || isDigit c) :=
  h.keeps _ false (fun c hc => by simp [han_digit c hc, han_ne c 0x2E (by decide) hc])
theorem kept_skipDetail : reSkipDetail.KeptBy π := ⟨kept_numCls h, h.keeps _ false han_alnum⟩
theorem kept_engPos : reEngPos.KeptBy π := h.keeps _ false han_alnum
theorem kept_num : reNum.KeptBy π := kept_numCls h
theorem kept_eng1 : reEng1.KeptBy π :=
  ⟨trivial, h.keeps _ false han_alnum, h.keeps _ false (fun c hc => han_ne c _ (by decide) hc)⟩

end Patterns

/-! ## Generators -/

/-- The output, renamed. -/
def Gen.ren (π : Ch → Ch) (g : Gen Str) : Gen Str := ⟨g.out.map (List.map π), g.err⟩

variable {π : Ch → Ch}

theorem ren_ok (l : List Str) : (Gen.ok l).ren π = Gen.ok (l.map (List.map π)) := rfl
theorem ren_raise (e : PyErr) : (Gen.raise e : Gen Str).ren π = Gen.raise e := rfl

theorem ren_andThen (g k : Gen Str) : (Gen.andThen g k).ren π = Gen.andThen (g.ren π) (k.ren π) := by
  unfold Gen.andThen Gen.ren
  cases g.err <;> simp

theorem ren_forEach (l : List Str) (f f' : Str → Gen Str) (h : ∀ a ∈ l, f' (a.map π) = (f a).ren π) :
    Gen.forEach (l.map (List.map π)) f' = (Gen.forEach l f).ren π := by
  induction l with
  | nil => rfl
  | cons a l ih =>
    simp only [List.map_cons, Gen.forEach_cons, ren_andThen]
    rw [h a (by simp), ih (fun b hb => h b (by simp [hb]))]

theorem ren_ofExcept {α} (x : Except PyErr α) (k k' : α → Gen Str) (h : ∀ a, k' a = (k a).ren π) :
    Gen.ofExcept x k' = (Gen.ofExcept x k).ren π := by
  cases x with
  | error e => rfl
  | ok a => exact h a

theorem ren_mapOut (g : Gen Str) (f f' : Str → List Str) (h : ∀ a ∈ g.out, f' (a.map π) = (f a).map (List.map π)) :
    (g.ren π).mapOut f' = (g.mapOut f).ren π := by
  unfold Gen.mapOut Gen.ren
  simp only [List.flatMap_map, List.map_flatMap, Gen.mk.injEq, and_true]
  rw [List.flatMap_def, List.flatMap_def, List.map_congr_left h]

theorem chars_ren (s : Str) : (s.map π).map (fun c => [c]) = (s.map (fun c => [c])).map (List.map π) := by
  simp [Function.comp_def]

theorem slice_ren (s : Str) (i j : Nat) : slice (s.map π) i j = (slice s i j).map π := by
  simp [slice]

/-! ## finalseg -/

theorem viterbi_ren (A : Arith F) (T T' : FinalSeg.Tables F) (h1 : T'.start = T.start) (h2 : T'.trans = T.trans)
    (h3 : ∀ y c, T'.emit y (π c) = T.emit y c) (h4 : T'.minFloat = T.minFloat) (s : Str) :
    FinalSeg.viterbi A T' (s.map π) = FinalSeg.viterbi A T s := by
  have hi : ∀ c, FinalSeg.viterbiInit A T' (π c) = FinalSeg.viterbiInit A T c := by
    intro c; unfold FinalSeg.viterbiInit; simp only [h1, h3, h4]
  have hs : ∀ V c, FinalSeg.viterbiStep A T' V (π c) = FinalSeg.viterbiStep A T V c := by
    intro V c; unfold FinalSeg.viterbiStep; simp only [h2, h3, h4]
  cases s with
  | nil => rfl
  | cons c s =>
    simp only [List.map_cons, FinalSeg.viterbi, hi, List.foldl_map, hs]

theorem cutLoop_ren (sent : Str) (l : List (Ch × FinalSeg.St)) (i b n : Nat) :
    FinalSeg.cutLoop (sent.map π) (l.map (fun x => (π x.1, x.2))) i b n = (FinalSeg.cutLoop sent l i b n).map (List.map π) := by
  induction l generalizing i b n with
  | nil =>
    simp only [List.map_nil, FinalSeg.cutLoop, List.length_map]
    split <;> simp
  | cons x l ih =>
    obtain ⟨c, y⟩ := x
    cases y <;> simp [FinalSeg.cutLoop, ih, slice_ren]

theorem zip_ren {β} (s : Str) (l : List β) : (s.map π).zip l = (s.zip l).map (fun x => (π x.1, x.2)) := by
  rw [List.zip_map_left]; rfl

theorem hmm_ren (hπ : Renames π) {E E' : Env F} (h : RenamedEnv π E E') (s : Str) : E'.hmm (s.map π) = (E.hmm s).ren π := by
  unfold Env.hmm FinalSeg.cut
  rw [split_ren π _ (kept_han hπ)]
  apply ren_forEach
  intro b _
  rw [isMatch_ren π _ (kept_han hπ)]
  split
  · have : FinalSeg.hmmCut E'.A E'.tables (b.map π) = (FinalSeg.hmmCut E.A E.tables b).ren π := by
      unfold FinalSeg.hmmCut
      rw [h.A, viterbi_ren E.A E.tables E'.tables h.start h.trans h.emit h.minFloat]
      apply ren_ofExcept
      intro r
      rw [ren_ok, zip_ren, cutLoop_ren]
    rw [this]
    apply ren_mapOut
    intro w _
    simp only [h.force]
    split
    · rfl
    · exact chars_ren w
  · rw [ren_ok, split_ren π _ (kept_skipFinal hπ), List.filter_map]
    congr 3
    funext x
    simp

/-! ## The dictionary -/

theorem has_ren {d d' : Freq} (h : ∀ v, PyDict.get? d' (v.map π) = PyDict.get? d v) (v : Str) : d'.has (v.map π) = d.has v := by
  unfold PyDict.has; rw [h]

theorem truthy_ren {d d' : Freq} (h : ∀ v, PyDict.get? d' (v.map π) = PyDict.get? d v) (v : Str) : d'.truthy (v.map π) = d.truthy v := by
  unfold Freq.truthy; rw [h]

theorem dagLoop_ren {d d' : Freq} (h : ∀ v, PyDict.get? d' (v.map π) = PyDict.get? d v) (s : Str) (k fuel i : Nat) (frag : Str) (acc : List Nat) :
    dagLoop d' (s.map π) k fuel i (frag.map π) acc = dagLoop d s k fuel i frag acc := by
  induction fuel generalizing i frag acc with
  | zero => rfl
  | succ n ih =>
    unfold dagLoop
    rw [has_ren h, truthy_ren h, slice_ren, List.length_map, ih]

theorem getDAG_ren {d d' : Freq} (h : ∀ v, PyDict.get? d' (v.map π) = PyDict.get? d v) (s : Str) : getDAG d' (s.map π) = getDAG d s := by
  unfold getDAG
  rw [List.length_map]
  congr 1
  funext k
  unfold dagRow
  rw [slice_ren, List.length_map, dagLoop_ren h]

theorem calcRoute_ren {d d' : Freq} (h : ∀ v, PyDict.get? d' (v.map π) = PyDict.get? d v) (A : Arith F) (total : Int) (s : Str)
    (dag : List (List Nat)) : calcRoute A d' total (s.map π) dag = calcRoute A d total s dag := by
  have he : ∀ lt tail idx x, edgeScore A d' lt (s.map π) tail idx x = edgeScore A d lt s tail idx x := by
    intro lt tail idx x
    unfold edgeScore freqOr1
    simp only [slice_ren, h]
  have hl : ∀ lt n tail, calcLoop A d' lt (s.map π) dag n tail = calcLoop A d lt s dag n tail := by
    intro lt n
    induction n with
    | zero => intro tail; rfl
    | succ n ih =>
      intro tail
      unfold calcLoop
      cases dag[n]? with
      | none => rfl
      | some L =>
        have : edgeScore A d' lt (s.map π) tail n = edgeScore A d lt s tail n := by funext x; exact he lt tail n x
        simp only [ih, this]
  unfold calcRoute
  simp only [hl, List.length_map]

/-! ## jieba/__init__.py -/

def renAll (π : Ch → Ch) (st : AllState) : AllState := { st with engBuf := st.engBuf.map π }

theorem foldl_renAll (L : List Nat) (st : AllState) :
    L.foldl (fun st (j : Nat) => { st with oldJ := (j : Int) }) (renAll π st) =
      renAll π (L.foldl (fun st (j : Nat) => { st with oldJ := (j : Int) }) st) := by
  induction L generalizing st with
  | nil => rfl
  | cons j L ih => exact ih { st with oldJ := j }

theorem cutAllStep_ren (hπ : Renames π) (s : Str) (st : AllState) (k : Nat) (L : List Nat) :
    cutAllStep (s.map π) (renAll π st) k L = ((cutAllStep s st k L).1.map (List.map π), renAll π (cutAllStep s st k L).2) := by
  have he : ∀ v : Str, reEng.isMatch (v.map π) = reEng.isMatch v := isMatch_ren π _ (kept_eng hπ)
  obtain ⟨o, e, b⟩ := st
  match L with
  | [] => cases e <;> cases hm : reEng.isMatch (slice s k (k + 1)) <;> simp [cutAllStep, slice_ren, he, hm, renAll]
  | [j] =>
    cases e <;> cases hm : reEng.isMatch (slice s k (k + 1)) <;> by_cases ho : o < (k : Int) <;>
      cases hw : reEng.isMatch (slice s k (j + 1)) <;> by_cases hj : k < j <;>
      simp [cutAllStep, slice_ren, he, hm, ho, hw, hj, renAll]
  | i :: j :: L =>
    unfold cutAllStep
    simp only [slice_ren, he]
    cases e <;> cases hm : reEng.isMatch (slice s k (k + 1)) <;>
      simp only [renAll, Bool.false_and, Bool.true_and, Bool.not_true, Bool.not_false, if_true, Bool.false_eq_true, if_false,
        List.map_append, List.map_map, List.map_cons, List.map_nil, Prod.mk.injEq, Function.comp_def, true_and, List.nil_append] <;>
      exact foldl_renAll (π := π) _ ⟨o, _, b⟩

theorem cutAllLoop_ren (hπ : Renames π) (s : Str) (st : AllState) (k : Nat) (dag : List (List Nat)) :
    cutAllLoop (s.map π) (renAll π st) k dag = (cutAllLoop s st k dag).map (List.map π) := by
  induction dag generalizing st k with
  | nil =>
    unfold cutAllLoop renAll
    simp only
    split <;> rfl
  | cons L dag ih =>
    simp only [cutAllLoop, cutAllStep_ren hπ, ih, List.map_append]

theorem noHmmLoop_ren (hπ : Renames π) (s : Str) (route : List (F × Nat)) (fuel x : Nat) (buf : Str) :
    noHmmLoop (s.map π) route fuel x (buf.map π) = (noHmmLoop s route fuel x buf).ren π := by
  have he : ∀ v : Str, reEng.isMatch (v.map π) = reEng.isMatch v := isMatch_ren π _ (kept_eng hπ)
  have hb : ∀ buf : Str, (if buf.map π = [] then [] else [buf.map π]) = (if buf = [] then [] else [buf]).map (List.map π) := by
    intro buf; cases buf <;> simp
  induction fuel generalizing x buf with
  | zero => simp only [noHmmLoop, hb, ren_ok]
  | succ n ih =>
    unfold noHmmLoop
    simp only [List.length_map, slice_ren, he, hb]
    split
    · cases route[x]? with
      | none => rfl
      | some r =>
        simp only
        split
        · rw [← List.map_append, ih]
        · rw [ren_andThen, ren_ok, ← ih]; simp
    · rfl

theorem dagCutLoop_ren {d d' : Freq} (h : ∀ v, PyDict.get? d' (v.map π) = PyDict.get? d v) (hmm hmm' : Str → Gen Str)
    (hh : ∀ b, hmm' (b.map π) = (hmm b).ren π) (s : Str) (route : List (F × Nat)) (fuel x : Nat) (buf : Str) :
    dagCutLoop d' hmm' (s.map π) route fuel x (buf.map π) = (dagCutLoop d hmm s route fuel x buf).ren π := by
  have hf : ∀ buf, flushBuf d' hmm' (buf.map π) = (flushBuf d hmm buf).ren π := by
    intro buf
    unfold flushBuf
    simp only [List.map_eq_nil_iff, List.length_map, truthy_ren h, hh, chars_ren]
    split
    · rfl
    · split
      · rfl
      · split <;> rfl
  induction fuel generalizing x buf with
  | zero => exact hf buf
  | succ n ih =>
    unfold dagCutLoop
    simp only [List.length_map, slice_ren, hf]
    split
    · cases route[x]? with
      | none => rfl
      | some r =>
        simp only
        split
        · rw [← List.map_append, ih]
        · rw [ren_andThen, ren_andThen, ren_ok, ← ih]; simp
    · rfl

theorem cutBlock_ren (hπ : Renames π) {E E' : Env F} (h : RenamedEnv π E E') (ca hm : Bool) (b : Str) :
    cutBlock E' ca hm (b.map π) = (cutBlock E ca hm b).ren π := by
  unfold cutBlock
  split
  · unfold cutAll
    rw [getDAG_ren h.freq, ren_ok]
    have := cutAllLoop_ren hπ b ⟨-1, false, []⟩ 0 (getDAG E.freq b)
    simpa [renAll] using congrArg Gen.ok this
  · split
    · unfold cutDAG
      rw [getDAG_ren h.freq, h.A, h.total, calcRoute_ren h.freq]
      apply ren_ofExcept
      intro route
      simpa using dagCutLoop_ren h.freq _ _ (hmm_ren hπ h) b route b.length 0 []
    · unfold cutDAGNoHMM
      rw [getDAG_ren h.freq, h.A, h.total, calcRoute_ren h.freq]
      apply ren_ofExcept
      intro route
      simpa using noHmmLoop_ren hπ b route b.length 0 []

theorem cut_ren (hπ : Renames π) {E E' : Env F} (h : RenamedEnv π E E') (ca hm : Bool) (s : Str) :
    cut E' ca hm (s.map π) = (cut E ca hm s).ren π := by
  unfold cut
  rw [split_ren π _ (kept_hanDefault hπ)]
  apply ren_forEach
  intro b _
  rw [isMatch_ren π _ (kept_hanDefault hπ), cutBlock_ren hπ h]
  simp only [List.map_eq_nil_iff]
  split
  · rfl
  · split
    · rfl
    · rw [ren_ok]
      congr 1
      unfold cutSkip
      rw [split_ren π _ (kept_skip hπ), List.flatMap_map, List.map_flatMap]
      congr 1
      funext x
      rw [isMatch_ren π _ (kept_skip hπ)]
      split
      · rfl
      · split
        · exact chars_ren x
        · rfl

theorem grams_ren {d d' : Freq} (h : ∀ v, PyDict.get? d' (v.map π) = PyDict.get? d v) (n : Nat) (w : Str) :
    grams d' n (w.map π) = (grams d n w).map (List.map π) := by
  unfold grams
  simp only [List.length_map, slice_ren]
  split
  · rw [List.filter_map, List.filter_map, List.map_map]
    simp only [Function.comp_def, truthy_ren h]
  · rfl

theorem cutForSearch_ren (hπ : Renames π) {E E' : Env F} (h : RenamedEnv π E E') (hm : Bool) (s : Str) :
    cutForSearch E' hm (s.map π) = (cutForSearch E hm s).ren π := by
  unfold cutForSearch
  rw [cut_ren hπ h]
  apply ren_mapOut
  intro w _
  simp only [grams_ren h.freq, List.map_append, List.map_cons, List.map_nil]

theorem tokenizeLoop_ren {d d' : Freq} (h : ∀ v, PyDict.get? d' (v.map π) = PyDict.get? d v) (search : Bool) (ws : List Str) (o : Nat) :
    tokenizeLoop d' search (ws.map (List.map π)) o = (tokenizeLoop d search ws o).map (fun x => (x.1.map π, x.2)) := by
  have hg : ∀ n w o, gramSpans d' n (w.map π) o = (gramSpans d n w o).map (fun x => (x.1.map π, x.2)) := by
    intro n w o
    unfold gramSpans
    simp only [List.length_map, slice_ren, truthy_ren h]
    split
    · rw [List.map_map]; rfl
    · rfl
  induction ws generalizing o with
  | nil => rfl
  | cons w ws ih =>
    simp only [List.map_cons, tokenizeLoop, hg, ih, List.length_map]
    split <;> simp

/-! ## posseg -/

namespace Pos

def renPair (π : Ch → Ch) (p : Pair) : Pair := (p.1.map π, p.2)

def renP (π : Ch → Ch) (g : Gen Pair) : Gen Pair := ⟨g.out.map (renPair π), g.err⟩

theorem renP_ok (l : List Pair) : renP π (Gen.ok l) = Gen.ok (l.map (renPair π)) := rfl

theorem renP_andThen (g k : Gen Pair) : renP π (Gen.andThen g k) = Gen.andThen (renP π g) (renP π k) := by
  unfold Gen.andThen renP
  cases g.err <;> simp

theorem renP_forEach (l : List Str) (f f' : Str → Gen Pair) (h : ∀ a ∈ l, f' (a.map π) = renP π (f a)) :
    Gen.forEach (l.map (List.map π)) f' = renP π (Gen.forEach l f) := by
  induction l with
  | nil => rfl
  | cons a l ih =>
    simp only [List.map_cons, Gen.forEach_cons, renP_andThen]
    rw [h a (by simp), ih (fun b hb => h b (by simp [hb]))]

theorem renP_ofExcept {α} (x : Except PyErr α) (k k' : α → Gen Pair) (h : ∀ a, k' a = renP π (k a)) :
    Gen.ofExcept x k' = renP π (Gen.ofExcept x k) := by
  cases x with
  | error e => rfl
  | ok a => exact h a

theorem viterbi_ren {E E' : PEnv F} (h : RenamedPEnv π E E') (s : Str) :
    viterbi E'.A E'.tables (E'.σ (s.map π)) (s.map π) = viterbi E.A E.tables (E.σ s) s := by
  rw [h.A, h.σ]
  generalize E.σ s = σ
  have hst : ∀ c, statesFor E'.tables (π c) = statesFor E.tables c := by
    intro c; unfold statesFor; rw [h.charStates, h.trans]
  have hem : ∀ {α} y c (k : F → Except PyErr α),
      (look E'.tables.emit y >>= fun e => k ((e.get? (π c)).getD E'.tables.minFloat)) =
      (look E.tables.emit y >>= fun e => k ((e.get? c).getD E.tables.minFloat)) := by
    intro α y c k
    have := h.emit y
    unfold look
    cases h1 : PyDict.get? E'.tables.emit y <;> cases h2 : PyDict.get? E.tables.emit y <;> rw [h1, h2] at this
    · rfl
    · exact this.elim
    · exact this.elim
    · show k _ = k _
      rw [this, h.minFloat]
  have hin : ∀ c, initCol E.A E'.tables (π c) = initCol E.A E.tables c := by
    intro c
    unfold initCol
    rw [hst]
    congr 1
    funext d y
    unfold initOne
    rw [h.start]
    congr 1
    funext x
    exact hem y c (fun f => pure (d.set y (padd E.A (some x) (some f), none)))
  have hpr : ∀ l, prevStates E'.tables l = prevStates E.tables l := by
    intro l
    induction l with
    | nil => rfl
    | cons x l ih => unfold prevStates; rw [h.trans, ih]
  have hcd : ∀ V c y, candidate E.A E'.tables V (π c) y = candidate E.A E.tables V c y := by
    intro V c y
    funext p
    unfold candidate
    congr 1
    funext v
    exact hem y c (fun f => pure (padd E.A (padd E.A v.1 ((p.2.get? y).elim ⊥ some)) (some f), p.1))
  have hstep : ∀ τ V c, stepCol E.A E'.tables τ V (π c) = stepCol E.A E.tables τ V c := by
    intro τ V c
    unfold stepCol
    rw [hpr]
    congr 1
    funext prev
    have : obsStates E'.tables τ (π c) prev = obsStates E.tables τ c prev := by
      unfold obsStates; rw [hst, h.trans]
    rw [this]
    congr 1
    funext d y
    unfold stepOne
    rw [hcd]
  have hcol : ∀ (cs : Str) t cols, columns E.A E'.tables σ t (cs.map π) cols = columns E.A E.tables σ t cs cols := by
    intro cs
    induction cs with
    | nil => intro t cols; rfl
    | cons c cs ih =>
      intro t cols
      cases cols with
      | nil => rfl
      | cons V cols => simp only [List.map_cons, columns, hstep, ih]
  cases s with
  | nil => rfl
  | cons c s => simp only [List.map_cons, viterbi, hin, hcol]

theorem cutLoop_ren (sent : Str) (pos : List PState) (l : List (Ch × PState)) (i b n : Nat) :
    cutLoop (sent.map π) pos (l.map (fun x => (π x.1, x.2))) i b n = renP π (cutLoop sent pos l i b n) := by
  induction l generalizing i b n with
  | nil =>
    simp only [List.map_nil, cutLoop, List.length_map]
    split
    · cases pos[n]? with
      | none => rfl
      | some p => simp [renP, Gen.ok, renPair]
    · rfl
  | cons x l ih =>
    obtain ⟨c, y⟩ := x
    simp only [List.map_cons, cutLoop, ih, slice_ren]
    split
    · rfl
    · split
      · rw [renP_andThen]; rfl
      · split
        · rw [renP_andThen]; rfl
        · rfl

theorem skipPair_ren (hπ : Renames π) (x : Str) : skipPair (x.map π) = renPair π (skipPair x) := by
  unfold skipPair
  rw [isMatch_ren π _ (kept_num hπ), isMatch_ren π _ (kept_engPos hπ)]
  split
  · rfl
  · split <;> rfl

theorem cutDetail_ren (hπ : Renames π) {E E' : PEnv F} (h : RenamedPEnv π E E') (s : Str) :
    cutDetail E' (s.map π) = renP π (cutDetail E s) := by
  unfold cutDetail
  rw [split_ren π _ (kept_han hπ)]
  apply renP_forEach
  intro b _
  rw [isMatch_ren π _ (kept_han hπ)]
  split
  · unfold hmmCut
    rw [viterbi_ren h]
    apply renP_ofExcept
    intro r
    rw [zip_ren, cutLoop_ren]
  · rw [renP_ok, split_ren π _ (kept_skipDetail hπ), List.filter_map, List.map_map, List.map_map]
    congr 1
    have : (List.filter ((fun x => decide (x ≠ [])) ∘ List.map π) (reSkipDetail.split b)) =
        List.filter (fun x => decide (x ≠ [])) (reSkipDetail.split b) := by
      congr 1; funext x; simp
    rw [this]
    congr 1
    funext x
    exact skipPair_ren hπ x

theorem tagOf_ren {E E' : PEnv F} (h : RenamedPEnv π E E') (v : Str) : tagOf E'.tab (v.map π) = tagOf E.tab v := by
  unfold tagOf; rw [h.tab]

theorem noHmmLoop_ren (hπ : Renames π) {E E' : PEnv F} (h : RenamedPEnv π E E') (s : Str) (route : List (F × Nat)) (fuel x : Nat) (buf : Str) :
    noHmmLoop E'.tab (s.map π) route fuel x (buf.map π) = renP π (noHmmLoop E.tab s route fuel x buf) := by
  have he : ∀ v : Str, reEng1.isMatch (v.map π) = reEng1.isMatch v := isMatch_ren π _ (kept_eng1 hπ)
  have hb : ∀ buf : Str, (if buf.map π = [] then [] else [(buf.map π, flagEng)]) =
      (if buf = [] then [] else [(buf, flagEng)]).map (renPair π) := by
    intro buf; cases buf <;> simp [renPair]
  induction fuel generalizing x buf with
  | zero => simp only [noHmmLoop, hb, renP_ok]
  | succ n ih =>
    unfold noHmmLoop
    simp only [List.length_map, slice_ren, he, hb, tagOf_ren h]
    split
    · cases route[x]? with
      | none => rfl
      | some r =>
        simp only
        split
        · rw [← List.map_append, ih]
        · rw [renP_andThen, renP_ok, ← ih]; simp [renPair]
    · rfl

theorem dagCutLoop_ren (hπ : Renames π) {E E' : PEnv F} (h : RenamedPEnv π E E') (s : Str) (route : List (F × Nat)) (fuel x : Nat) (buf : Str) :
    dagCutLoop E' (s.map π) route fuel x (buf.map π) = renP π (dagCutLoop E s route fuel x buf) := by
  have hf : ∀ buf, flushBuf E' (buf.map π) = renP π (flushBuf E buf) := by
    intro buf
    have ht : ∀ c, tagOf E'.tab [π c] = tagOf E.tab [c] := fun c => tagOf_ren h [c]
    unfold flushBuf
    simp only [List.map_eq_nil_iff, List.length_map, truthy_ren h.freq, cutDetail_ren hπ h, tagOf_ren h, List.map_map, Function.comp_def, ht]
    split
    · rfl
    · split
      · rfl
      · split
        · rfl
        · rw [renP_ok, List.map_map]; rfl
  induction fuel generalizing x buf with
  | zero => exact hf buf
  | succ n ih =>
    unfold dagCutLoop
    simp only [List.length_map, slice_ren, hf, tagOf_ren h]
    split
    · cases route[x]? with
      | none => rfl
      | some r =>
        simp only
        split
        · rw [← List.map_append, ih]
        · rw [renP_andThen, renP_andThen, renP_ok, ← ih]; simp [renPair]
    · rfl

theorem cut_ren (hπ : Renames π) {E E' : PEnv F} (h : RenamedPEnv π E E') (hm : Bool) (s : Str) :
    cut E' hm (s.map π) = renP π (cut E hm s) := by
  unfold cut
  rw [split_ren π _ (kept_hanInternal hπ)]
  apply renP_forEach
  intro b _
  rw [isMatch_ren π _ (kept_hanInternal hπ)]
  split
  · unfold cutBlock
    split
    · unfold cutDAG
      rw [getDAG_ren h.freq, h.A, h.total, calcRoute_ren h.freq]
      apply renP_ofExcept
      intro route
      simpa using dagCutLoop_ren hπ h b route b.length 0 []
    · unfold cutDAGNoHMM
      rw [getDAG_ren h.freq, h.A, h.total, calcRoute_ren h.freq]
      apply renP_ofExcept
      intro route
      simpa using noHmmLoop_ren hπ h b route b.length 0 []
  · rw [renP_ok]
    congr 1
    unfold cutSkip
    rw [split_ren π _ (kept_skip hπ), List.flatMap_map, List.map_flatMap]
    congr 1
    funext x
    rw [isMatch_ren π _ (kept_skip hπ)]
    split
    · rfl
    · rw [List.map_map, List.map_map]
      congr 1
      funext c
      have hn : reNum.isMatch [π c] = reNum.isMatch [c] := isMatch_ren π _ (kept_num hπ) [c]
      simp only [Function.comp_def, hn, isMatch_ren π _ (kept_engPos hπ)]
      split
      · rfl
      · split <;> rfl

end Pos
end Jieba
