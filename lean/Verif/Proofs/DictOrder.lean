import Verif.Proofs.World
import Verif.Proofs.UserLines
import Mathlib.Data.List.Perm.Basic
/-!
# Lemmas: segmentation reads the dictionary only by looking up strings; the order of `add_word` calls
-/

set_option linter.unusedSectionVars false

namespace Jieba
open Jieba.Spec

variable {F : Type _} [LinearOrder F]

/-- Two states of the dictionary that every look-up answers alike. -/
structure SameEnv (E E' : Env F) : Prop where
  A : E.A = E'.A
  total : E.total = E'.total
  tables : E.tables = E'.tables
  freq : ∀ v, PyDict.get? E.freq v = PyDict.get? E'.freq v
  force : ∀ v, v ∈ E.force ↔ v ∈ E'.force

theorem has_of_get {d d' : Freq} (h : ∀ v, d.get? v = d'.get? v) (v : Str) : d.has v = d'.has v := by
  unfold PyDict.has; rw [h]

theorem truthy_of_get {d d' : Freq} (h : ∀ v, d.get? v = d'.get? v) (v : Str) : d.truthy v = d'.truthy v := by
  unfold Freq.truthy; rw [h]

theorem dagLoop_of_get {d d' : Freq} (h : ∀ v, d.get? v = d'.get? v) (s : Str) (k fuel i : Nat) (frag : Str) (acc : List Nat) :
    dagLoop d s k fuel i frag acc = dagLoop d' s k fuel i frag acc := by
  induction fuel generalizing i frag acc with
  | zero => rfl
  | succ n ih => unfold dagLoop; rw [has_of_get h, truthy_of_get h, ih]

theorem getDAG_of_get {d d' : Freq} (h : ∀ v, d.get? v = d'.get? v) (s : Str) : getDAG d s = getDAG d' s := by
  unfold getDAG
  congr 1
  funext k
  unfold dagRow
  rw [dagLoop_of_get h]

theorem calcRoute_of_get {d d' : Freq} (h : ∀ v, d.get? v = d'.get? v) (A : Arith F) (total : Int) (s : Str) (dag : List (List Nat)) :
    calcRoute A d total s dag = calcRoute A d' total s dag := by
  have he : ∀ lt, edgeScore A d lt = edgeScore A d' lt := by
    intro lt; funext s tail idx x
    unfold edgeScore freqOr1
    simp only [h]
  have hl : ∀ lt n tail, calcLoop A d lt s dag n tail = calcLoop A d' lt s dag n tail := by
    intro lt n
    induction n with
    | zero => intro tail; rfl
    | succ n ih =>
      intro tail
      unfold calcLoop
      rw [he]
      cases dag[n]? with
      | none => rfl
      | some L => simp only [ih]
  unfold calcRoute
  simp only [hl]

theorem flushBuf_of_get {d d' : Freq} (h : ∀ v, d.get? v = d'.get? v) (hmm : Str → Gen Str) (buf : Str) :
    flushBuf d hmm buf = flushBuf d' hmm buf := by
  unfold flushBuf; rw [truthy_of_get h]

theorem dagCutLoop_of_get {d d' : Freq} (h : ∀ v, d.get? v = d'.get? v) (hmm : Str → Gen Str) (s : Str) (route : List (F × Nat))
    (fuel x : Nat) (buf : Str) : dagCutLoop d hmm s route fuel x buf = dagCutLoop d' hmm s route fuel x buf := by
  induction fuel generalizing x buf with
  | zero => exact flushBuf_of_get h hmm buf
  | succ n ih => unfold dagCutLoop; simp only [ih, flushBuf_of_get h]

theorem SameEnv.hmm {E E' : Env F} (h : SameEnv E E') : E.hmm = E'.hmm := by
  funext s
  unfold Env.hmm FinalSeg.cut
  rw [h.A, h.tables]
  simp only [h.force]

/-- Segmentation gives the same result. -/
theorem SameEnv.cut {E E' : Env F} (h : SameEnv E E') (ca hm : Bool) (s : Str) : cut E ca hm s = cut E' ca hm s := by
  unfold Jieba.cut
  congr 1
  funext blk
  have : cutBlock E ca hm blk = cutBlock E' ca hm blk := by
    unfold cutBlock cutAll cutDAG cutDAGNoHMM
    simp only [getDAG_of_get h.freq, calcRoute_of_get h.freq, dagCutLoop_of_get h.freq, h.hmm, h.A, h.total]
  rw [this]

theorem SameEnv.cutForSearch {E E' : Env F} (h : SameEnv E E') (hm : Bool) (s : Str) : cutForSearch E hm s = cutForSearch E' hm s := by
  unfold Jieba.cutForSearch
  have : ∀ n w, grams E.freq n w = grams E'.freq n w := by
    intro n w; unfold grams; simp only [truthy_of_get h.freq]
  simp only [h.cut, this]

theorem SameEnv.tokenize {E E' : Env F} (h : SameEnv E E') (search hm : Bool) (s : Str) :
    tokenize E search hm s = tokenize E' search hm s := by
  have hg : ∀ n w o, gramSpans E.freq n w o = gramSpans E'.freq n w o := by
    intro n w o; unfold gramSpans; simp only [truthy_of_get h.freq]
  have : ∀ ws o, tokenizeLoop E.freq search ws o = tokenizeLoop E'.freq search ws o := by
    intro ws
    induction ws with
    | nil => intro o; rfl
    | cons w ws ih => intro o; unfold tokenizeLoop; simp only [hg, ih]
  unfold Jieba.tokenize
  simp only [h.cut, this]

/-! ## add_word in any order -/

/-- No look-up in the tokenizer `t` tells the states apart; everything else is the same. -/
structure SameFor (t : Nat) (w w' : World) : Prop where
  freq : ∀ v, (w.tok t).freq.get? v = (w'.tok t).freq.get? v
  total : (w.tok t).total = (w'.tok t).total
  tags : ∀ v, (w.tok t).tags.get? v = (w'.tok t).tags.get? v
  force : ∀ v, v ∈ w.force ↔ v ∈ w'.force

theorem SameFor.refl (t : Nat) (w : World) : SameFor t w w := ⟨fun _ => rfl, rfl, fun _ => rfl, fun _ => Iff.rfl⟩

theorem SameFor.trans {t : Nat} {a b c : World} (h : SameFor t a b) (h' : SameFor t b c) : SameFor t a c :=
  ⟨fun v => (h.freq v).trans (h'.freq v), h.total.trans h'.total, fun v => (h.tags v).trans (h'.tags v),
    fun v => (h.force v).trans (h'.force v)⟩

theorem SameFor.env {t : Nat} {w w' : World} (h : SameFor t w w') (S : Sys F) : SameEnv (w.env S t) (w'.env S t) :=
  ⟨rfl, h.total, rfl, h.freq, h.force⟩

/-- One `add_word` call: word, frequency, tag. -/
abbrev Added := Str × Int × Option Str

def addOne (t : Nat) (w : World) (e : Added) : World := addFreq w t e.1 e.2.1 e.2.2

def addMany (t : Nat) (w : World) (es : List Added) : World := es.foldl (addOne t) w

theorem tags_after (w : World) (t : Nat) (e : Added) (v : Str) :
    ((addOne t w e).tok t).tags.get? v =
      if truthyStr e.2.2 = true ∧ v = e.1 then some (e.2.2.getD []) else (w.tok t).tags.get? v := by
  unfold addOne
  rw [addFreq_tok_self]
  simp only
  by_cases h : truthyStr e.2.2 = true
  · rw [if_pos h, PyDict.get?_set]
    by_cases hv : e.1 = v
    · rw [if_pos hv, if_pos ⟨h, hv.symm⟩]
    · rw [if_neg hv, if_neg (fun hc => hv hc.2.symm)]
  · rw [if_neg h, if_neg (fun hc => h hc.1)]

theorem SameFor.addOne {t : Nat} {w w' : World} (h : SameFor t w w') (e : Added) : SameFor t (addOne t w e) (addOne t w' e) := by
  refine ⟨?_, ?_, ?_, ?_⟩
  · intro v; unfold Jieba.addOne; simp only [addFreq_tok_self, register_get?, h.freq]
  · unfold Jieba.addOne; simp only [addFreq_tok_self, h.total]
  · intro v; simp only [tags_after, h.tags]
  · intro v; unfold Jieba.addOne; simp only [mem_addFreq_force, h.force]

theorem addOne_comm (t : Nat) (w : World) (a b : Added) (h : a.1 ≠ b.1) :
    SameFor t (addOne t (addOne t w a) b) (addOne t (addOne t w b) a) := by
  refine ⟨?_, ?_, ?_, ?_⟩
  · intro v
    unfold Jieba.addOne
    simp only [addFreq_tok_self, register_get?]
    by_cases ha : v = a.1
    · have hb : v ≠ b.1 := fun hc => h (ha.symm.trans hc)
      simp [ha, h]
    · by_cases hb : v = b.1
      · simp [hb, h.symm]
      · simp only [if_neg ha, if_neg hb]
        cases PyDict.get? (w.tok t).freq v with
        | some x => rfl
        | none =>
          simp only
          by_cases h1 : v ≠ [] ∧ v <+: a.1 <;> by_cases h2 : v ≠ [] ∧ v <+: b.1
          · rw [if_pos h1, if_pos h2]
          · rw [if_pos h1, if_neg h2]
          · rw [if_neg h1, if_pos h2]
          · rw [if_neg h1, if_neg h2]
  · unfold Jieba.addOne; simp only [addFreq_tok_self]; omega
  · intro v
    simp only [tags_after]
    by_cases ha : truthyStr a.2.2 = true ∧ v = a.1
    · have hb : ¬ (truthyStr b.2.2 = true ∧ v = b.1) := fun hc => h (ha.2.symm.trans hc.2)
      rw [if_neg hb, if_pos ha, if_pos ha]
    · rw [if_neg ha, if_neg ha]
  · intro v; unfold Jieba.addOne; simp only [mem_addFreq_force]; tauto

theorem SameFor.addMany {t : Nat} {w w' : World} (h : SameFor t w w') (es : List Added) :
    SameFor t (addMany t w es) (addMany t w' es) := by
  induction es generalizing w w' with
  | nil => exact h
  | cons e es ih => exact ih (h.addOne e)

theorem addMany_perm (t : Nat) (w : World) {es es' : List Added} (hp : es.Perm es') (hd : (es.map (·.1)).Nodup) :
    SameFor t (addMany t w es) (addMany t w es') := by
  induction hp generalizing w with
  | nil => exact SameFor.refl t w
  | cons e _ ih => exact ih (addOne t w e) (List.nodup_cons.mp hd).2
  | swap a b l =>
    simp only [List.map_cons, List.nodup_cons, List.mem_cons, not_or] at hd
    exact (addOne_comm t w b a hd.1.1).addMany l
  | trans h1 _ ih1 ih2 => exact (ih1 w hd).trans (ih2 w ((h1.map _).nodup_iff.mp hd))

theorem addOne_init (t : Nat) (w : World) (e : Added) : ((addOne t w e).tok t).initialized = (w.tok t).initialized := by
  unfold addOne; rw [addFreq_tok_self]

theorem addMany_init (t : Nat) (w : World) (es : List Added) : ((addMany t w es).tok t).initialized = (w.tok t).initialized := by
  induction es generalizing w with
  | nil => rfl
  | cons e es ih => exact (ih (addOne t w e)).trans (addOne_init t w e)

end Jieba
