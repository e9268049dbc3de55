import Verif.Model.Parallel
import Verif.Proofs.CutAll
import Verif.Spec.Fields
/-!
# Lemmas about parallel mode
-/

set_option linter.unusedSectionVars false

namespace Jieba
open Jieba.Spec

variable {F : Type _} [LinearOrder F]

theorem isWordCh_of_lineBreak (c : Ch) (h : isLineBreak c = true) : isWordCh c = false := by
  simp [isLineBreak] at h
  simp [isWordCh, isHan, isAlnum, isLower, isUpper, isDigit]
  unfold Ch at *
  omega

theorem isSpace_of_lineBreak (c : Ch) (h : isLineBreak c = true) : isSpace c = true := by
  simp [isLineBreak] at h
  simp [isSpace]
  unfold Ch at *
  omega

/-- `splitlines(True)` gives the lines of the text with their ends. -/
theorem splitlinesKeep_spec (s : Str) : KeptLines s (splitlinesKeep s) := by
  have : ∀ s acc, (∀ c ∈ acc, isLineBreak c = false) → KeptLines (acc ++ s) (splitlinesKeep.go s acc) := by
    intro s acc
    fun_induction splitlinesKeep.go s acc with
    | case1 => intro _; exact .nil
    | case2 acc h => intro ha; simpa using KeptLines.last acc h ha
    | case3 s acc ih => intro ha; exact .crlf acc s _ ha (ih (by simp))
    | case4 c s acc h hc ih =>
      intro ha
      refine .line acc c s _ ha hc ?_ (ih (by simp))
      rintro ⟨rfl, h2⟩
      cases s with
      | nil => simp at h2
      | cons d s => simp at h2; subst h2; simp_all
    | case5 c s acc h hc ih =>
      intro ha
      have := ih (by
        intro d hd
        rcases List.mem_append.mp hd with hd | hd
        · exact ha d hd
        · simp at hd; subst hd; simpa using hc)
      simpa using this
  simpa [splitlinesKeep] using this s [] (by simp)

theorem splitlinesKeep_flatten (s : Str) : (splitlinesKeep s).flatten = s := by
  have : ∀ s acc, (splitlinesKeep.go s acc).flatten = acc ++ s := by
    intro s acc
    fun_induction splitlinesKeep.go s acc <;> simp_all
  simpa [splitlinesKeep] using this s []

/-- If `f` splits at every line end, then it is a loop over the lines. -/
theorem forEach_splitlines {β} (f : Str → Gen β) (h0 : f [] = Gen.ok [])
    (hf : ∀ a b c, isLineBreak c = true → ¬ (c = 0x0D ∧ b.head? = some 0x0A) →
      f (a ++ c :: b) = Gen.andThen (f (a ++ [c])) (f b)) (s : Str) :
    f s = Gen.forEach (splitlinesKeep s) f := by
  have : ∀ s acc, f (acc ++ s) = Gen.forEach (splitlinesKeep.go s acc) f := by
    intro s acc
    fun_induction splitlinesKeep.go s acc with
    | case1 => simp [h0]
    | case2 acc h => simp
    | case3 s acc ih =>
      rw [Gen.forEach_cons, ← ih]
      have := hf (acc ++ [0x0D]) s 0x0A (by decide) (by simp)
      simpa using this
    | case4 c s acc hne hb ih =>
      rw [Gen.forEach_cons, ← ih]
      apply hf acc s c hb
      rintro ⟨rfl, h⟩
      cases s with
      | nil => simp at h
      | cons d s => simp at h; subst h; exact hne s rfl rfl
    | case5 c s acc hne hb ih =>
      rw [← ih]; simp
  simpa [splitlinesKeep] using this s []

theorem cut_lines (E : Env F) (hm : Bool) (s : Str) :
    cut E false hm s = Gen.forEach (splitlinesKeep s) (cut E false hm) := by
  refine forEach_splitlines (cut E false hm) rfl ?_ s
  intro a b c hc hcr
  rw [show a ++ c :: b = (a ++ [c]) ++ b by simp]
  apply cut_append
  intro x y hx hy
  simp at hx; subst hx
  exact ⟨by simp [isWordCh_of_lineBreak c hc], fun h => hcr ⟨h.1, h.2 ▸ hy⟩⟩

theorem mapOut_andThen {α β} (f : α → List β) (g h : Gen α) :
    (Gen.andThen g h).mapOut f = Gen.andThen (g.mapOut f) (h.mapOut f) := by
  obtain ⟨go, ge⟩ := g
  cases ge <;> simp [Gen.andThen, Gen.mapOut]

theorem mapOut_forEach {α β γ} (f : β → List γ) (l : List α) (k : α → Gen β) :
    (Gen.forEach l k).mapOut f = Gen.forEach l (fun a => (k a).mapOut f) := by
  induction l with
  | nil => rfl
  | cons a l ih => rw [Gen.forEach_cons, mapOut_andThen, ih]; rfl

theorem cutForSearch_lines (E : Env F) (hm : Bool) (s : Str) :
    cutForSearch E hm s = Gen.forEach (splitlinesKeep s) (cutForSearch E hm) := by
  unfold cutForSearch
  rw [cut_lines E hm s, mapOut_forEach]

/-- The pool against a serial loop. -/
theorem poolMap_spec {α β} (parts : List α) (k : α → Gen β) (r : Except PyErr (List (List β)))
    (h : PoolMap (fun p => (k p).toList) parts r) :
    (∀ ts, Gen.forEach parts k = Gen.ok ts → yieldAll r = Gen.ok ts) ∧
    ((Gen.forEach parts k).err ≠ none → ∃ p ∈ parts, ∃ e, (k p).err = some e ∧ yieldAll r = Gen.raise e) := by
  cases h with
  | ok rs h =>
    have : Gen.forEach parts k = Gen.ok rs.flatten := by
      induction parts generalizing rs with
      | nil => simp at h; subst h; rfl
      | cons p parts ih =>
        cases rs with
        | nil => simp at h
        | cons x rs =>
          simp at h
          have hk : k p = Gen.ok x := by
            have h1 := h.1
            unfold Gen.toList at h1
            cases he : (k p).err with
            | none => rw [he] at h1; simp at h1; rw [Gen.eq_ok_iff]; exact ⟨he, h1⟩
            | some e => rw [he] at h1; simp at h1
          rw [Gen.forEach_cons, hk, ih rs h.2]; simp
    rw [this]
    refine ⟨fun ts h => h, by simp⟩
  | err p e hp he =>
    have hke : (k p).err = some e := by
      unfold Gen.toList at he
      cases h : (k p).err with
      | none => rw [h] at he; simp at he
      | some e' => rw [h] at he; simp at he; rw [he]
    refine ⟨?_, fun _ => ⟨p, hp, e, hke, rfl⟩⟩
    intro ts hts
    exfalso
    have : ∀ a ∈ parts, (k a).err = none := by
      intro a ha
      have h0 : (Gen.forEach parts k).err = none := by rw [hts]; rfl
      clear hts hp
      induction parts with
      | nil => simp at ha
      | cons q parts ih =>
        rw [Gen.forEach_cons, Gen.andThen_err_none] at h0
        rcases List.mem_cons.mp ha with rfl | ha
        · exact h0.1
        · exact ih ha h0.2
    rw [this p hp] at hke; simp at hke

/-! ## Full mode -/

/-- Drop empty tokens. -/
def dropEmpty (w : Str) : List Str := if w = [] then [] else [w]

theorem flatMap_dropEmpty (l : List Str) : l.flatMap dropEmpty = l.filter (fun w => w ≠ []) := by
  induction l with
  | nil => rfl
  | cons w l ih => by_cases h : w = [] <;> simp [dropEmpty, h, ih]

/-- Fuel and the start flag are irrelevant. -/
theorem splitGo_skip_fuel : ∀ f1 f2 (st1 st2 : Bool) (acc s : Str), s.length ≤ f1 → s.length ≤ f2 →
    reSkipDefault.splitGo f1 st1 acc s = reSkipDefault.splitGo f2 st2 acc s := by
  intro f1
  induction f1 with
  | zero =>
    intro f2 st1 st2 acc s h1 h2
    have : s = [] := List.length_eq_zero_iff.mp (by omega)
    subst this
    rw [splitGo_skip_nil, splitGo_skip_nil]
  | succ f1 ih =>
    intro f2 st1 st2 acc s h1 h2
    cases s with
    | nil => rw [splitGo_skip_nil, splitGo_skip_nil]
    | cons d s =>
      obtain ⟨f2, rfl⟩ : ∃ f, f2 = f + 1 := ⟨f2 - 1, by simp at h2; omega⟩
      simp at h1 h2
      rw [splitGo_skip_cons, splitGo_skip_cons]
      have e : s.tail.length ≤ s.length := by simp
      rw [ih f2 false false [] s.tail (by omega) (by omega), ih f2 false false [] s h1 h2,
        ih f2 false false (acc ++ [d]) s h1 h2]

/-- Splitting after a whitespace character that is not the CR of a CR LF. -/
theorem splitGo_skip_append (fuel : Nat) : ∀ (st : Bool) (acc a b : Str) (c : Ch) (fuel2 : Nat), isSpace c = true →
    ¬ (c = 0x0D ∧ b.head? = some 0x0A) → (a ++ c :: b).length ≤ fuel → b.length ≤ fuel2 →
    (reSkipDefault.splitGo fuel st acc (a ++ c :: b)).filter (fun w => w ≠ []) =
      (reSkipDefault.splitGo fuel st acc (a ++ [c])).filter (fun w => w ≠ []) ++
        (reSkipDefault.splitGo fuel2 true [] b).filter (fun w => w ≠ []) := by
  intro st acc a b c fuel2 hc hcr hf hf2
  induction fuel generalizing st acc a with
  | zero => simp at hf
  | succ fuel ih =>
    cases a with
    | nil =>
      simp only [List.nil_append]
      simp at hf
      rw [splitGo_skip_cons, splitGo_skip_cons, if_neg hcr, if_pos hc, if_neg (by simp), if_pos hc, splitGo_skip_nil,
        splitGo_skip_fuel fuel fuel2 false true [] b hf hf2]
      simp [List.filter_cons]
      split <;> simp
    | cons d a =>
      simp only [List.cons_append]
      simp only [List.cons_append, List.length_cons] at hf
      rw [splitGo_skip_cons, splitGo_skip_cons]
      by_cases hd : d = 0x0D ∧ (a ++ c :: b).head? = some 0x0A
      · rw [if_pos hd]
        cases a with
        | nil =>
          simp at hd
          obtain ⟨rfl, rfl⟩ := hd
          rw [if_pos (by simp)]
          simp only [List.nil_append, List.tail_cons, splitGo_skip_nil]
          rw [splitGo_skip_fuel fuel fuel2 false true [] b (by simp at hf; omega) hf2]
          simp [List.filter_cons]
          split <;> simp
        | cons e a =>
          simp at hd
          rw [if_pos (by simp [hd])]
          simp only [List.cons_append, List.tail_cons]
          have := ih false [] a (by simp at hf ⊢; omega)
          rw [List.filter_cons, List.filter_cons, this, List.filter_cons, List.filter_cons]
          simp
          split <;> simp
      · have hd' : ¬ (d = 0x0D ∧ (a ++ [c]).head? = some 0x0A) := by
          cases a with
          | nil => simpa using hd
          | cons e a => simpa using hd
        rw [if_neg hd, if_neg hd']
        by_cases hs : isSpace d = true
        · rw [if_pos hs, if_pos hs]
          have := ih false [] a (by omega)
          rw [List.filter_cons, List.filter_cons, this, List.filter_cons, List.filter_cons]
          simp
          split <;> simp
        · rw [if_neg hs, if_neg hs]
          exact ih false (acc ++ [d]) a (by omega)

/-- Non-empty pieces of a stretch of non-word characters. -/
def skipPieces (s : Str) : List Str := (cutSkip true s).filter (fun w => w ≠ [])

theorem skipPieces_append (a b : Str) (c : Ch) (hc : isSpace c = true) (hcr : ¬ (c = 0x0D ∧ b.head? = some 0x0A)) :
    skipPieces (a ++ c :: b) = skipPieces (a ++ [c]) ++ skipPieces b := by
  unfold skipPieces
  rw [cutSkip_true, cutSkip_true, cutSkip_true]
  unfold RE.split
  have h1 := splitGo_skip_append ((a ++ c :: b).length + 1) true [] a b c (b.length + 1) hc hcr (by omega) (by omega)
  rw [h1]
  congr 1
  rw [splitGo_skip_fuel _ ((a ++ [c]).length + 1) true true [] (a ++ [c]) (by simp) (by omega)]

theorem scan_mapOut {β γ} (p : Ch → Bool) (fW fN : Str → Gen β) (f : β → List γ) (s : Str) :
    (scan p fW fN s).mapOut f = scan p (fun b => (fW b).mapOut f) (fun b => (fN b).mapOut f) s := by
  unfold scan
  rw [mapOut_forEach]
  apply Gen.forEach_congr
  intro b _
  split <;> rfl

theorem cut_full_dropEmpty (E : Env F) (hm : Bool) (s : Str) :
    (cut E true hm s).mapOut dropEmpty =
      scan isWordCh (fun b => (cutAll E.freq b).mapOut dropEmpty) (fun b => Gen.ok (skipPieces b)) s := by
  rw [cut_eq_scan, scan_mapOut]
  congr 1
  funext b
  rw [Gen.mapOut_ok, flatMap_dropEmpty]; rfl

/-- Scanning splits after a line break. -/
theorem scan_split_space {β} (p : Ch → Bool) (fW : Str → Gen β) (tok : Str → List β) (hnil : tok [] = []) (c : Ch)
    (hpc : p c = false) (b : Str)
    (htok : ∀ (u v : Str), (∀ d, v.head? = some d → b.head? = some d) → tok (u ++ c :: v) = tok (u ++ [c]) ++ tok v) (a : Str) :
    scan p fW (fun b => Gen.ok (tok b)) (a ++ c :: b) =
      Gen.andThen (scan p fW (fun b => Gen.ok (tok b)) (a ++ [c])) (scan p fW (fun b => Gen.ok (tok b)) b) := by
  have hbase : ∀ u : Str, (∀ d ∈ u, p d = false) →
      scan p fW (fun b => Gen.ok (tok b)) (u ++ c :: b) =
        Gen.andThen (scan p fW (fun b => Gen.ok (tok b)) (u ++ [c])) (scan p fW (fun b => Gen.ok (tok b)) b) := by
    intro u hu
    have huc : ∀ d ∈ u ++ [c], p d = false := by
      intro d hd
      rcases List.mem_append.mp hd with h | h
      · exact hu d h
      · simp at h; subst h; exact hpc
    rw [show u ++ c :: b = (u ++ [c]) ++ b by simp, scan_nonword_prefix p fW tok (u ++ [c]) b hnil huc]
    · congr 1
      have := scan_nonword p fW (fun b => Gen.ok (tok b)) (u ++ [c]) [] (by simp) huc (by simp)
      rw [List.append_nil] at this
      rw [this, scan_nil]; simp
    · intro v _ hv
      have := htok u v (by
        intro d hd
        cases v with
        | nil => simp at hd
        | cons e v => simp at hd; subst hd; obtain ⟨t, rfl⟩ := hv; rfl)
      simpa using this
  refine scan_ind (P := fun a => scan p fW (fun b => Gen.ok (tok b)) (a ++ c :: b) =
      Gen.andThen (scan p fW (fun b => Gen.ok (tok b)) (a ++ [c])) (scan p fW (fun b => Gen.ok (tok b)) b)) p ?_ ?_ ?_ a
  · exact hbase [] (by simp)
  · intro u rest hu hp hr ih
    have hh : ∀ tl : Str, ∀ d, (rest ++ c :: tl).head? = some d → p d = false := by
      intro tl d hd
      cases rest with
      | nil => simp at hd; subst hd; exact hpc
      | cons e rest => simp at hd; subst hd; exact hr e rfl
    rw [List.append_assoc, List.append_assoc, scan_word p _ _ u _ hu hp (hh b), scan_word p _ _ u _ hu hp (hh []), ih,
      Gen.andThen_assoc]
  · intro u rest hu hp hr ih
    cases rest with
    | nil => simpa using hbase u hp
    | cons e rest =>
      have he := hr e rfl
      rw [List.append_assoc, List.append_assoc, scan_nonword p _ _ u _ hu hp (by simp [he]),
        scan_nonword p _ _ u _ hu hp (by simp [he]), ih, Gen.andThen_assoc]

theorem cut_full_lines (E : Env F) (hm : Bool) (s : Str) :
    (cut E true hm s).mapOut dropEmpty =
      Gen.forEach (splitlinesKeep s) (fun l => (cut E true hm l).mapOut dropEmpty) := by
  refine forEach_splitlines (fun l => (cut E true hm l).mapOut dropEmpty) rfl ?_ s
  intro a b c hc hcr
  simp only [cut_full_dropEmpty]
  apply scan_split_space
  · decide
  · exact isWordCh_of_lineBreak c hc
  · intro u v hv
    apply skipPieces_append u v c (isSpace_of_lineBreak c hc)
    rintro ⟨h1, h2⟩
    exact hcr ⟨h1, hv _ h2⟩

end Jieba
