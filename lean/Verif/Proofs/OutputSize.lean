import Verif.Proofs.CutAllExact
import Mathlib.Algebra.BigOperators.Intervals
/-!
Helper lemmas for `Props/OutputSize`: how many tokens there are.
-/

namespace Jieba
open Jieba.Spec

theorem length_le_flatten (l : List Str) (h : ∀ w ∈ l, w ≠ []) : l.length ≤ l.flatten.length := by
  induction l with
  | nil => simp
  | cons w l ih =>
    have h1 : 1 ≤ w.length := List.length_pos_iff.mpr (h w (by simp))
    have h2 := ih (fun x hx => h x (by simp [hx]))
    simp only [List.length_cons, List.flatten_cons, List.length_append]
    omega

theorem grams_length (freq : Freq) (n : Nat) (w : Str) : (grams freq n w).length ≤ if n < w.length then w.length - (n - 1) else 0 := by
  unfold grams
  split
  · refine le_trans (List.length_filter_le _ _) ?_
    simp
  · simp

theorem grams_each (freq : Freq) (n : Nat) (w : Str) : ∀ g ∈ grams freq n w, g.length ≤ n := by
  intro g hg
  unfold grams at hg
  split at hg
  · obtain ⟨i, _, rfl⟩ := List.mem_map.mp (List.mem_of_mem_filter hg)
    simp [slice]; omega
  · simp at hg

theorem flatten_length_le (l : List Str) (n : Nat) (h : ∀ g ∈ l, g.length ≤ n) : l.flatten.length ≤ l.length * n := by
  induction l with
  | nil => simp
  | cons w l ih =>
    have h1 := h w (by simp)
    have h2 := ih (fun x hx => h x (by simp [hx]))
    simp only [List.length_cons, List.flatten_cons, List.length_append, Nat.add_mul]
    omega

theorem search_word_count (freq : Freq) (w : Str) (hw : w ≠ []) :
    (grams freq 2 w ++ grams freq 3 w ++ [w]).length ≤ 2 * w.length ∧
    (grams freq 2 w ++ grams freq 3 w ++ [w]).flatten.length ≤ 6 * w.length := by
  have hl : 1 ≤ w.length := List.length_pos_iff.mpr hw
  have h2 := grams_length freq 2 w
  have h3 := grams_length freq 3 w
  have e2 := flatten_length_le _ 2 (grams_each freq 2 w)
  have e3 := flatten_length_le _ 3 (grams_each freq 3 w)
  simp only [List.length_append, List.flatten_append, List.flatten_cons, List.flatten_nil, List.length_cons, List.length_nil]
  constructor
  · split at h2 <;> split at h3 <;> omega
  · split at h2 <;> split at h3 <;> omega

theorem search_count (freq : Freq) (l : List Str) (h : ∀ w ∈ l, w ≠ []) :
    (l.flatMap (fun w => grams freq 2 w ++ grams freq 3 w ++ [w])).length ≤ 2 * l.flatten.length ∧
    (l.flatMap (fun w => grams freq 2 w ++ grams freq 3 w ++ [w])).flatten.length ≤ 6 * l.flatten.length := by
  induction l with
  | nil => simp
  | cons w l ih =>
    obtain ⟨i1, i2⟩ := ih (fun x hx => h x (by simp [hx]))
    obtain ⟨j1, j2⟩ := search_word_count freq w (h w (by simp))
    rw [List.flatMap_cons, List.flatten_append, List.flatten_cons, List.length_append (as := w), List.length_append (bs := List.flatMap _ l),
      List.length_append (bs := (List.flatMap _ l).flatten)]
    omega

theorem gramSpans_length (freq : Freq) (n : Nat) (w : Str) (start : Nat) :
    (gramSpans freq n w start).length ≤ if n < w.length then w.length - (n - 1) else 0 := by
  unfold gramSpans
  split
  · rw [List.length_map]
    refine le_trans (List.length_filter_le _ _) ?_
    simp
  · simp

theorem tokenizeLoop_count (freq : Freq) (search : Bool) (l : List Str) (h : ∀ w ∈ l, w ≠ []) (start : Nat) :
    (tokenizeLoop freq search l start).length ≤ 2 * l.flatten.length := by
  induction l generalizing start with
  | nil => simp [tokenizeLoop]
  | cons w l ih =>
    have hl : 1 ≤ w.length := List.length_pos_iff.mpr (h w (by simp))
    have i := ih (fun x hx => h x (by simp [hx])) (start + w.length)
    have h2 := gramSpans_length freq 2 w start
    have h3 := gramSpans_length freq 3 w start
    unfold tokenizeLoop
    simp only [List.length_append, List.length_cons, List.flatten_cons]
    cases search
    · simp only [Bool.false_eq_true, if_false, List.length_nil]; omega
    · simp only [if_true, List.length_append]
      split at h2 <;> split at h3 <;> omega

/-! ## Full mode -/

/-- A pending run of letters counts one. -/
def pending (st : AllState) : Nat := if st.engScan then 1 else 0

theorem foldl_engScan (l : List Nat) (st : AllState) :
    (l.foldl (fun st (j : Nat) => { st with oldJ := (j : Int) }) st).engScan = st.engScan := by
  induction l generalizing st with
  | nil => rfl
  | cons j l ih => rw [List.foldl_cons, ih]

theorem cutAllStep_count (s : Str) (st : AllState) (k : Nat) (L : List Nat) (B : Nat) (hB : 1 ≤ B)
    (hL : (L.filter (fun j => k < j)).length ≤ B) :
    (cutAllStep s st k L).1.length + pending (cutAllStep s st k L).2 ≤ pending st + B := by
  unfold cutAllStep pending
  obtain ⟨oldJ, eng, buf⟩ := st
  have hfl : (eng && !reEng.isMatch (slice s k (k + 1))) = true → eng = true := by simp +contextual
  simp only
  generalize (eng && !reEng.isMatch (slice s k (k + 1))) = fl at hfl ⊢
  split
  · next j =>
    by_cases ho : oldJ < (k : Int)
    · by_cases hm : reEng.isMatch (slice s k (j + 1)) = true
      · cases fl <;> cases eng <;> simp [ho, hm] at hfl ⊢ <;> omega
      · cases fl <;> cases eng <;> simp [ho, hm] at hfl ⊢ <;> omega
    · by_cases hkj : k < j
      · cases fl <;> cases eng <;> simp [ho, hkj] at hfl ⊢ <;> omega
      · cases fl <;> cases eng <;> simp [ho, hkj] at hfl ⊢ <;> omega
  · simp only [List.length_append, List.length_map, foldl_engScan]
    cases fl <;> cases eng <;> simp at hfl ⊢ <;> omega

theorem cutAllLoop_count (s : Str) (B : Nat) (hB : 1 ≤ B) (dag : List (List Nat)) : ∀ (st : AllState) (k : Nat),
    (∀ (i : Nat) (L : List Nat), dag[i]? = some L → (L.filter (fun j => k + i < j)).length ≤ B) →
    (cutAllLoop s st k dag).length ≤ pending st + dag.length * B := by
  induction dag with
  | nil =>
    intro st k _
    unfold cutAllLoop pending
    split <;> simp
  | cons L dag ih =>
    intro st k h
    have h1 := cutAllStep_count s st k L B hB (by simpa using h 0 L rfl)
    have h2 := ih (cutAllStep s st k L).2 (k + 1) (fun i L' hi => by
      have := h (i + 1) L' (by simpa using hi)
      rwa [show k + (i + 1) = k + 1 + i by omega] at this)
    unfold cutAllLoop
    rw [List.length_append, List.length_cons, Nat.add_mul]
    omega

theorem dagRow_count (freq : Freq) (n : Nat) (hn : ∀ w, DictWord freq w → w.length ≤ n) (s : Str) (k : Nat) (hk : k < s.length) :
    ((dagRow freq s k).filter (fun j => k < j)).length ≤ max 1 (n - 1) := by
  have hmem : ∀ x ∈ (dagRow freq s k).filter (fun j => k < j), x ∈ List.range' (k + 1) (n - 1) := by
    intro x hx
    obtain ⟨h1, h2⟩ := List.mem_filter.mp hx
    have h2 : k < x := by simpa using h2
    obtain ⟨-, hb⟩ := dagRow_bounds freq s k hk
    have hb := hb x h1
    rcases dagRow_mem freq s k x hk h1 with h | h
    · have := hn _ h
      rw [show (slice s k (x + 1)).length = x + 1 - k by simp [slice]; omega] at this
      rw [List.mem_range'_1]
      omega
    · omega
  have hnd : ((dagRow freq s k).filter (fun j => k < j)).Nodup := by
    refine List.Nodup.filter _ ?_
    unfold dagRow
    obtain ⟨m, h1, -⟩ := dagLoop_spec freq s k (s.length + 1) k [] (by omega)
    simp only
    split
    · simp
    · rw [h1, List.nil_append]
      exact List.Nodup.filter _ (List.nodup_range' (step := 1))
  have := (List.Nodup.subperm hnd hmem).length_le
  rw [List.length_range'] at this
  omega

theorem cutAll_tokens (freq : Freq) (n : Nat) (hn : ∀ w, DictWord freq w → w.length ≤ n) (s : Str) :
    (cutAll freq s).out.length ≤ s.length * max 1 (n - 1) := by
  have h := cutAllLoop_count s (max 1 (n - 1)) (by omega) (getDAG freq s) ⟨-1, false, []⟩ 0 (by
    intro i L hi
    have hl : i < s.length := by
      have := (List.getElem?_eq_some_iff.mp hi).1
      simpa [getDAG] using this
    rw [getDAG_get freq s i hl] at hi
    cases hi
    simpa using dagRow_count freq n hn s i hl)
  have e : (getDAG freq s).length = s.length := by simp [getDAG]
  rw [e] at h
  simpa [cutAll, Gen.ok, pending] using h

theorem spaceSplit_count {s : Str} {l : List Str} (h : SpaceSplit s l) : l.length ≤ 2 * s.length + 1 := by
  induction h with
  | last => simp
  | crlf t rest l _ _ ih => simp only [List.length_cons, List.length_append]; omega
  | one t rest c l _ _ _ _ ih => simp only [List.length_cons, List.length_append]; omega

theorem full_count {F : Type _} [LinearOrder F] (E : Env F) (hm : Bool) (n : Nat) (hn : ∀ w, DictWord E.freq w → w.length ≤ n) (s : Str) :
    (cut E true hm s).out.length ≤ s.length * max 3 (n - 1) := by
  refine scan_ind (P := fun s => (cut E true hm s).out.length ≤ s.length * max 3 (n - 1)) isWordCh (by simp [cut_full_ok]; rfl) ?_ ?_ s
  · intro u rest hu hp hr ih
    rw [cut_full_word E hm u rest hu hp hr]
    have h1 := cutAll_tokens E.freq n hn u
    have h2 : u.length * max 1 (n - 1) ≤ u.length * max 3 (n - 1) := Nat.mul_le_mul_left _ (by omega)
    have h3 : (Gen.andThen (cutAll E.freq u) (cut E true hm rest)).out = (cutAll E.freq u).out ++ (cut E true hm rest).out := rfl
    rw [h3, List.length_append, List.length_append, Nat.add_mul]
    omega
  · intro u rest hu hp hr ih
    rw [cut_full_nonword E hm u rest hu hp hr, cutSkip_true]
    have h1 := spaceSplit_count (skip_split u)
    have hl : 1 ≤ u.length := List.length_pos_iff.mpr hu
    have h2 : u.length * 3 ≤ u.length * max 3 (n - 1) := Nat.mul_le_mul_left _ (by omega)
    have h3 : (Gen.andThen (Gen.ok (reSkipDefault.split u)) (cut E true hm rest)).out = reSkipDefault.split u ++ (cut E true hm rest).out := rfl
    rw [h3, List.length_append, List.length_append, Nat.add_mul]
    omega

/-! ## A dictionary with many words in one text -/

/-- The words 一, 一一, …, up to `n` characters. -/
def repFreq (n : Nat) : Freq := (List.range n).map (fun j => (List.replicate (j + 1) 0x4E00, 1))

theorem repFreq_get (n m : Nat) (hm : m < n) : PyDict.get? (repFreq n) (List.replicate (m + 1) 0x4E00) = some 1 := by
  unfold repFreq
  have key : ∀ l : List Nat, m ∈ l → PyDict.get? (l.map (fun j => (List.replicate (j + 1) 0x4E00, (1 : Int)))) (List.replicate (m + 1) 0x4E00) = some 1 := by
    intro l
    induction l with
    | nil => simp
    | cons a l ih =>
      intro h
      simp only [List.map_cons, PyDict.get?]
      split
      · rfl
      · next hne =>
        rcases List.mem_cons.mp h with rfl | h
        · exact absurd rfl hne
        · exact ih h
  exact key _ (List.mem_range.mpr hm)

theorem repFreq_keys (n : Nat) (w : Str) (h : PyDict.has (repFreq n) w = true) : ∃ m, m < n ∧ w = List.replicate (m + 1) 0x4E00 := by
  have := (PyDict.mem_keys_iff _ _).mpr h
  unfold repFreq at this
  simp only [PyDict.keys, List.map_map, List.mem_map, List.mem_range, Function.comp] at this
  obtain ⟨m, h1, h2⟩ := this
  exact ⟨m, h1, h2.symm⟩

end Jieba
