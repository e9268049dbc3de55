import Verif.Model.LacSizes
import Verif.Props.LacShipped
/-!
# C145 — the sizes of the network, and labels as numbers
-/

namespace Jieba.Props
open Jieba Jieba.Spec Jieba.Paddle Jieba.LacData

theorem exists_label_of_id {α β : Type} {R : α → β → Prop} {l : List α} {l' : List β} (h : List.Forall₂ R l l') {b : β} (hb : b ∈ l') :
    ∃ a, R a b := by
  induction h with
  | nil => cases hb
  | cons h1 _ ih =>
    rcases List.mem_cons.mp hb with rfl | hb
    · exact ⟨_, h1⟩
    · exact ih hb

theorem maxInt_fold (is : List Int) (i m : Int) :
    is.foldl (fun m j => if m < j then j else m) i = m ↔ m ∈ i :: is ∧ ∀ j ∈ i :: is, j ≤ m := by
  induction is generalizing i with
  | nil => simp only [List.foldl_nil, List.mem_singleton]; constructor
           · rintro rfl; simp
           · rintro ⟨rfl, -⟩; rfl
  | cons k is ih =>
    rw [List.foldl_cons, ih]
    simp only [List.mem_cons, forall_eq_or_imp]
    split
    · rename_i h
      constructor
      · rintro ⟨h1, h2, h3⟩
        exact ⟨Or.inr h1, by omega, h2, h3⟩
      · rintro ⟨h1, h2, h3, h4⟩
        exact ⟨h1.resolve_left (by omega), h3, h4⟩
    · rename_i h
      constructor
      · rintro ⟨h1, h2, h3⟩
        exact ⟨h1.elim Or.inl (fun h => Or.inr (Or.inr h)), h2, by omega, h3⟩
      · rintro ⟨h1, h2, h3, h4⟩
        refine ⟨?_, h2, h4⟩
        rcases h1 with h1 | h1 | h1
        · exact Or.inl h1
        · exact Or.inl (by omega)
        · exact Or.inr h1

theorem dictSize_ok (d : PyDict Str Int) (n : Int) : dictSize d = .ok n ↔ n - 1 ∈ d.values ∧ ∀ j ∈ d.values, j < n := by
  unfold dictSize
  cases h : d.values with
  | nil =>
    simp only [List.not_mem_nil, false_and, iff_false]
    intro h2; cases h2
  | cons i is =>
    have : (do let m ← maxInt (i :: is); .ok (m + 1) : Except PyErr Int) =
      .ok (is.foldl (fun m j => if m < j then j else m) i + 1) := rfl
    rw [this, Except.ok.injEq, show ∀ a : Int, a + 1 = n ↔ a = n - 1 from fun a => by omega, maxInt_fold]
    simp only [Int.le_sub_one_iff]

theorem dictSize_error (d : PyDict Str Int) (e : PyErr) : dictSize d = .error e ↔ e = .valueError ∧ d = [] := by
  unfold dictSize
  cases d with
  | nil =>
    constructor
    · intro h; cases h; exact ⟨rfl, rfl⟩
    · rintro ⟨rfl, -⟩; rfl
  | cons i is =>
    constructor
    · intro h; cases h
    · rintro ⟨-, h⟩; cases h

theorem values_of_lines (lines : List Str) (ps : List (Str × Str)) (h : KVLines true lines ps) (d : PyDict Str Int)
    (hd : loadKV true pyInt lines [] = .ok d) (i : Int) : i ∈ d.values ↔ ∃ p ∈ ps, pyInt p.2 = some i := by
  have h2 := ((C67_load true pyInt lines ps h d).mp hd).2
  clear hd h
  induction h2 with
  | nil => simp [PyDict.values]
  | cons hpq _ ih =>
    simp only [PyDict.values, List.map_cons, List.mem_cons, exists_eq_or_imp] at ih ⊢
    rw [hpq.2, Option.some.injEq]
    exact or_congr eq_comm ih

theorem get_values {V : Type} (d : PyDict Str V) (k : Str) (v : V) (h : d.get? k = some v) : v ∈ d.values := by
  induction d with
  | nil => cases h
  | cons p d ih =>
    obtain ⟨a, b⟩ := p
    simp only [PyDict.values, List.map_cons, List.mem_cons] at ih ⊢
    simp only [PyDict.get?] at h
    split at h
    · cases h; exact Or.inl rfl
    · exact Or.inr (ih h)

/-- C145: `vocab_size` and `num_labels` are one more than the greatest number in the file. -/
theorem C145_size (lines : List Str) (ps : List (Str × Str)) (h : KVLines true lines ps) (d : PyDict Str Int)
    (hd : loadKV true pyInt lines [] = .ok d) (n : Int) :
    dictSize d = .ok n ↔ (∃ p ∈ ps, pyInt p.2 = some (n - 1)) ∧ ∀ p ∈ ps, ∀ i, pyInt p.2 = some i → i < n := by
  rw [dictSize_ok, values_of_lines lines ps h d hd]
  refine and_congr_right fun _ => ?_
  constructor
  · intro h2 p hp i hi
    exact h2 i ((values_of_lines lines ps h d hd i).mpr ⟨p, hp, hi⟩)
  · intro h2 i hi
    obtain ⟨p, hp, hi⟩ := (values_of_lines lines ps h d hd i).mp hi
    exact h2 p hp i hi

/-- C145: they raise ValueError for a file without entries, and nothing else. -/
theorem C145_size_raises (lines : List Str) (ps : List (Str × Str)) (h : KVLines true lines ps) (d : PyDict Str Int)
    (hd : loadKV true pyInt lines [] = .ok d) (e : PyErr) : dictSize d = .error e ↔ e = .valueError ∧ ps = [] := by
  rw [dictSize_error]
  have h2 := ((C67_load true pyInt lines ps h d).mp hd).2
  refine and_congr_right fun _ => ?_
  cases h2 <;> simp

/-- C145: whatever the files, every number that a text is turned into is below `vocab_size`, and it is negative only if the file has negative
numbers: the rows that the network looks up exist. -/
theorem C145_ids (words tags : List Str) (D : Dataset) (hD : Dataset.load words tags = .ok D) (n : Int) (hn : vocabSize D = .ok n)
    (s : Str) (ids : List Int) (h : getVars D s = .ok ids) :
    (∀ i ∈ ids, i < n) ∧
    ∀ ps, KVLines true words ps → (∀ p ∈ ps, ∀ i, pyInt p.2 = some i → 0 ≤ i) → ∀ i ∈ ids, 0 ≤ i := by
  have hv : ∀ i ∈ ids, i ∈ D.word2id.values := by
    rw [getVars, wordToIds_ok] at h
    intro i hi
    obtain ⟨c, hc⟩ := exists_label_of_id h hi
    exact get_values _ _ _ hc
  refine ⟨fun i hi => ((dictSize_ok _ _).mp hn).2 i (hv i hi), ?_⟩
  intro ps hps h0 i hi
  have hw : loadKV true pyInt words [] = .ok D.word2id := by
    unfold Dataset.load at hD
    cases h1 : loadKV true pyInt words [] with
    | error e => rw [h1] at hD; cases hD
    | ok a =>
      rw [h1] at hD
      cases h2 : loadKV false some words [] with
      | error e => rw [h2] at hD; cases hD
      | ok b =>
        rw [h2] at hD
        cases h3 : loadKV true pyInt tags [] with
        | error e => rw [h3] at hD; cases hD
        | ok c =>
          rw [h3] at hD
          cases h4 : loadKV false some tags [] with
          | error e => rw [h4] at hD; cases hD
          | ok d => rw [h4] at hD; cases hD; rfl
  obtain ⟨p, hp, hpi⟩ := (values_of_lines words ps hps _ hw i).mp (hv i hi)
  exact h0 p hp i hpi

/-- The number of a label: its own, or that of 'O'. -/
def LabelId (L : PyDict Str Int) (label : Str) (i : Int) : Prop :=
  L.get? label = some i ∨ (L.get? label = none ∧ L.get? [0x4F] = some i)

theorem labelId_iff (L : PyDict Str Int) (label : Str) (i : Int) :
    L.get? (if L.has label then label else [0x4F]) = some i ↔ LabelId L label i := by
  unfold LabelId PyDict.has
  cases h : L.get? label <;> simp [h]

/-- C145: `label_to_ids` gives one number for every label, its own or, for unknown ones, that of 'O'; with `num_labels` above all of them. -/
theorem C145_labels (L : PyDict Str Int) (labels : List Str) (ids : List Int) :
    labelToIds L labels = .ok ids ↔ List.Forall₂ (LabelId L) labels ids := by
  induction labels generalizing ids with
  | nil => cases ids <;> simp [labelToIds]
  | cons l labels ih =>
    unfold labelToIds index
    cases h : L.get? (if L.has l then l else [0x4F]) with
    | none =>
      constructor
      · intro h; cases h
      · intro h2
        cases h2 with
        | cons h2 _ => rw [(labelId_iff L l _).mpr h2] at h; cases h
    | some j =>
      cases h3 : labelToIds L labels with
      | error e =>
        constructor
        · intro h; cases h
        · intro h2
          cases h2 with
          | cons _ h2 => rw [← ih, h3] at h2; cases h2
      | ok is =>
        constructor
        · intro h4
          cases h4
          exact .cons ((labelId_iff L l _).mp h) ((ih _).mp h3)
        · intro h2
          cases h2 with
          | cons h2 h4 =>
            rw [(labelId_iff L l _).mpr h2] at h
            rw [← ih, h3] at h4
            cases h; cases h4; rfl

theorem C145_labels_below (L : PyDict Str Int) (labels : List Str) (ids : List Int) (h : labelToIds L labels = .ok ids) (n : Int)
    (hn : numLabels L = .ok n) : ids.length = labels.length ∧ ∀ i ∈ ids, i < n := by
  rw [C145_labels] at h
  refine ⟨h.length_eq.symm, fun i hi => ?_⟩
  obtain ⟨c, hc⟩ := exists_label_of_id h hi
  exact ((dictSize_ok _ _).mp hn).2 i (hc.elim (get_values _ _ _) (fun h => get_values _ _ _ h.2))

/-- C145: it raises KeyError if a label is unknown and 'O' is too, and nothing else. -/
theorem C145_labels_raise (L : PyDict Str Int) (labels : List Str) (e : PyErr) :
    labelToIds L labels = .error e ↔ e = .keyError ∧ L.get? [0x4F] = none ∧ ∃ l ∈ labels, L.get? l = none := by
  induction labels with
  | nil => simp [labelToIds]
  | cons l labels ih =>
    unfold labelToIds index
    cases h : L.get? (if L.has l then l else [0x4F]) with
    | none =>
      have h1 : L.get? l = none ∧ L.get? [0x4F] = none := by
        unfold PyDict.has at h
        cases h1 : L.get? l with
        | none => rw [h1] at h; exact ⟨rfl, by simpa using h⟩
        | some a => rw [h1] at h; simp [h1] at h
      constructor
      · intro h; cases h; exact ⟨rfl, h1.2, l, by simp, h1.1⟩
      · rintro ⟨rfl, -⟩; rfl
    | some j =>
      have h1 : ¬ (L.get? [0x4F] = none ∧ L.get? l = none) := by
        rintro ⟨h2, h3⟩
        rw [PyDict.has, h3] at h
        simp [h2] at h
      cases h3 : labelToIds L labels with
      | error e' =>
        rw [h3, Except.error.injEq] at ih
        constructor
        · intro h4
          cases h4
          obtain ⟨a, b, c, d, f⟩ := ih.mp rfl
          exact ⟨a, b, c, by simp [d], f⟩
        · rintro ⟨rfl, b, c, d, f⟩
          rcases List.mem_cons.mp d with rfl | d
          · exact absurd ⟨b, f⟩ h1
          · rw [ih.mpr ⟨rfl, b, c, d, f⟩]; rfl
      | ok is =>
        rw [h3] at ih
        constructor
        · intro h4; cases h4
        · rintro ⟨rfl, b, c, d, f⟩
          rcases List.mem_cons.mp d with rfl | d
          · exact absurd ⟨b, f⟩ h1
          · cases ih.mpr ⟨rfl, b, c, d, f⟩

theorem words_below : ∀ e ∈ words, e.1 < 20941 := by
  intro e he
  simp only [words, List.mem_append, List.mem_map] at he
  rcases he with ⟨p, hp, rfl⟩ | he
  · have := List.snd_lt_of_mem_zipIdx hp
    rw [chars_length] at this
    simp only at this ⊢
    omega
  · revert e; decide

/-- The table of labels that is shipped. -/
theorem labels_shipped : labelTable (linesOf tags) = .ok (tags.map (fun e => (e.2, (e.1 : Int)))) := by
  refine (C67_load true pyInt _ _ (linesOf_kv true tags tags_plain) _).mpr ⟨?_, ?_⟩
  · simpa [List.map_map, Function.comp_def] using tags_names
  · rw [List.forall₂_map_left_iff, List.forall₂_map_right_iff, List.forall₂_same]
    intro e _
    exact ⟨rfl, pyInt_strNat _⟩

/-- C145: with the files that are shipped, the network has 20941 rows for characters and 57 labels; every text has ids, all of them from 0 to 20940. -/
theorem C145_shipped (D : Dataset) (h : Shipped D) :
    vocabSize D = .ok 20941 ∧ (∃ L, labelTable (linesOf tags) = .ok L ∧ numLabels L = .ok 57) ∧
    ∀ s, ∃ ids, getVars D s = .ok ids ∧ ∀ i ∈ ids, 0 ≤ i ∧ i < 20941 := by
  rw [shipped_eq D h]
  have hv : ∀ j ∈ dataset.word2id.values, 0 ≤ j ∧ j < 20941 := by
    intro j hj
    simp only [PyDict.values, dataset, List.map_map, List.mem_map, Function.comp_def] at hj
    obtain ⟨e, he, rfl⟩ := hj
    have := words_below e he
    omega
  refine ⟨(dictSize_ok _ _).mpr ⟨get_values _ _ _ dataset_oov, fun j hj => (hv j hj).2⟩, ⟨_, labels_shipped, by decide +kernel⟩, fun s => ?_⟩
  cases hs : getVars dataset s with
  | error e =>
    rw [getVars, wordToIds_error, PyDict.has, dataset_oov] at hs
    cases hs.2.1
  | ok ids =>
    refine ⟨ids, rfl, fun i hi => hv i ?_⟩
    rw [getVars, wordToIds_ok] at hs
    obtain ⟨c, hc⟩ := exists_label_of_id hs hi
    exact get_values _ _ _ hc

/-- C145: and if the network answers with numbers from 0 to `num_labels` - 1, there is no exception. -/
theorem C145_no_exception (D : Dataset) (h : Shipped D) (L : PyDict Str Int) (hL : labelTable (linesOf tags) = .ok L) (n : Int)
    (hn : numLabels L = .ok n) (net : List Int → Except PyErr (List Int))
    (hnet : ∀ ids, ∃ labels, net ids = .ok labels ∧ ∀ i ∈ labels, 0 ≤ i ∧ i < n) (s : Str) :
    ∃ r, getResult D net s = .ok r := by
  have h57 : n = 57 := by
    rw [labels_shipped, Except.ok.injEq] at hL
    subst hL
    have : numLabels (tags.map (fun e => (e.2, (e.1 : Int)))) = .ok 57 := by decide +kernel
    rw [this, Except.ok.injEq] at hn
    exact hn.symm
  subst h57
  cases hr : getResult D net s with
  | ok r => exact ⟨r, rfl⟩
  | error e =>
    have hm : Stripped s (stripBy isSpace s) := stripped s
    obtain ⟨ids, -, h1⟩ := (C97_raises D h net s _ hm e).mp hr
    obtain ⟨labels, h2, h3⟩ := hnet ids
    rcases h1 with h1 | ⟨labels', h4, -, i, hi, h5⟩
    · rw [h2] at h1; cases h1
    · rw [h2, Except.ok.injEq] at h4
      subst h4
      have := h3 i (List.mem_of_mem_take hi)
      omega

theorem label_known (l : Str) : ∃ i, LabelId (tags.map (fun e => (e.2, (e.1 : Int)))) l i ∧
    dataset.id2label.get? (strInt i) = some (if l ∈ tagNames then l else [0x4F]) := by
  have hn : (PyDict.keys (tags.map (fun e => (e.2, (e.1 : Int))))).Nodup := by
    simpa only [PyDict.keys, List.map_map, Function.comp_def] using tags_names
  by_cases hl : l ∈ tagNames
  · obtain ⟨k, hk⟩ := List.mem_iff_getElem?.mp hl
    refine ⟨(k : Int), Or.inl ((PyDict.get?_eq_some_iff_mem _ hn _ _).mpr ?_), ?_⟩
    · refine List.mem_map.mpr ⟨(k, l), ?_, rfl⟩
      exact List.mem_map.mpr ⟨(l, k), List.mk_mem_zipIdx_iff_getElem?.mpr hk, rfl⟩
    · rw [if_pos hl, dataset_label]
      exact ⟨by omega, hk⟩
  · refine ⟨56, Or.inr ⟨?_, by decide +kernel⟩, ?_⟩
    · have : l ∉ PyDict.keys (tags.map (fun e => (e.2, (e.1 : Int)))) := by
        simp only [PyDict.keys, tags, List.map_map, Function.comp_def]
        rwa [show (fun e : Str × Nat => e.1) = Prod.fst from rfl, List.zipIdx_map_fst]
      rw [PyDict.mem_keys_iff, PyDict.has] at this
      simpa using this
    · rw [if_neg hl, dataset_label]
      exact ⟨by decide, by decide⟩

/-- C145: with these files every list of labels has numbers, and decoded they are the labels again, unknown ones as 'O'. -/
theorem C145_round_trip (D : Dataset) (h : Shipped D) (L : PyDict Str Int) (hL : labelTable (linesOf tags) = .ok L) (labels : List Str) :
    ∃ ids, labelToIds L labels = .ok ids ∧ decodeLabels D ids = .ok (labels.map (fun l => if l ∈ tagNames then l else [0x4F])) := by
  rw [shipped_eq D h]
  rw [labels_shipped, Except.ok.injEq] at hL
  subst hL
  simp only [C145_labels]
  induction labels with
  | nil => exact ⟨[], .nil, rfl⟩
  | cons l labels ih =>
    obtain ⟨ids, h1, h2⟩ := ih
    obtain ⟨i, h3, h4⟩ := label_known l
    refine ⟨i :: ids, .cons h3 h1, ?_⟩
    unfold decodeLabels index
    rw [h4, h2]
    rfl

/-- A sample: a word.dic with the greatest number first, and one with 'OOV' left out of the ids that are used. -/
example : ∃ D, Dataset.load [lit ['7', '\t', '大', '\n'], lit ['2', '\t', 'O', 'O', 'V', '\n'], lit ['x', '\n']] [lit ['0', '\t', 'O']] = .ok D ∧
    vocabSize D = .ok 8 ∧ getVars D (lit ['学', '大']) = .ok [2, 7] := ⟨_, rfl, by decide, by decide⟩

/-- The shipped labels: 'n-B', and an unknown one, which becomes 'O'. -/
example : ∃ L, labelTable (linesOf tags) = .ok L ∧ numLabels L = .ok 57 ∧ labelToIds L [lit ['n', '-', 'B'], lit ['x']] = .ok [14, 56] :=
  ⟨_, labels_shipped, by decide +kernel, by decide +kernel⟩

/-- No entries, no size; and without 'O' an unknown label raises. -/
example : vocabSize ⟨[], [], []⟩ = .error .valueError ∧ labelToIds [(lit ['n'], 3)] [lit ['n'], lit ['x']] = .error .keyError := by decide

end Jieba.Props
