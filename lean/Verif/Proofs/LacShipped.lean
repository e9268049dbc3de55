import Verif.Props.PaddleTables
import Verif.Data.LacMask
import Verif.Proofs.Render
/-!
# Loading files of ids and words
-/

namespace Jieba.LacData
open Jieba Jieba.Spec Jieba.Paddle Jieba.Props

theorem strNat_decimal (n : Nat) : strNat n = decimal n := by
  induction n using Nat.strong_induction_on with
  | _ n ih =>
    unfold strNat decimal
    split
    · rfl
    · rw [ih _ (by omega)]

theorem pyInt_strNat (n : Nat) : pyInt (strNat n) = some (n : Int) := by rw [strNat_decimal, pyInt_decimal]

theorem strNat_inj (a b : Nat) (h : strNat a = strNat b) : a = b := by
  have := congrArg pyInt h
  rw [pyInt_strNat, pyInt_strNat, Option.some.injEq] at this
  exact_mod_cast this

theorem strNat_digits (n : Nat) : ∀ c ∈ strNat n, isDigit c = true := by rw [strNat_decimal]; exact decimal_digits n

theorem strNat_ne_nil (n : Nat) : strNat n ≠ [] := by rw [strNat_decimal]; exact decimal_ne_nil n

/-- A word that can stand in such a file. -/
def Plain (w : Str) : Prop := w ≠ [] ∧ 0x09 ∉ w ∧ 0x0A ∉ w

theorem linesOf_kv (reverse : Bool) (es : List (Nat × Str)) (h : ∀ e ∈ es, Plain e.2) :
    KVLines reverse (linesOf es) (es.map (fun e => if reverse then (e.2, strNat e.1) else (strNat e.1, e.2))) := by
  induction es with
  | nil => exact .nil
  | cons e es ih =>
    obtain ⟨i, w⟩ := e
    obtain ⟨h1, h2, h3⟩ := h (i, w) (by simp)
    refine KVLines.pair _ _ _ (strNat i ++ 0x09 :: w) (strNat i) w ?_ ?_ (ih (fun e he => h e (by simp [he])))
    · refine ⟨[], [0x0A], by simp, by simp, ?_, ?_⟩
      · intro c hc
        rw [List.head?_append_of_ne_nil _ (strNat_ne_nil i)] at hc
        have := strNat_digits i c (List.mem_of_mem_head? hc)
        by_contra h
        simp only [Bool.not_eq_false, beq_iff_eq] at h
        subst h; cases this
      · intro c hc
        rw [List.getLast?_append_of_ne_nil _ (by simp), List.getLast?_cons, List.getLast?_eq_some_getLast h1] at hc
        simp only [Option.getD_some, Option.some.injEq] at hc
        have : c ∈ w := hc ▸ List.getLast_mem h1
        by_contra h
        simp only [Bool.not_eq_false, beq_iff_eq] at h
        subst h; exact h3 this
    · refine ⟨by simp, ?_, by simp [List.intercalate, List.intersperse]⟩
      intro f hf
      simp only [List.mem_cons, List.not_mem_nil, or_false] at hf
      rcases hf with rfl | rfl
      · intro hm; exact absurd (strNat_digits i _ hm) (by decide)
      · exact h2

/-- Such a file with different ids and different words loads. -/
theorem load_linesOf (ws ts : List (Nat × Str)) (hw : ∀ e ∈ ws, Plain e.2) (ht : ∀ e ∈ ts, Plain e.2)
    (hw1 : (ws.map Prod.fst).Nodup) (hw2 : (ws.map Prod.snd).Nodup) (ht1 : (ts.map Prod.fst).Nodup) (ht2 : (ts.map Prod.snd).Nodup) :
    Dataset.load (linesOf ws) (linesOf ts) =
      .ok ⟨ws.map (fun e => (e.2, (e.1 : Int))), ws.map (fun e => (strNat e.1, e.2)), ts.map (fun e => (strNat e.1, e.2))⟩ := by
  have hs : ∀ es : List (Nat × Str), (es.map Prod.fst).Nodup → (es.map (fun e => strNat e.1)).Nodup := by
    intro es h
    have : es.map (fun e => strNat e.1) = (es.map Prod.fst).map strNat := by rw [List.map_map]; rfl
    rw [this]
    exact h.map (fun a b h => strNat_inj a b h)
  have rev : ∀ es : List (Nat × Str), (∀ e ∈ es, Plain e.2) → (es.map Prod.snd).Nodup →
      loadKV true pyInt (linesOf es) [] = .ok (es.map (fun e => (e.2, (e.1 : Int)))) := by
    intro es h hn
    refine (C67_load true pyInt _ _ (linesOf_kv true es h) _).mpr ⟨?_, ?_⟩
    · simpa [List.map_map, Function.comp_def] using hn
    · rw [List.forall₂_map_left_iff, List.forall₂_map_right_iff, List.forall₂_same]
      intro e _
      exact ⟨rfl, pyInt_strNat _⟩
  have fwd : ∀ es : List (Nat × Str), (∀ e ∈ es, Plain e.2) → (es.map Prod.fst).Nodup →
      loadKV false some (linesOf es) [] = .ok (es.map (fun e => (strNat e.1, e.2))) := by
    intro es h hn
    refine (C67_load false some _ _ (linesOf_kv false es h) _).mpr ⟨?_, ?_⟩
    · simpa [List.map_map, Function.comp_def] using hs es hn
    · rw [List.forall₂_map_left_iff, List.forall₂_map_right_iff, List.forall₂_same]
      intro e _
      exact ⟨rfl, rfl⟩
  unfold Dataset.load
  rw [rev ws hw hw2, fwd ws hw hw1, rev ts ht ht2, fwd ts ht ht1]
  rfl

/-! ## The shipped files -/

theorem mem_chars (c : Ch) : c ∈ chars ↔ bits.testBit c = true := by rw [← bits_eq, bitsOf_testBit]

theorem chars_small (c : Ch) (h : c ∈ chars) : c < 0xFFE6 := bit_below bits c _ bits_high ((mem_chars c).mp h)

theorem chars_nodup : chars.Nodup := by
  refine nodup_of_pop 16 chars (by rw [bits_eq, count_all, chars_length]) ?_
  intro c hc
  have := chars_small c hc
  unfold Ch at *
  omega

theorem not_blank (c : Ch) (hc : c ∈ [0, 1, 9, 10, 13, 32]) : c ∉ chars := by
  rw [mem_chars]
  revert c
  decide +kernel

theorem words_plain : ∀ e ∈ words, Plain e.2 := by
  intro e he
  simp only [words, List.mem_append, List.mem_map] at he
  rcases he with ⟨p, hp, rfl⟩ | he
  · have hc : p.1 ∈ chars := List.fst_mem_of_mem_zipIdx hp
    refine ⟨by simp, ?_, ?_⟩
    · simp only [List.mem_singleton]; rintro h; exact not_blank 9 (by simp) (h ▸ hc)
    · simp only [List.mem_singleton]; rintro h; exact not_blank 10 (by simp) (h ▸ hc)
  · revert e; unfold Plain; decide +kernel

theorem words_ids : (words.map Prod.fst).Nodup := by
  simp only [words, List.map_append, List.map_map, Function.comp_def]
  rw [List.nodup_append]
  refine ⟨?_, by decide, ?_⟩
  · rw [List.zipIdx_map_snd]; exact List.nodup_range'
  · rw [List.zipIdx_map_snd]
    intro a ha b hb
    rw [List.mem_range', chars_length] at ha
    obtain ⟨i, hi, rfl⟩ := ha
    have : ∀ b ∈ [20935, 20936, 20937, 20938, 20940], 20935 ≤ b := by decide
    have := this b hb
    omega

theorem words_names : (words.map Prod.snd).Nodup := by
  simp only [words, List.map_append, List.map_map, Function.comp_def]
  rw [List.nodup_append]
  have e1 : chars.zipIdx.map (fun e => [e.1]) = chars.map (fun c => [c]) := by
    rw [show (fun e : Nat × Nat => [e.1]) = (fun c => [c]) ∘ Prod.fst from rfl, ← List.map_map, List.zipIdx_map_fst]
  rw [e1]
  refine ⟨chars_nodup.map (fun a b h => by simpa using h), by decide +kernel, ?_⟩
  intro a ha b hb
  obtain ⟨c, -, rfl⟩ := List.mem_map.mp ha
  rintro rfl
  revert hb
  have : ∀ b ∈ ([(20935, lit ['O', 'O', 'V', '_', 'N', 'U', 'M']),
     (20936, lit ['O', 'O', 'V', '_', 'A', 'L', 'P', 'H', 'A']),
     (20937, lit ['O', 'O', 'V', '_', 'A', 'L', 'N', 'U', 'M']),
     (20938, lit ['O', 'O', 'V', '_', 'H', 'A', 'N', 'Z']),
     (20940, lit ['O', 'O', 'V'])] : List (Nat × Str)).map Prod.snd, b.length ≠ 1 := by decide +kernel
  intro hb
  exact this _ hb rfl

theorem tags_plain : ∀ e ∈ tags, Plain e.2 := by unfold Plain; decide +kernel

theorem tags_ids : (tags.map Prod.fst).Nodup := by decide +kernel

theorem tags_names : (tags.map Prod.snd).Nodup := by decide +kernel

/-- The tables. -/
def dataset : Dataset :=
  ⟨words.map (fun e => (e.2, (e.1 : Int))), words.map (fun e => (strNat e.1, e.2)), tags.map (fun e => (strNat e.1, e.2))⟩

theorem dataset_load : Dataset.load (linesOf words) (linesOf tags) = .ok dataset :=
  load_linesOf words tags words_plain tags_plain words_ids words_names tags_ids tags_names

theorem dataset_has (w : Str) : dataset.word2id.has w = true ↔ w ∈ words.map Prod.snd := by
  rw [← PyDict.mem_keys_iff]
  simp only [dataset, PyDict.keys, List.map_map, Function.comp_def]

theorem dataset_known (c : Ch) : dataset.word2id.has [c] = true ↔ c ∈ chars := by
  rw [dataset_has]
  simp only [words, List.map_append, List.map_map, Function.comp_def, List.mem_append]
  constructor
  · rintro (h | h)
    · obtain ⟨p, hp, h⟩ := List.mem_map.mp h
      cases h
      exact List.fst_mem_of_mem_zipIdx hp
    · simp [lit] at h
  · intro h
    left
    obtain ⟨i, hi⟩ := List.mem_iff_getElem?.mp h
    exact List.mem_map.mpr ⟨(c, i), List.mem_zipIdx_iff_getElem?.mpr hi, rfl⟩

theorem dataset_oov : dataset.word2id.get? oov = some 20940 := by
  rw [PyDict.get?_eq_some_iff_mem]
  · refine List.mem_map.mpr ⟨(20940, oov), ?_, rfl⟩
    unfold words
    exact List.mem_append_right _ (by decide)
  · have := words_names
    simpa only [dataset, PyDict.keys, List.map_map, Function.comp_def] using this

theorem ids_strs (es : List (Nat × Str)) (h : (es.map Prod.fst).Nodup) : (PyDict.keys (es.map (fun e => (strNat e.1, e.2)))).Nodup := by
  have : PyDict.keys (es.map (fun e => (strNat e.1, e.2))) = (es.map Prod.fst).map strNat := by
    simp only [PyDict.keys, List.map_map, Function.comp_def]
  rw [this]
  exact h.map (fun a b h => strNat_inj a b h)

theorem dataset_inverse : Inverse dataset.word2id dataset.id2word := by
  intro w n h
  rw [PyDict.get?_eq_some_iff_mem] at h
  · obtain ⟨e, he, h⟩ := List.mem_map.mp h
    cases h
    refine (PyDict.get?_eq_some_iff_mem _ (ids_strs words words_ids) _ _).mpr ?_
    exact List.mem_map.mpr ⟨e, he, rfl⟩
  · have := words_names
    simpa only [dataset, PyDict.keys, List.map_map, Function.comp_def] using this

theorem dataset_label (i : Int) (t : Str) : dataset.id2label.get? (strInt i) = some t ↔ 0 ≤ i ∧ tagNames[i.toNat]? = some t := by
  refine (PyDict.get?_eq_some_iff_mem _ (ids_strs tags tags_ids) _ _).trans ?_
  simp only [tags, List.map_map, List.mem_map, Function.comp_def, Prod.mk.injEq]
  constructor
  · rintro ⟨⟨t', k⟩, hm, h, rfl⟩
    cases i with
    | ofNat n =>
      have : k = n := strNat_inj k n h
      subst this
      exact ⟨by simp, (List.mem_zipIdx_iff_getElem?).mp hm⟩
    | negSucc n =>
      exfalso
      have h0 : (0x2D : Nat) ∈ strNat k := by rw [h]; simp [strInt]
      exact absurd (strNat_digits k _ h0) (by decide)
  · rintro ⟨h0, h⟩
    obtain ⟨n, rfl⟩ := Int.eq_ofNat_of_zero_le h0
    exact ⟨(t, n), List.mem_zipIdx_iff_getElem?.mpr h, rfl, rfl⟩

end Jieba.LacData
