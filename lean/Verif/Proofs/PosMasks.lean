import Verif.Data.PosMasks
import Verif.Proofs.PosNumbers
import Verif.Proofs.Bits
import Verif.Spec.PosKnown
/-!
# The shipped tables of the POS tagger: which characters have an emission probability
-/

namespace Jieba.PosData
open Jieba Jieba.Pos Jieba.Spec

/-- The characters of a part of a row as bits. -/
def maskOf : List Nat → Nat
  | [] => 0
  | e :: l => Nat.lor (Nat.shiftLeft 1 (code e)) (maskOf l)

theorem maskOf_testBit (l : List Nat) (c : Nat) : (maskOf l).testBit c = true ↔ c ∈ l.map code := by
  induction l with
  | nil => simp [maskOf]
  | cons e l ih =>
    show ((1 <<< code e) ||| maskOf l).testBit c = true ↔ _
    rw [Nat.testBit_or, testBit_one_shift]
    simp only [Bool.or_eq_true, decide_eq_true_eq, List.map_cons, List.mem_cons, ih]

/-- The characters of a row as bits. -/
def rowMask : List (List Nat) → Nat
  | [] => 0
  | r :: rs => Nat.lor (maskOf r) (rowMask rs)

theorem rowMask_testBit (r : List (List Nat)) (c : Nat) : (rowMask r).testBit c = true ↔ c ∈ r.flatten.map code := by
  induction r with
  | nil => simp [rowMask]
  | cons e l ih =>
    show ((maskOf e) ||| rowMask l).testBit c = true ↔ _
    rw [Nat.testBit_or, Bool.or_eq_true, ih, maskOf_testBit, List.flatten_cons, List.map_append, List.mem_append]

def sameMasks : List (List (List Nat)) → List Nat → Bool
  | [], [] => true
  | r :: rs, m :: ms => match Nat.beq (rowMask r) (Nat.shiftLeft m 0x4E00) with
    | true => sameMasks rs ms
    | false => false
  | _, _ => false

theorem sameMasks_spec (rs : List (List (List Nat))) (ms : List Nat) (h : sameMasks rs ms = true) : rs.map rowMask = ms.map (· <<< 0x4E00) := by
  induction rs generalizing ms with
  | nil => cases ms with
    | nil => rfl
    | cons m ms => cases h
  | cons r rs ih =>
    cases ms with
    | nil => cases h
    | cons m ms =>
      unfold sameMasks at h
      split at h
      · next e =>
        rw [List.map_cons, List.map_cons, ih ms h]
        exact congrArg (· :: _) (Nat.eq_of_beq_eq_true e)
      · cases h

theorem masks_B : sameMasks emitB (masks.take 64) = true := by decide +kernel
theorem masks_E : sameMasks emitE ((masks.drop 64).take 64) = true := by decide +kernel
theorem masks_M : sameMasks emitM ((masks.drop 128).take 64) = true := by decide +kernel
theorem masks_S : sameMasks emitS (masks.drop 192) = true := by decide +kernel

theorem masks_length : masks.length = 256 := by decide +kernel

theorem masks_ok : emitRows.map rowMask = masks.map (· <<< 0x4E00) := by
  have e : masks = masks.take 64 ++ ((masks.drop 64).take 64 ++ ((masks.drop 128).take 64 ++ masks.drop 192)) := by
    have h1 : masks.drop 128 = (masks.drop 64).drop 64 := by rw [List.drop_drop]
    have h2 : masks.drop 192 = (masks.drop 128).drop 64 := by rw [List.drop_drop]
    rw [h2, List.take_append_drop, h1, List.take_append_drop, List.take_append_drop]
  rw [e]
  simp only [emitRows, List.map_append]
  rw [sameMasks_spec _ _ masks_B, sameMasks_spec _ _ masks_E, sameMasks_spec _ _ masks_M, sameMasks_spec _ _ masks_S]

/-- The bits of a state. -/
def bitsAt (i : Nat) : Nat := masks.getD i 0

theorem keys_emitRow (r : List (List Nat)) : PyDict.keys (emitRow r) = r.flatten.map code := by
  simp [emitRow, PyDict.keys, Function.comp_def]

theorem hasEmission_at (i : Nat) (hi : i < 256) (c : Ch) : HasEmission tables (stateAt i) c ↔ (bitsAt i <<< 0x4E00).testBit c = true := by
  have hl : (emitRows.map emitRow).length = 256 := by rw [List.length_map, emitRows_length]
  have hm := congrArg (fun l => l[i]?) masks_ok
  have h1 : i < emitRows.length := by rw [emitRows_length]; exact hi
  have h2 : i < masks.length := by rw [masks_length]; exact hi
  simp only [List.getElem?_map, List.getElem?_eq_getElem h1, List.getElem?_eq_getElem h2, Option.map_some, Option.some.injEq] at hm
  have hb : bitsAt i = masks[i] := by rw [bitsAt, List.getD_eq_getElem?_getD, List.getElem?_eq_getElem h2, Option.getD_some]
  rw [hb, ← hm, rowMask_testBit, ← keys_emitRow, PyDict.mem_keys_iff]
  constructor
  · rintro ⟨em, h, hc⟩
    obtain ⟨j, hj, e, h⟩ := (get_zip _ hl _ em).mp h
    cases stateAt_inj hi hj e
    rw [List.getElem?_map, List.getElem?_eq_getElem h1, Option.map_some, Option.some.injEq] at h
    rw [h]; exact hc
  · intro h
    refine ⟨emitRow (emitRows[i]'h1), (get_zip _ hl _ _).mpr ⟨i, hi, rfl, ?_⟩, h⟩
    rw [List.getElem?_map, List.getElem?_eq_getElem h1, Option.map_some]

theorem hasEmission_state (y : PState) (c : Ch) (h : HasEmission tables y c) : ∃ i, i < 256 ∧ y = stateAt i := by
  obtain ⟨em, h, -⟩ := h
  obtain ⟨i, hi, e, -⟩ := (get_zip _ (by rw [List.length_map, emitRows_length]) y em).mp h
  exact ⟨i, hi, e⟩

/-! ## Characters with an emission probability -/

theorem or_testBit (l : List Nat) (c : Nat) : (l.foldr Nat.lor 0).testBit c = true ↔ ∃ i, i < l.length ∧ (l.getD i 0).testBit c = true := by
  induction l with
  | nil => simp
  | cons m l ih =>
    show (m ||| l.foldr Nat.lor 0).testBit c = true ↔ _
    rw [Nat.testBit_or, Bool.or_eq_true, ih]
    constructor
    · rintro (h | ⟨i, h1, h2⟩)
      · exact ⟨0, by simp, h⟩
      · exact ⟨i + 1, by simpa using h1, h2⟩
    · rintro ⟨i, h1, h2⟩
      cases i with
      | zero => exact Or.inl h2
      | succ i => exact Or.inr ⟨i, by simpa using h1, h2⟩

theorem allMask_ok : masks.foldr Nat.lor 0 = allMask := by decide +kernel

theorem knows_iff (c : Ch) : Knows tables c ↔ (allMask <<< 0x4E00).testBit c = true := by
  rw [← allMask_ok, Nat.testBit_shiftLeft, Bool.and_eq_true, or_testBit, masks_length]
  constructor
  · rintro ⟨y, h⟩
    obtain ⟨i, hi, rfl⟩ := hasEmission_state y c h
    rw [hasEmission_at i hi, Nat.testBit_shiftLeft, Bool.and_eq_true] at h
    exact ⟨h.1, i, hi, h.2⟩
  · rintro ⟨h1, i, hi, h2⟩
    refine ⟨stateAt i, (hasEmission_at i hi c).mpr ?_⟩
    rw [Nat.testBit_shiftLeft, Bool.and_eq_true]
    exact ⟨h1, h2⟩

/-! ## Characters with a list of states -/

theorem listMask_ok : bitsOf (chars.map (· % 65536)) = listMask <<< 0x4E00 := by
  simp only [chars, List.map_append, bitsOf_append]
  decide +kernel

theorem hasList_iff (c : Ch) : HasList tables c ↔ (listMask <<< 0x4E00).testBit c = true := by
  rw [← listMask_ok, bitsOf_testBit]
  show (PyDict.has (chars.map charEntry) c = true) ↔ _
  rw [← PyDict.mem_keys_iff]
  simp [PyDict.keys, Function.comp_def, charEntry]

/-! ## Lists and emission probabilities compared -/

/-- The states with an emission probability for U+4E00 + `x`, as bits. -/
noncomputable def column (x : Nat) (ms : List Nat) : Nat :=
  List.rec (motive := fun _ => Nat) 0 (fun m _ r => Nat.add (Nat.land (Nat.shiftRight m x) 1) (Nat.mul 2 r)) ms

theorem column_testBit (x : Nat) (ms : List Nat) (i : Nat) : (column x ms).testBit i = (ms.getD i 0).testBit x := by
  induction ms generalizing i with
  | nil => simp [column]
  | cons m ms ih =>
    show (((m >>> x) &&& 1) + 2 * column x ms).testBit i = _
    have h1 : (m >>> x) &&& 1 = (m.testBit x).toNat := by
      rw [Nat.testBit, Nat.and_comm, Nat.one_and_eq_mod_two]
      rcases Nat.mod_two_eq_zero_or_one (m >>> x) with h | h <;> rw [h] <;> rfl
    rw [h1]
    cases i with
    | zero =>
      rw [Nat.testBit_zero]
      cases h : m.testBit x
      · simp [h]
      · have : (true.toNat + 2 * column x ms) % 2 = 1 := by simp
        rw [this]; simp [h]
    | succ i =>
      rw [Nat.testBit_succ]
      have : ((m.testBit x).toNat + 2 * column x ms) / 2 = column x ms := by
        cases m.testBit x
        · simp
        · show (1 + 2 * column x ms) / 2 = _
          omega
      rw [this, ih]; rfl

def diffOf (c : Nat) : List (Nat × Nat) → Nat
  | [] => 0
  | (a, d) :: l => match Nat.beq a c with
    | true => d
    | false => diffOf c l

/-- The list of an entry has the states with an emission probability, with the exceptions in `odd`. -/
noncomputable def entryOk (n : Nat) : Bool :=
  Nat.ble 0x4E00 (n % 65536) && Nat.beq (Nat.xor (column (Nat.sub (n % 65536) 0x4E00) masks) (bitsOf (unpack (n / 65536)))) (diffOf (n % 65536) odd) &&
    (Nat.beq (n % 65536) 0x8ddb || Nat.beq (Nat.land (diffOf (n % 65536) odd) (bitsOf (unpack (n / 65536)))) 0)

theorem entries0 : chars0.all entryOk = true := by decide +kernel
theorem entries1 : chars1.all entryOk = true := by decide +kernel
theorem entries2 : chars2.all entryOk = true := by decide +kernel
theorem entries3 : chars3.all entryOk = true := by decide +kernel
theorem entries4 : chars4.all entryOk = true := by decide +kernel
theorem entries5 : chars5.all entryOk = true := by decide +kernel
theorem entries6 : chars6.all entryOk = true := by decide +kernel
theorem entries7 : chars7.all entryOk = true := by decide +kernel
theorem entries8 : chars8.all entryOk = true := by decide +kernel
theorem entries9 : chars9.all entryOk = true := by decide +kernel
theorem entries10 : chars10.all entryOk = true := by decide +kernel
theorem entries11 : chars11.all entryOk = true := by decide +kernel
theorem entries12 : chars12.all entryOk = true := by decide +kernel
theorem entries13 : chars13.all entryOk = true := by decide +kernel
theorem entries14 : chars14.all entryOk = true := by decide +kernel
theorem entries15 : chars15.all entryOk = true := by decide +kernel
theorem entries16 : chars16.all entryOk = true := by decide +kernel

theorem entries_ok (n : Nat) (h : n ∈ chars) : entryOk n = true := by
  have : chars.all entryOk = true := by
    simp only [chars, List.all_append, entries0, entries1, entries2, entries3, entries4, entries5, entries6, entries7, entries8, entries9,
      entries10, entries11, entries12, entries13, entries14, entries15, entries16, Bool.and_self]
  exact List.all_eq_true.mp this n h

theorem unpackGo_lt (fuel n : Nat) : ∀ j ∈ unpackGo fuel n, j < 256 := by
  induction fuel generalizing n with
  | zero => simp [unpackGo]
  | succ fuel ih =>
    match n with
    | 0 => simp [unpackGo]
    | 1 => simp [unpackGo]
    | m + 2 =>
      simp only [unpackGo, List.mem_cons]
      rintro j (rfl | h)
      · exact Nat.mod_lt _ (by decide)
      · exact ih _ j h

/-- What the list of a character says about the states with an emission probability. -/
theorem list_bits (c : Ch) (l : List PState) (h : tables.charStates.get? c = some l) :
    ∃ b : Nat, (∀ i, i < 256 → (stateAt i ∈ l ↔ b.testBit i = true)) ∧ (∀ y ∈ l, ∃ i, i < 256 ∧ y = stateAt i) ∧
      (∀ i, i < 256 → ((bitsAt i <<< 0x4E00).testBit c ^^ b.testBit i) = (diffOf c odd).testBit i) ∧
      (c ≠ 0x8ddb → diffOf c odd &&& b = 0) := by
  obtain ⟨n, hn, he⟩ := List.mem_map.mp (mem_get h)
  have hc : c = n % 65536 := (congrArg Prod.fst he).symm
  have hl : l = (unpack (n / 65536)).map stateAt := (congrArg Prod.snd he).symm
  have ok := entries_ok n hn
  unfold entryOk at ok
  rw [Bool.and_eq_true, Bool.and_eq_true, Bool.or_eq_true, ← hc] at ok
  obtain ⟨⟨h1, h2⟩, h3⟩ := ok
  refine ⟨bitsOf (unpack (n / 65536)), ?_, ?_, ?_, ?_⟩
  · intro i hi
    rw [bitsOf_testBit, hl, List.mem_map]
    constructor
    · rintro ⟨j, hj, e⟩
      rw [← stateAt_inj (unpackGo_lt _ _ j hj) hi e]; exact hj
    · intro hj; exact ⟨i, hj, rfl⟩
  · intro y hy
    rw [hl, List.mem_map] at hy
    obtain ⟨j, hj, rfl⟩ := hy
    exact ⟨j, unpackGo_lt _ _ j hj, rfl⟩
  · intro i hi
    have h2 : column (c - 0x4E00) masks ^^^ bitsOf (unpack (n / 65536)) = diffOf c odd := Nat.eq_of_beq_eq_true h2
    rw [← h2, Nat.testBit_xor, column_testBit, Nat.testBit_shiftLeft]
    have : decide (c ≥ 0x4E00) = true := by simpa using Nat.le_of_ble_eq_true h1
    rw [this, Bool.true_and]; rfl
  · intro hne
    rcases h3 with h3 | h3
    · exact absurd (Nat.eq_of_beq_eq_true h3) hne
    · exact Nat.eq_of_beq_eq_true h3

end Jieba.PosData
