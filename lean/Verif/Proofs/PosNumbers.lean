import Verif.Data.PosNumbers
import Verif.Data.PosStart
import Verif.Proofs.PosData
import Verif.Proofs.HmmShipped
import Verif.Spec.PosShape
/-!
# The shipped tables of the POS tagger with their numbers: shape and size
-/

namespace Jieba.PosData
open Jieba Jieba.Pos Jieba.Spec

theorem mem_get {K V : Type _} [DecidableEq K] {d : PyDict K V} {k : K} {v : V} (h : d.get? k = some v) : (k, v) ∈ d := by
  induction d with
  | nil => simp [PyDict.get?] at h
  | cons kv d ih =>
    unfold PyDict.get? at h
    split at h
    · next e => injection h with h; rw [← e, ← h]; simp
    · simp [ih h]

theorem emitRows_length : emitRows.length = 256 := by decide +kernel

theorem startValues_length : startValues.length = 256 := by decide +kernel

theorem transValues_check : transValues.length = 256 ∧ (List.zipWith (fun n vs => (unpack n).length == vs.length) trans transValues).all id = true := by
  decide +kernel

theorem transRow_keys (n : Nat) (vs : List Nat) (h : (unpack n).length = vs.length) : PyDict.keys (transRow n vs) = (unpack n).map stateAt := by
  unfold transRow PyDict.keys
  rw [List.map_fst_zip (by simp [h])]

theorem keys_zip {V : Type _} (l : List V) (h : l.length = 256) : PyDict.keys (states.zip l : PyDict PState V) = states := by
  unfold PyDict.keys
  rw [List.map_fst_zip (by rw [h, states_length])]

theorem shipped_tables : Shipped tables where
  start := keys_zip _ (by rw [List.length_map, startValues_length])
  emit := keys_zip _ (by rw [List.length_map, emitRows_length])
  trans := by
    obtain ⟨h1, h2⟩ := transValues_check
    have h2' : ∀ i (h : i < (List.zipWith (fun n vs => (unpack n).length == vs.length) trans transValues).length),
        (List.zipWith (fun n vs => (unpack n).length == vs.length) trans transValues)[i] = true := fun i h => by
      rw [List.all_eq_true] at h2
      exact h2 _ (List.getElem_mem h)
    show (states.zip (List.zipWith transRow trans transValues)).map (fun kv => (kv.1, PyDict.keys kv.2)) = _
    refine List.ext_getElem ?_ ?_
    · simp [states_length, trans_length, h1]
    · intro i a b
      have hi : i < 256 := by simp [states_length, trans_length, h1] at a; exact a
      have := h2' i (by simp [trans_length, h1, hi])
      rw [List.getElem_zipWith, beq_iff_eq] at this
      simp only [List.getElem_map, List.getElem_zip, List.getElem_zipWith]
      rw [transRow_keys _ _ this]
  chars := rfl

/-- The row of a state in a table with one row for each state. -/
theorem get_zip {V : Type _} (l : List V) (h : l.length = 256) (y : PState) (v : V) :
    PyDict.get? (states.zip l : PyDict PState V) y = some v ↔ ∃ i, i < 256 ∧ y = stateAt i ∧ l[i]? = some v := by
  rw [PyDict.get?_eq_some_iff_mem _ (by rw [keys_zip l h]; exact states_nodup), List.mem_iff_getElem?]
  constructor
  · rintro ⟨i, hi⟩
    rw [List.getElem?_zip_eq_some] at hi
    have : i < 256 := by rw [← states_length]; exact (List.getElem?_eq_some_iff.mp hi.1).1
    exact ⟨i, this, by simp [stateAt, List.getD_eq_getElem?_getD, hi.1], hi.2⟩
  · rintro ⟨i, hi, rfl, hv⟩
    refine ⟨i, ?_⟩
    rw [List.getElem?_zip_eq_some]
    refine ⟨?_, hv⟩
    have : i < states.length := by rw [states_length]; exact hi
    rw [List.getElem?_eq_getElem this]
    simp [stateAt, List.getD_eq_getElem?_getD, this]

theorem stateAt_inj {i j : Nat} (hi : i < 256) (hj : j < 256) (h : stateAt i = stateAt j) : i = j := by
  have hi' : i < states.length := by rw [states_length]; exact hi
  have hj' : j < states.length := by rw [states_length]; exact hj
  refine (List.Nodup.getElem_inj_iff states_nodup (hi := hi') (hj := hj')).mp ?_
  simpa [stateAt, List.getD_eq_getElem?_getD, hi', hj'] using h

theorem small_rnd (a b : ℕ) (hb : 0 < b) (h : a ≤ 2 ^ 100 * b) : |rnd (-((a : ℕ) / (b : ℕ) : ℚ))| ≤ 2 ^ 100 := by
  have h1 : ((a : ℕ) : ℚ) / (b : ℕ) ≤ (1 : ℕ) * 2 ^ 100 := by
    rw [div_le_iff₀ (by exact_mod_cast hb)]
    have : ((a : ℕ) : ℚ) ≤ ((2 ^ 100 * b : ℕ) : ℚ) := by exact_mod_cast h
    push_cast at this ⊢; linarith
  have h0 : (0 : ℚ) ≤ ((a : ℕ) : ℚ) / (b : ℕ) := by positivity
  rw [rnd_neg, abs_neg, abs_of_nonneg (rnd_nonneg h0)]
  have := FinalSeg.rnd_le_grid 1 (by norm_num) h1
  simpa using this

theorem value_small (e : Nat) : |value e| ≤ 2 ^ 100 := by
  have h : e % 10 ^ 19 < 10 ^ 19 := Nat.mod_lt _ (by norm_num)
  have := small_rnd (e % 10 ^ 19) (10 ^ 17) (by norm_num) (by omega)
  unfold value
  push_cast at this ⊢
  exact this

theorem transValues_small : transValues.all (fun r => r.all (fun v => Nat.ble v (10 ^ 30))) = true := by decide +kernel

theorem startValues_small : startValues.all (fun r => r.all (fun v => Nat.ble v (10 ^ 30))) = true := by decide +kernel

theorem small_ne_min {p : ℚ} (h : |p| ≤ 2 ^ 100) : p ≠ minFloat := by
  rintro rfl
  have h1 := FinalSeg.minFloat_large
  have h2 := (abs_le.mp h).1
  have h3 : (2 : ℚ) ^ 100 < 2 ^ 240 := by norm_num
  linarith

theorem startVal_small (v : Nat) (h : some v ∈ startValues) : |rnd (-((v : ℕ) / 10 ^ 16 : ℚ))| ≤ 2 ^ 100 := by
  have := startValues_small
  rw [List.all_eq_true] at this
  have := Nat.le_of_ble_eq_true (by simpa using this _ h)
  have h := small_rnd v (10 ^ 16) (by norm_num) (by omega)
  push_cast at h
  exact h

theorem moderate : PosModerate tables where
  min := rfl
  start := by
    intro y p h
    obtain ⟨i, hi, rfl, g⟩ := (get_zip _ (by rw [List.length_map, startValues_length]) y p).mp h
    rw [List.getElem?_map, Option.map_eq_some_iff] at g
    obtain ⟨v, hv, rfl⟩ := g
    cases v with
    | none => exact Or.inl rfl
    | some v => exact Or.inr (startVal_small v (List.mem_of_getElem? hv))
  trans := by
    intro x tx y p h h'
    obtain ⟨i, hi, rfl, g⟩ := (get_zip _ (by simp [trans_length, transValues_check.1]) x tx).mp h
    rw [List.getElem?_zipWith_eq_some] at g
    obtain ⟨n, vs, hn, hvs, rfl⟩ := g
    have hm := mem_get h'
    obtain ⟨v, hv, rfl⟩ := List.mem_map.mp (List.of_mem_zip hm).2
    have := transValues_small
    rw [List.all_eq_true] at this
    have := this _ (List.mem_of_getElem? hvs)
    rw [List.all_eq_true] at this
    have := Nat.le_of_ble_eq_true (this v hv)
    have h := small_rnd v (10 ^ 20) (by norm_num) (by omega)
    push_cast at h
    exact h
  emit := by
    intro y em c e h h'
    obtain ⟨i, hi, rfl, g⟩ := (get_zip _ (by rw [List.length_map, emitRows_length]) y em).mp h
    rw [List.getElem?_map, Option.map_eq_some_iff] at g
    obtain ⟨r, hr, rfl⟩ := g
    obtain ⟨x, hx, he⟩ := List.mem_map.mp (mem_get h')
    injection he with _ he
    rw [← he]; exact value_small x

theorem start_check : (List.range 256).all (fun i => (startValues.getD i none).isSome == startMask.testBit i) = true := by decide +kernel

theorem shippedStart : ShippedStart tables := by
  intro i hi p hp
  obtain ⟨j, hj, e, h⟩ := (get_zip _ (by rw [List.length_map, startValues_length]) _ p).mp hp
  cases stateAt_inj hi hj e
  rw [List.getElem?_map, Option.map_eq_some_iff] at h
  obtain ⟨v, hv, rfl⟩ := h
  have := start_check
  rw [List.all_eq_true] at this
  have := this i (by simpa using hi)
  rw [List.getD_eq_getElem?_getD, hv, Option.getD_some, beq_iff_eq] at this
  rw [← this]
  cases v with
  | none => simp
  | some v => simpa using small_ne_min (startVal_small v (List.mem_of_getElem? hv))

end Jieba.PosData
