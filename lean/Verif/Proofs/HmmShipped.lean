import Verif.Data.HmmTables
import Verif.Proofs.HmmPossible
import Verif.Proofs.Bits
/-!
# The shipped tables of finalseg: sizes, and which characters they have
-/

namespace Jieba.HmmData
open Jieba Jieba.FinalSeg Jieba.Spec

theorem value_small (e : Nat) : |value e| ≤ 2 ^ 100 := by
  unfold value
  have h : e % 10 ^ 18 < 10 ^ 18 := Nat.mod_lt _ (by norm_num)
  have h1 : ((e % 10 ^ 18 : ℕ) : ℚ) / 10 ^ 16 ≤ (1 : ℕ) * 2 ^ 100 := by
    have : ((e % 10 ^ 18 : ℕ) : ℚ) ≤ 10 ^ 18 := by exact_mod_cast h.le
    rw [div_le_iff₀ (by norm_num)]
    refine le_trans this ?_
    norm_num
  have h0 : (0 : ℚ) ≤ ((e % 10 ^ 18 : ℕ) : ℚ) / 10 ^ 16 := by positivity
  rw [rnd_neg, abs_neg, abs_of_nonneg (rnd_nonneg h0)]
  have := rnd_le_grid 1 (by norm_num) h1
  simpa using this

theorem moderate : Moderate tables where
  min := rfl
  start := by intro y; cases y <;> decide +kernel
  startS := by decide +kernel
  trans := by
    intro y0 y v h
    cases y0 <;> cases y <;> first | (cases h; decide +kernel) | cases h
  transSS := rfl
  emit := by
    intro y c v h
    simp only [tables, Option.map_eq_some_iff] at h
    obtain ⟨e, -, rfl⟩ := h
    exact value_small e

theorem complete : Complete tables where
  startB := by decide +kernel
  startM := le_refl _
  startE := le_refl _
  trans := by intro a b h; cases a <;> cases b <;> first | rfl | cases h

theorem emit_isSome (y : St) (c : Ch) : (tables.emit y c).isSome = true ↔ c ∈ (emitTable y).map code := by
  simp only [tables, Option.isSome_map, List.find?_isSome, List.mem_map, beq_iff_eq]

/-! ## The characters of a table as bits of a number -/

def maskOf : List Nat → Nat
  | [] => 0
  | e :: l => Nat.lor (Nat.shiftLeft 1 (code e)) (maskOf l)

theorem maskOf_testBit (l : List Nat) (c : Nat) : (maskOf l).testBit c = true ↔ c ∈ l.map code := by
  induction l with
  | nil => simp [maskOf]
  | cons e l ih =>
    show ((1 <<< code e) ||| maskOf l).testBit c = true ↔ _
    rw [Nat.testBit_or, testBit_one_shift]
    simp only [Bool.or_eq_true, decide_eq_true_eq, List.map_cons, List.mem_cons, ih]

theorem maskOf_append (a b : List Nat) : maskOf (a ++ b) = Nat.lor (maskOf a) (maskOf b) := by
  induction a with
  | nil => exact (Nat.zero_or (maskOf b)).symm
  | cons e a ih =>
    show (1 <<< code e) ||| maskOf (a ++ b) = ((1 <<< code e) ||| maskOf a) ||| maskOf b
    rw [ih]
    exact (Nat.or_assoc _ _ _).symm

def mask (y : St) : Nat := maskOf (emitTable y)

theorem mask_testBit (y : St) (c : Ch) : (mask y).testBit c = (tables.emit y c).isSome := by
  rw [Bool.eq_iff_iff, emit_isSome, mask, maskOf_testBit]

end Jieba.HmmData
