import Verif.Model.Basic
import Mathlib.Algebra.Group.Nat.Defs
import Mathlib.Algebra.Group.Defs
import Mathlib.Data.Finset.Card
import Mathlib.Data.List.Nodup
/-!
# Sets of characters as bits of a number, and how many there are
-/

namespace Jieba

/-- The characters of a list. -/
def bitsOf : List Nat → Nat
  | [] => 0
  | c :: l => Nat.lor (Nat.shiftLeft 1 c) (bitsOf l)

theorem testBit_one_shift (a c : Nat) : (1 <<< a).testBit c = decide (c = a) := by
  rw [Nat.one_shiftLeft, Nat.testBit_two_pow]
  by_cases h : c = a
  · subst h; simp
  · simp [h, Ne.symm h]

theorem bitsOf_testBit (l : List Nat) (c : Nat) : (bitsOf l).testBit c = true ↔ c ∈ l := by
  induction l with
  | nil => simp [bitsOf]
  | cons e l ih =>
    show ((1 <<< e) ||| bitsOf l).testBit c = true ↔ _
    rw [Nat.testBit_or, testBit_one_shift]
    simp only [Bool.or_eq_true, decide_eq_true_eq, List.mem_cons, ih]

theorem bitsOf_append (a b : List Nat) : bitsOf (a ++ b) = Nat.lor (bitsOf a) (bitsOf b) := by
  induction a with
  | nil => exact (Nat.zero_or (bitsOf b)).symm
  | cons e a ih =>
    show (1 <<< e) ||| bitsOf (a ++ b) = ((1 <<< e) ||| bitsOf a) ||| bitsOf b
    rw [ih]
    exact (Nat.or_assoc _ _ _).symm

/-- How many of the lowest `2^k` bits of `n` are set. -/
def pop : Nat → Nat → Nat
  | 0, n => if n.testBit 0 then 1 else 0
  | k + 1, n => pop k (n % 2 ^ 2 ^ k) + pop k (n / 2 ^ 2 ^ k)

theorem pop_eq (k n : Nat) : pop k n = ((List.range (2 ^ k)).filter n.testBit).length := by
  induction k generalizing n with
  | zero => simp only [pop, pow_zero, List.range_one, List.filter_cons, List.filter_nil]; split <;> rfl
  | succ k ih =>
    rw [pop, ih, ih, pow_succ, Nat.mul_two, List.range_add, List.filter_append, List.length_append]
    congr 1
    · congr 1
      apply List.filter_congr
      intro c hc
      rw [Nat.testBit_mod_two_pow]
      simp at hc; simp [hc]
    · rw [List.filter_map, List.length_map]
      congr 1
      apply List.filter_congr
      intro c hc
      simp only [Function.comp]
      rw [Nat.testBit_div_two_pow, Nat.add_comm]

/-- There are exactly `n` characters with `p`. -/
def Exactly (n : Nat) (p : Ch → Prop) : Prop := ∃ l : List Ch, l.Nodup ∧ l.length = n ∧ ∀ c, c ∈ l ↔ p c

theorem exactly_of_pop (m n : Nat) (q : Ch → Prop) (h : pop 16 m = n) (hq : ∀ c, q c ↔ c < 2 ^ 16 ∧ m.testBit c = true) : Exactly n q := by
  refine ⟨(List.range (2 ^ 16)).filter m.testBit, List.nodup_range.filter _, by rw [← pop_eq, h], ?_⟩
  intro c
  rw [hq, List.mem_filter, List.mem_range]

/-- The bits from `b` on, `a` of them. -/
def blockBits (a b : Nat) : Nat := (2 ^ a - 1) <<< b

theorem blockBits_testBit (a b c : Nat) : (blockBits a b).testBit c = decide (b ≤ c ∧ c < a + b) := by
  rw [blockBits, Nat.testBit_shiftLeft, Nat.testBit_two_pow_sub_one, ← Bool.decide_and, decide_eq_decide]
  omega

/-- The bits of the Han characters, U+4E00 to U+9FD5. -/
def hanBits : Nat := blockBits 0x51D6 0x4E00

theorem hanBits_testBit (c : Ch) : hanBits.testBit c = isHan c := by
  rw [hanBits, blockBits_testBit, isHan, Bool.eq_iff_iff]
  simp only [decide_eq_true_eq, Bool.and_eq_true]
  unfold Ch at *
  omega

theorem bit_below (n c k : Nat) (hn : n < 1 <<< k) (hb : n.testBit c = true) : c < k := by
  by_contra hc
  rw [Nat.one_shiftLeft] at hn
  rw [Nat.testBit_lt_two_pow (Nat.lt_of_lt_of_le hn (Nat.pow_le_pow_right (by decide) (by omega)))] at hb
  cases hb

/-- As many bits as entries: no entry is there twice. -/
theorem nodup_of_pop (k : Nat) (l : List Nat) (h : pop k (bitsOf l) = l.length) (hl : ∀ c ∈ l, c < 2 ^ k) : l.Nodup := by
  rw [← Multiset.coe_nodup, ← Multiset.toFinset_card_eq_card_iff_nodup, Multiset.coe_card, ← h, pop_eq]
  have : ((List.range (2 ^ k)).filter (bitsOf l).testBit).Nodup := List.nodup_range.filter _
  rw [← List.toFinset_card_of_nodup this]
  congr 1
  ext c
  simp only [Multiset.mem_toFinset, Multiset.mem_coe, List.mem_toFinset, List.mem_filter, List.mem_range, bitsOf_testBit]
  exact ⟨fun h => ⟨hl c h, h⟩, fun h => h.2⟩

end Jieba
