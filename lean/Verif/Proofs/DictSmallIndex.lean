import Verif.Data.DictSmallIndex
/-!
# No word is in dict.txt.small twice
-/

namespace Jieba.DictSmall
open Jieba

/-- The words of the lines are those with numbers `i`, `i + 1`, … in the table. -/
def indexed : List (Str × Nat × Nat) → Nat → Bool
  | [], _ => true
  | e :: l, i => Nat.beq (lineOf (key e.1 1)) i && indexed l (Nat.add i 1)

def indexedBlocks : List Nat → Nat → Bool
  | [], _ => true
  | b :: bs, i => indexed (linesOf 100 b) i && indexedBlocks bs (Nat.add i 100)

theorem indexed0 : indexedBlocks blocks0 0 = true := by decide +kernel
theorem indexed1 : indexedBlocks blocks1 11000 = true := by decide +kernel
theorem indexed2 : indexedBlocks blocks2 22000 = true := by decide +kernel
theorem indexed3 : indexedBlocks blocks3 33000 = true := by decide +kernel
theorem indexed4 : indexedBlocks blocks4 44000 = true := by decide +kernel
theorem indexed5 : indexedBlocks blocks5 55000 = true := by decide +kernel
theorem indexed6 : indexedBlocks blocks6 66000 = true := by decide +kernel
theorem indexed7 : indexedBlocks blocks7 77000 = true := by decide +kernel
theorem indexed8 : indexedBlocks blocks8 88000 = true := by decide +kernel
theorem indexed9 : indexedBlocks blocks9 99000 = true := by decide +kernel

theorem indexedBlocks_append (a b : List Nat) (i : Nat) : indexedBlocks (a ++ b) i = (indexedBlocks a i && indexedBlocks b (i + 100 * a.length)) := by
  induction a generalizing i with
  | nil => simp [indexedBlocks]
  | cons x a ih =>
    simp only [List.cons_append, indexedBlocks, ih, Bool.and_assoc, List.length_cons, Nat.add_eq]
    rw [show i + 100 + 100 * a.length = i + 100 * (a.length + 1) by omega]

theorem indexed_all : indexedBlocks blocks 0 = true := by
  unfold blocks
  simp only [indexedBlocks_append, List.length_append, Bool.and_eq_true]
  have h : blocks0.length = 110 ∧ blocks1.length = 110 ∧ blocks2.length = 110 ∧ blocks3.length = 110 ∧ blocks4.length = 110 ∧
      blocks5.length = 110 ∧ blocks6.length = 110 ∧ blocks7.length = 110 ∧ blocks8.length = 110 := by decide +kernel
  obtain ⟨h0, h1, h2, h3, h4, h5, h6, h7, h8⟩ := h
  rw [h0, h1, h2, h3, h4, h5, h6, h7, h8]
  exact ⟨⟨⟨⟨⟨⟨⟨⟨⟨indexed0, indexed1⟩, indexed2⟩, indexed3⟩, indexed4⟩, indexed5⟩, indexed6⟩, indexed7⟩, indexed8⟩, indexed9⟩

theorem linesOf_length (f n : Nat) : (linesOf f n).length ≤ f := by
  induction f generalizing n with
  | zero => simp [linesOf]
  | succ f ih =>
    unfold linesOf
    split
    · simp
    · simp only [List.length_cons]; have := ih (Nat.div n (Nat.pow 2 (Nat.mul 16 (Nat.add 3 (Nat.mod n 16))))); omega

/-- The number of the line of a word. -/
def place (w : Str) : Nat := lineOf (key w 1)

theorem indexed_spec (l : List (Str × Nat × Nat)) (i : Nat) (h : indexed l i = true) : l.map (fun e => place e.1) = List.range' i l.length := by
  induction l generalizing i with
  | nil => rfl
  | cons e l ih =>
    simp only [indexed, Bool.and_eq_true, Nat.beq_eq] at h
    rw [List.map_cons, List.length_cons, List.range'_succ, ih _ h.2]
    simp only [place, h.1, Nat.add_eq]

theorem indexedBlocks_spec (bs : List Nat) (i : Nat) (h : indexedBlocks bs i = true) :
    (bs.flatMap (fun b => (linesOf 100 b).map (fun e => place e.1))).Pairwise (· < ·) ∧
      ∀ x ∈ bs.flatMap (fun b => (linesOf 100 b).map (fun e => place e.1)), i ≤ x := by
  induction bs generalizing i with
  | nil => simp
  | cons b bs ih =>
    simp only [indexedBlocks, Bool.and_eq_true, Nat.add_eq] at h
    obtain ⟨h1, h2⟩ := ih _ h.2
    have h3 := indexed_spec _ _ h.1
    have hl := linesOf_length 100 b
    simp only [List.flatMap_cons]
    rw [h3]
    refine ⟨List.pairwise_append.mpr ⟨List.pairwise_lt_range', h1, ?_⟩, ?_⟩
    · intro x hx y hy
      have := h2 y hy
      rw [List.mem_range'_1] at hx
      omega
    · intro x hx
      rcases List.mem_append.mp hx with hx | hx
      · rw [List.mem_range'_1] at hx; omega
      · have := h2 x hx; omega

/-- No word occurs twice. -/
theorem words_nodup : (entries.map Prod.fst).Nodup := by
  have h := (indexedBlocks_spec blocks 0 indexed_all).1
  have e : blocks.flatMap (fun b => (linesOf 100 b).map (fun e => place e.1)) = (entries.map Prod.fst).map place := by
    unfold entries
    simp only [List.map_flatMap, List.map_map, Function.comp_def]
  rw [e] at h
  exact (List.pairwise_map.mp h).imp (fun hlt he => Nat.ne_of_lt hlt (congrArg place he))

end Jieba.DictSmall
