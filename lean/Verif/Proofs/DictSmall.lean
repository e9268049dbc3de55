import Verif.Data.DictSmall
import Verif.Model.Basic
/-!
# The lines of dict.txt.small, checked by the kernel
-/

namespace Jieba.DictSmall
open Jieba

/-- 1 to 15 Han characters; `k` is the number of those before. -/
def hanWord : Str → Nat → Bool
  | [], k => Nat.ble 1 k && Nat.ble k 15
  | c :: s, k => Nat.ble 0x4E00 c && (Nat.ble c 0x9FD5 && hanWord s (Nat.add k 1))

def goodLine (e : Str × Nat × Nat) : Bool :=
  hanWord e.1 0 && (Nat.ble 10 e.2.1 && (Nat.ble e.2.1 3188252 && Nat.blt e.2.2 55))

def goodLines : List (Str × Nat × Nat) → Bool
  | [] => true
  | e :: l => goodLine e && goodLines l

def goodBlocks : List Nat → Bool
  | [] => true
  | b :: bs => goodLines (linesOf 100 b) && goodBlocks bs

def sumLines : List (Str × Nat × Nat) → Nat
  | [] => 0
  | e :: l => Nat.add e.2.1 (sumLines l)

def sumBlocks : List Nat → Nat
  | [] => 0
  | b :: bs => Nat.add (sumLines (linesOf 100 b)) (sumBlocks bs)

def countLines : List (Str × Nat × Nat) → Nat
  | [] => 0
  | _ :: l => Nat.add 1 (countLines l)

def countBlocks : List Nat → Nat
  | [] => 0
  | b :: bs => Nat.add (countLines (linesOf 100 b)) (countBlocks bs)

def checked (bs : List Nat) (count sum : Nat) : Bool :=
  goodBlocks bs && (Nat.beq (countBlocks bs) count && Nat.beq (sumBlocks bs) sum)

theorem checked0 : checked blocks0 11000 53734901 = true := by decide +kernel
theorem checked1 : checked blocks1 11000 4002152 = true := by decide +kernel
theorem checked2 : checked blocks2 11000 1867956 = true := by decide +kernel
theorem checked3 : checked blocks3 11000 1025583 = true := by decide +kernel
theorem checked4 : checked blocks4 11000 637701 = true := by decide +kernel
theorem checked5 : checked blocks5 11000 426838 = true := by decide +kernel
theorem checked6 : checked blocks6 11000 299024 = true := by decide +kernel
theorem checked7 : checked blocks7 11000 215156 = true := by decide +kernel
theorem checked8 : checked blocks8 11000 158989 = true := by decide +kernel
theorem checked9 : checked blocks9 10750 117286 = true := by decide +kernel

theorem goodBlocks_append (a b : List Nat) : goodBlocks (a ++ b) = (goodBlocks a && goodBlocks b) := by
  induction a with
  | nil => rfl
  | cons x a ih => simp only [List.cons_append, goodBlocks, ih, Bool.and_assoc]

theorem sumBlocks_append (a b : List Nat) : sumBlocks (a ++ b) = sumBlocks a + sumBlocks b := by
  induction a with
  | nil => simp [sumBlocks]
  | cons x a ih => simp only [List.cons_append, sumBlocks, ih, Nat.add_eq]; omega

theorem countBlocks_append (a b : List Nat) : countBlocks (a ++ b) = countBlocks a + countBlocks b := by
  induction a with
  | nil => simp [countBlocks]
  | cons x a ih => simp only [List.cons_append, countBlocks, ih, Nat.add_eq]; omega

theorem checked_append (a b : List Nat) (c c' s s' : Nat) (h : checked a c s = true) (h' : checked b c' s' = true) :
    checked (a ++ b) (c + c') (s + s') = true := by
  simp only [checked, Bool.and_eq_true, Nat.beq_eq] at h h' ⊢
  rw [goodBlocks_append, sumBlocks_append, countBlocks_append, h.1, h'.1, h.2.1, h'.2.1, h.2.2, h'.2.2]
  exact ⟨rfl, rfl, rfl⟩

theorem checked_all : checked blocks 109750 62485586 = true := by
  have := checked_append _ _ _ _ _ _ (checked_append _ _ _ _ _ _ (checked_append _ _ _ _ _ _ (checked_append _ _ _ _ _ _ (checked_append _ _ _ _ _ _ (checked_append _ _ _ _ _ _ (checked_append _ _ _ _ _ _ (checked_append _ _ _ _ _ _ (checked_append _ _ _ _ _ _ (checked0) checked1) checked2) checked3) checked4) checked5) checked6) checked7) checked8) checked9
  exact this

end Jieba.DictSmall
