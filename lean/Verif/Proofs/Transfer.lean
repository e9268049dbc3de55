import Mathlib.Order.Monotone.Basic
import Mathlib.Algebra.Order.Ring.Rat
import Mathlib.Analysis.SpecialFunctions.Log.Basic
import Verif.Proofs.Cut
import Verif.Props.Segmentation
/-!
# Exact arithmetic can be computed with: positive rationals instead of logarithms
-/

set_option linter.unusedSectionVars false

namespace Jieba

variable {F G : Type _} [LinearOrder F] [LinearOrder G]

/-- A strictly monotone map that commutes with the operations `calc` uses. -/
structure ScoreHom (A : Arith F) (B : Arith G) (φ : F → G) : Prop where
  mono : StrictMono φ
  zero : φ A.zero = B.zero
  add : ∀ x y, φ (A.add x y) = B.add (φ x) (φ y)
  sub : ∀ x y, φ (A.sub x y) = B.sub (φ x) (φ y)
  log : ∀ n, φ (A.log n) = B.log n

/-- The map on entries of `route`. -/
def onScore (φ : F → G) (x : F × Nat) : G × Nat := (φ x.1, x.2)

theorem pylog_hom {A : Arith F} {B : Arith G} {φ : F → G} (h : ScoreHom A B φ) (n : Int) :
    B.pylog n = (A.pylog n).map φ := by
  unfold Arith.pylog
  split
  · simp [Except.map, h.log]
  · rfl

theorem edgeScore_hom {A : Arith F} {B : Arith G} {φ : F → G} (h : ScoreHom A B φ) (freq : Freq) (lt : F) (s : Str)
    (tail : List (F × Nat)) (idx x : Nat) :
    edgeScore B freq (φ lt) s (tail.map (onScore φ)) idx x = (edgeScore A freq lt s tail idx x).map (onScore φ) := by
  unfold edgeScore
  simp only []
  rw [pylog_hom h]
  cases A.pylog (freqOr1 freq (slice s idx (x + 1))) with
  | error e => rfl
  | ok lf =>
    simp only [Except.map, bind, Except.bind]
    split
    · rfl
    · rw [List.getElem?_map]
      cases tail[x - idx]? with
      | none => rfl
      | some r => simp [onScore, h.add, h.sub]

theorem mapM_hom {α β γ : Type _} (l : List α) (f : α → Except PyErr β) (g : α → Except PyErr γ) (ψ : β → γ)
    (h : ∀ a, g a = (f a).map ψ) : l.mapM g = (l.mapM f).map (List.map ψ) := by
  induction l with
  | nil => rfl
  | cons a l ih =>
    rw [List.mapM_cons, List.mapM_cons, h a, ih]
    cases f a with
    | error e => rfl
    | ok b =>
      cases l.mapM f with
      | error e => rfl
      | ok bs => rfl

theorem pyMax_hom {φ : F → G} (h : StrictMono φ) (x : F × Nat) (xs : List (F × Nat)) :
    pyMax (tupLt (fun a b : Nat => decide (a < b))) (onScore φ x) (xs.map (onScore φ)) =
      onScore φ (pyMax (tupLt (fun a b : Nat => decide (a < b))) x xs) := by
  unfold pyMax
  induction xs generalizing x with
  | nil => rfl
  | cons y xs ih =>
    simp only [List.map_cons, List.foldl_cons]
    have : tupLt (fun a b : Nat => decide (a < b)) (onScore φ x) (onScore φ y) =
        tupLt (fun a b : Nat => decide (a < b)) x y := by
      unfold tupLt onScore
      simp only [h.lt_iff_lt, h.injective.eq_iff]
    rw [this]
    split
    · exact ih y
    · exact ih x

theorem maxTup_hom {φ : F → G} (h : StrictMono φ) (l : List (F × Nat)) :
    maxTup (l.map (onScore φ)) = (maxTup l).map (onScore φ) := by
  cases l with
  | nil => rfl
  | cons x xs => simp only [List.map_cons, maxTup, Except.map]; rw [pyMax_hom h]

theorem calcLoop_hom {A : Arith F} {B : Arith G} {φ : F → G} (h : ScoreHom A B φ) (freq : Freq) (lt : F) (s : Str)
    (dag : List (List Nat)) (n : Nat) (tail : List (F × Nat)) :
    calcLoop B freq (φ lt) s dag n (tail.map (onScore φ)) = (calcLoop A freq lt s dag n tail).map (List.map (onScore φ)) := by
  induction n generalizing tail with
  | zero => rfl
  | succ n ih =>
    unfold calcLoop
    cases dag[n]? with
    | none => rfl
    | some L =>
      simp only []
      rw [mapM_hom L (edgeScore A freq lt s tail n) _ (onScore φ) (edgeScore_hom h freq lt s tail n)]
      cases L.mapM (edgeScore A freq lt s tail n) with
      | error e => rfl
      | ok cands =>
        simp only [Except.map, bind, Except.bind]
        rw [maxTup_hom h.mono]
        cases maxTup cands with
        | error e => rfl
        | ok best =>
          simp only [Except.map]
          exact ih (best :: tail)

theorem calcRoute_hom {A : Arith F} {B : Arith G} {φ : F → G} (h : ScoreHom A B φ) (freq : Freq) (total : Int) (s : Str)
    (dag : List (List Nat)) :
    calcRoute B freq total s dag = (calcRoute A freq total s dag).map (List.map (onScore φ)) := by
  unfold calcRoute
  rw [pylog_hom h]
  cases A.pylog total with
  | error e => rfl
  | ok lt =>
    simp only [Except.map, bind, Except.bind]
    have := calcLoop_hom h freq lt s dag s.length [(A.zero, 0)]
    simp only [List.map_cons, List.map_nil, onScore, h.zero] at this
    exact this

theorem noHmmLoop_hom (φ : F → G) (s : Str) (route : List (F × Nat)) (fuel x : Nat) (buf : Str) :
    noHmmLoop s (route.map (onScore φ)) fuel x buf = noHmmLoop s route fuel x buf := by
  induction fuel generalizing x buf with
  | zero => rfl
  | succ n ih =>
    unfold noHmmLoop
    split
    · rw [List.getElem?_map]
      cases route[x]? with
      | none => rfl
      | some r => simp only [Option.map_some, onScore]; split <;> rw [ih]
    · rfl

theorem cutDAGNoHMM_hom {A : Arith F} {B : Arith G} {φ : F → G} (h : ScoreHom A B φ) (freq : Freq) (total : Int) (s : Str) :
    cutDAGNoHMM B freq total s = cutDAGNoHMM A freq total s := by
  unfold cutDAGNoHMM
  rw [calcRoute_hom h]
  cases calcRoute A freq total s (getDAG freq s) with
  | error e => rfl
  | ok r => simp only [Except.map, Gen.ofExcept_ok]; rw [noHmmLoop_hom]

/-- Segmentation without HMM only depends on how scores compare. -/
theorem cut_hom {A : Arith F} {B : Arith G} {φ : F → G} (h : ScoreHom A B φ) (freq : Freq) (total : Int)
    (T : FinalSeg.Tables F) (T' : FinalSeg.Tables G) (force force' : List Str) (s : Str) :
    cut ⟨B, freq, total, T', force'⟩ false false s = cut ⟨A, freq, total, T, force⟩ false false s := by
  rw [cut_eq_scan, cut_eq_scan]
  have : cutBlock ⟨B, freq, total, T', force'⟩ false false = cutBlock ⟨A, freq, total, T, force⟩ false false := by
    funext b; exact cutDAGNoHMM_hom h freq total b
  rw [this]

/-- Positive rationals. -/
abbrev PosRat := {q : ℚ // 0 < q}

/-- Products of positive rationals in place of sums of logarithms.  The fields after `log` are not used. -/
def posRatArith : Arith PosRat where
  zero := ⟨1, by decide⟩
  add x y := ⟨x.1 * y.1, mul_pos x.2 y.2⟩
  sub x y := ⟨x.1 / y.1, div_pos x.2 y.2⟩
  mul x _ := x
  div x _ := x
  log n := ⟨(max n 1 : Nat), by have : 0 < max n 1 := lt_of_lt_of_le one_pos (le_max_right _ _); exact_mod_cast this⟩
  ofInt _ := ⟨1, by decide⟩
  trunc _ := 0

theorem posRat_real : ScoreHom posRatArith Props.realArith (fun q => Real.log (q.1 : ℝ)) where
  mono := by
    intro x y hxy
    have hx : (0 : ℝ) < (x.1 : ℝ) := by exact_mod_cast x.2
    exact Real.log_lt_log hx (by exact_mod_cast hxy)
  zero := by simp [posRatArith, Props.realArith]
  add := by
    intro x y
    have hx : (x.1 : ℝ) ≠ 0 := by exact_mod_cast (ne_of_gt x.2)
    have hy : (y.1 : ℝ) ≠ 0 := by exact_mod_cast (ne_of_gt y.2)
    simp only [posRatArith, Props.realArith]
    push_cast
    exact Real.log_mul hx hy
  sub := by
    intro x y
    have hx : (x.1 : ℝ) ≠ 0 := by exact_mod_cast (ne_of_gt x.2)
    have hy : (y.1 : ℝ) ≠ 0 := by exact_mod_cast (ne_of_gt y.2)
    simp only [posRatArith, Props.realArith]
    push_cast
    exact Real.log_div hx hy
  log := by
    intro n
    simp only [posRatArith, Props.realArith]
    cases n with
    | zero => simp
    | succ n => rw [Nat.max_eq_left (by omega)]; norm_cast

end Jieba
