import Mathlib.LinearAlgebra.FiniteDimensional.Basic
import Mathlib.Algebra.BigOperators.Ring.Finset
import Mathlib.Algebra.Order.BigOperators.Ring.Finset
import Mathlib.Tactic.Linarith
import Mathlib.Tactic.Ring
import Mathlib.Tactic.FieldSimp
import Verif.Spec.Ranking
/-!
# The values that nodes linked to each other settle at
-/

set_option linter.unusedSectionVars false

namespace Jieba.Spec
open Jieba

/-- `X` does not change in a round: `X n = (1 - d) + d * Σ_v (w n v / Σ_u w v u) * X v`. -/
def Stationary {κ F : Type _} [Field F] (nodes : List κ) (w : κ → κ → Nat) (d : F) (X : κ → F) : Prop :=
  ∀ n ∈ nodes, X n = (1 - d) + d * (nodes.map (fun v => (w n v : F) / ((nodes.map (fun u => w v u)).sum : Nat) * X v)).sum

/-- All the links of a node. -/
def degree {κ : Type _} (nodes : List κ) (w : κ → κ → Nat) (n : κ) : Nat := (nodes.map (fun u => w n u)).sum

section
variable {κ F : Type _} [DecidableEq κ] [Field F] [LinearOrder F] [IsStrictOrderedRing F]

theorem abs_sum_le (l : List F) : |l.sum| ≤ (l.map (fun x => |x|)).sum := by
  induction l with
  | nil => simp
  | cons a l ih =>
    simp only [List.sum_cons, List.map_cons]
    exact le_trans (abs_add_le _ _) (by linarith)

theorem sum_map_mono {α : Type _} (l : List α) (f g : α → F) (h : ∀ a ∈ l, f a ≤ g a) : (l.map f).sum ≤ (l.map g).sum := by
  induction l with
  | nil => simp
  | cons a l ih =>
    simp only [List.map_cons, List.sum_cons]
    have := ih (fun b hb => h b (List.mem_cons_of_mem _ hb))
    have := h a List.mem_cons_self
    linarith

theorem sum_map_nat {α : Type _} (l : List α) (f : α → Nat) (e : F) : (l.map (fun a => (f a : F) * e)).sum = ((l.map f).sum : Nat) * e := by
  induction l with
  | nil => simp
  | cons a l ih => simp only [List.map_cons, List.sum_cons, ih]; push_cast; ring

theorem sum_map_sub {α : Type _} (l : List α) (f g : α → F) : (l.map (fun a => f a - g a)).sum = (l.map f).sum - (l.map g).sum := by
  induction l with
  | nil => simp
  | cons a l ih => simp only [List.map_cons, List.sum_cons, ih]; ring

/-- What the neighbours pass on is at most `degree n` times the greatest relative value. -/
theorem passed_le (nodes : List κ) (w : κ → κ → Nat) (e : F) (he : 0 ≤ e) (Y : κ → F)
    (hY : ∀ v ∈ nodes, |Y v| ≤ degree nodes w v * e) (n : κ) :
    |(nodes.map (fun v => (w n v : F) / ((nodes.map (fun u => w v u)).sum : Nat) * Y v)).sum| ≤ degree nodes w n * e := by
  refine le_trans (abs_sum_le _) ?_
  rw [List.map_map]
  refine le_trans (sum_map_mono nodes _ (fun v => (w n v : F) * e) ?_) (le_of_eq (sum_map_nat nodes _ e))
  intro v hv
  have h := hY v hv
  have hw : (0 : F) ≤ w n v := Nat.cast_nonneg _
  simp only [Function.comp_apply]
  change |(w n v : F) / (degree nodes w v : Nat) * Y v| ≤ _
  rw [abs_mul, abs_div, abs_of_nonneg hw, abs_of_nonneg (Nat.cast_nonneg _ : (0 : F) ≤ degree nodes w v)]
  by_cases h0 : (degree nodes w v : F) = 0
  · rw [h0, div_zero, zero_mul]; exact mul_nonneg hw he
  · have hp : (0 : F) < degree nodes w v := lt_of_le_of_ne (Nat.cast_nonneg _) (Ne.symm h0)
    rw [div_mul_eq_mul_div, div_le_iff₀ hp, mul_assoc, mul_comm e]
    exact mul_le_mul_of_nonneg_left h hw

/-- A greatest relative value. -/
theorem exists_greatest (nodes : List κ) (hne : nodes ≠ []) (f : κ → F) : ∃ m ∈ nodes, ∀ n ∈ nodes, f n ≤ f m := by
  obtain ⟨a, ha⟩ := List.exists_mem_of_ne_nil nodes hne
  obtain ⟨m, hm, h⟩ := Finset.exists_max_image nodes.toFinset f ⟨a, List.mem_toFinset.mpr ha⟩
  exact ⟨m, List.mem_toFinset.mp hm, fun n hn => h n (List.mem_toFinset.mpr hn)⟩

/-- Values that differ by at most `degree n * e` differ by at most `degree n * d * e` after a round. -/
theorem round_contracts (nodes : List κ) (w : κ → κ → Nat) (d : F) (hd0 : 0 ≤ d) (hd1 : d < 1) (S : Nat → κ → F)
    (hS : Ranking nodes w d S) (X : κ → F) (hX : Stationary nodes w d X) (t : Nat) (e : F) (he : 0 ≤ e)
    (h : ∀ n ∈ nodes, |S t n - X n| ≤ degree nodes w n * e) : ∀ n ∈ nodes, |S (t + 1) n - X n| ≤ degree nodes w n * (d * e) := by
  have key : ∀ before after, nodes = before ++ after → ∀ n ∈ before, |S (t + 1) n - X n| ≤ degree nodes w n * (d * e) := by
    intro before
    induction before using List.reverseRecOn with
    | nil => intro _ _ n hn; cases hn
    | append_singleton before m ihb =>
      intro after hn n hm
      have hbm : nodes = before ++ m :: after := by rw [hn, List.append_assoc]; rfl
      have hb := ihb (m :: after) hbm
      rcases List.mem_append.mp hm with hm | hm
      · exact hb n hm
      · rw [List.mem_singleton] at hm
        subst hm
        have hmem : n ∈ nodes := by rw [hbm]; simp
        have hp := passed_le nodes w e he (fun v => (if v ∈ before then S (t + 1) v else S t v) - X v) (by
          intro v hv
          by_cases hvb : v ∈ before
          · simp only [if_pos hvb]
            refine le_trans (hb v hvb) (mul_le_mul_of_nonneg_left ?_ (Nat.cast_nonneg _))
            nlinarith
          · simp only [if_neg hvb]
            exact h v hv) n
        rw [hS.round t before n after hbm, hX n hmem]
        have e1 : ((1 - d) + d * (nodes.map (fun v => (w n v : F) / ((nodes.map (fun u => w v u)).sum : Nat) *
            (if v ∈ before then S (t + 1) v else S t v))).sum) -
            ((1 - d) + d * (nodes.map (fun v => (w n v : F) / ((nodes.map (fun u => w v u)).sum : Nat) * X v)).sum) =
            d * (nodes.map (fun v => (w n v : F) / ((nodes.map (fun u => w v u)).sum : Nat) *
              ((if v ∈ before then S (t + 1) v else S t v) - X v))).sum := by
          have := sum_map_sub nodes (fun v => (w n v : F) / ((nodes.map (fun u => w v u)).sum : Nat) * (if v ∈ before then S (t + 1) v else S t v))
            (fun v => (w n v : F) / ((nodes.map (fun u => w v u)).sum : Nat) * X v)
          simp only [mul_sub]
          rw [this]
          ring
        rw [e1, abs_mul, abs_of_nonneg hd0]
        calc _ ≤ d * (degree nodes w n * e) := mul_le_mul_of_nonneg_left hp hd0
          _ = _ := by ring
  exact key nodes [] (List.append_nil _).symm

/-- Stationary values lie between 0 and the degree. -/
theorem Stationary.bounds {nodes : List κ} {w : κ → κ → Nat} {d : F} (hd0 : 0 ≤ d) (hd1 : d < 1) {X : κ → F}
    (hX : Stationary nodes w d X) (hdeg : ∀ n ∈ nodes, 1 ≤ degree nodes w n) : ∀ n ∈ nodes, 0 ≤ X n ∧ X n ≤ degree nodes w n := by
  intro n hn
  have hne : nodes ≠ [] := by rintro rfl; cases hn
  have pos : ∀ m ∈ nodes, (1 : F) ≤ degree nodes w m := fun m hm => by exact_mod_cast hdeg m hm
  -- X relative to half the degree, |X - degree/2| ≤ degree * e
  obtain ⟨m, hm, hmax⟩ := exists_greatest nodes hne (fun n => |X n| / degree nodes w n)
  have hpm := pos m hm
  have e0 : 0 ≤ |X m| / (degree nodes w m : F) := div_nonneg (abs_nonneg _) (by linarith)
  have hY : ∀ v ∈ nodes, |X v| ≤ degree nodes w v * (|X m| / degree nodes w m) := by
    intro v hv
    have := hmax v hv
    have hpv := pos v hv
    rw [div_le_iff₀ (by linarith)] at this
    linarith
  have hp := passed_le nodes w _ e0 X hY
  have up : |X m| / (degree nodes w m : F) ≤ 1 := by
    have h1 := hX m hm
    have h2 : |X m| ≤ (1 - d) + d * (degree nodes w m * (|X m| / degree nodes w m)) := by
      nth_rw 1 [h1]
      refine le_trans (abs_add_le _ _) ?_
      rw [abs_of_nonneg (show (0 : F) ≤ 1 - d by linarith), abs_mul, abs_of_nonneg hd0]
      have := mul_le_mul_of_nonneg_left (hp m) hd0
      linarith
    have e1 : (degree nodes w m : F) * (|X m| / degree nodes w m) = |X m| := by
      rw [mul_div_assoc']; exact mul_div_cancel_left₀ _ (by linarith)
    rw [e1] at h2
    have : |X m| ≤ 1 := by nlinarith
    rw [div_le_one (by linarith)]
    linarith
  have hle : ∀ v ∈ nodes, |X v| ≤ degree nodes w v := by
    intro v hv
    have hpv := pos v hv
    refine le_trans (hY v hv) ?_
    calc (degree nodes w v : F) * (|X m| / degree nodes w m) ≤ degree nodes w v * 1 := mul_le_mul_of_nonneg_left up (by linarith)
      _ = _ := mul_one _
  refine ⟨?_, le_trans (le_abs_self _) (hle n hn)⟩
  -- the least relative value is not negative
  obtain ⟨k, hk, hmin⟩ := exists_greatest nodes hne (fun n => -(X n / degree nodes w n))
  have hpk := pos k hk
  have hk0 : 0 ≤ X k / (degree nodes w k : F) := by
    by_contra hneg
    rw [not_le] at hneg
    have hXk : X k < 0 := by
      by_contra h0
      rw [not_lt] at h0
      exact absurd (div_nonneg h0 (by linarith : (0 : F) ≤ degree nodes w k)) (not_le.mpr hneg)
    have hsum : degree nodes w k * (X k / degree nodes w k) ≤
        (nodes.map (fun v => (w k v : F) / ((nodes.map (fun u => w v u)).sum : Nat) * X v)).sum := by
      rw [show (degree nodes w k : F) * (X k / degree nodes w k) = (nodes.map (fun v => (w k v : F) * (X k / degree nodes w k))).sum from
        (sum_map_nat nodes (fun v => w k v) _).symm]
      refine sum_map_mono nodes _ _ ?_
      intro v hv
      have hpv := pos v hv
      have := hmin v hv
      simp only [neg_le_neg_iff] at this
      have hw : (0 : F) ≤ w k v := Nat.cast_nonneg _
      calc (w k v : F) * (X k / degree nodes w k) ≤ (w k v : F) * (X v / degree nodes w v) := mul_le_mul_of_nonneg_left this hw
        _ = (w k v : F) / (degree nodes w v : Nat) * X v := by rw [div_mul_eq_mul_div, mul_div_assoc]
    have e1 : (degree nodes w k : F) * (X k / degree nodes w k) = X k := by
      rw [mul_div_assoc']; exact mul_div_cancel_left₀ _ (by linarith)
    rw [e1] at hsum
    have h1 := hX k hk
    have := mul_le_mul_of_nonneg_left hsum hd0
    nlinarith
  have := hmin n hn
  simp only [neg_le_neg_iff] at this
  have hpn := pos n hn
  have h0 : 0 ≤ X n / (degree nodes w n : F) := le_trans hk0 this
  by_contra hlt
  rw [not_le] at hlt
  exact absurd (div_neg_of_neg_of_pos hlt (by linarith : (0 : F) < degree nodes w n)) (not_lt.mpr h0)

/-- There is only one. -/
theorem Stationary.unique {nodes : List κ} {w : κ → κ → Nat} {d : F} (hd0 : 0 ≤ d) (hd1 : d < 1) {X Y : κ → F}
    (hX : Stationary nodes w d X) (hY : Stationary nodes w d Y) (hdeg : ∀ n ∈ nodes, 1 ≤ degree nodes w n) : ∀ n ∈ nodes, X n = Y n := by
  intro n hn
  have hne : nodes ≠ [] := by rintro rfl; cases hn
  have pos : ∀ m ∈ nodes, (1 : F) ≤ degree nodes w m := fun m hm => by exact_mod_cast hdeg m hm
  obtain ⟨m, hm, hmax⟩ := exists_greatest nodes hne (fun n => |X n - Y n| / degree nodes w n)
  have hpm := pos m hm
  have e0 : 0 ≤ |X m - Y m| / (degree nodes w m : F) := div_nonneg (abs_nonneg _) (by linarith)
  have hZ : ∀ v ∈ nodes, |X v - Y v| ≤ degree nodes w v * (|X m - Y m| / degree nodes w m) := by
    intro v hv
    have := hmax v hv
    have hpv := pos v hv
    rw [div_le_iff₀ (by linarith)] at this
    linarith
  have hp := passed_le nodes w _ e0 (fun v => X v - Y v) hZ m
  have e1 : X m - Y m = d * (nodes.map (fun v => (w m v : F) / ((nodes.map (fun u => w v u)).sum : Nat) * (X v - Y v))).sum := by
    have := sum_map_sub nodes (fun v => (w m v : F) / ((nodes.map (fun u => w v u)).sum : Nat) * X v)
      (fun v => (w m v : F) / ((nodes.map (fun u => w v u)).sum : Nat) * Y v)
    simp only [mul_sub]
    rw [this]
    nth_rw 1 [hX m hm, hY m hm]
    ring
  have e2 : (degree nodes w m : F) * (|X m - Y m| / degree nodes w m) = |X m - Y m| := by
    rw [mul_div_assoc']; exact mul_div_cancel_left₀ _ (by linarith)
  rw [e2] at hp
  have h3 : |X m - Y m| ≤ d * |X m - Y m| := by
    nth_rw 1 [e1]
    rw [abs_mul, abs_of_nonneg hd0]
    exact mul_le_mul_of_nonneg_left hp hd0
  have h4 : |X m - Y m| = 0 := by
    have := abs_nonneg (X m - Y m)
    nlinarith
  have := hZ n hn
  rw [h4, zero_div, mul_zero] at this
  have := abs_eq_zero.mp (le_antisymm this (abs_nonneg _))
  linarith

/-- There is one: a linear system with a solution for every right-hand side. -/
theorem Stationary.exists (nodes : List κ) (hnd : nodes.Nodup) (w : κ → κ → Nat) (d : F) (hd0 : 0 ≤ d) (hd1 : d < 1)
    (hdeg : ∀ n ∈ nodes, 1 ≤ degree nodes w n) : ∃ X : κ → F, Stationary nodes w d X := by
  classical
  let K := {n // n ∈ nodes.toFinset}
  let ext : (K → F) → κ → F := fun f n => if h : n ∈ nodes.toFinset then f ⟨n, h⟩ else 0
  let P : (κ → F) → κ → F := fun Y n => (nodes.map (fun v => (w n v : F) / ((nodes.map (fun u => w v u)).sum : Nat) * Y v)).sum
  have P_add : ∀ Y Z n, P (fun v => Y v + Z v) n = P Y n + P Z n := by
    intro Y Z n
    simp only [P, mul_add]
    rw [List.sum_map_add]
  have P_smul : ∀ (c : F) Y n, P (fun v => c * Y v) n = c * P Y n := by
    intro c Y n
    simp only [P]
    rw [← List.sum_map_mul_left]
    congr 1
    refine List.map_congr_left fun v _ => by ring
  have ext_add : ∀ f g, ext (f + g) = fun v => ext f v + ext g v := by
    intro f g; funext v; simp only [ext]; split <;> simp
  have ext_smul : ∀ (c : F) f, ext (c • f) = fun v => c * ext f v := by
    intro c f; funext v; simp only [ext]; split <;> simp
  let L : (K → F) →ₗ[F] (K → F) :=
    { toFun := fun f n => f n - d * P (ext f) n.1
      map_add' := by intro f g; funext n; simp only [ext_add, P_add, Pi.add_apply]; ring
      map_smul' := by intro c f; funext n; simp only [ext_smul, P_smul, Pi.smul_apply, smul_eq_mul, RingHom.id_apply]; ring }
  have hext : ∀ (f : K → F) (n : κ) (h : n ∈ nodes), ext f n = f ⟨n, List.mem_toFinset.mpr h⟩ := by
    intro f n h
    simp only [ext]
    rw [dif_pos (List.mem_toFinset.mpr h)]
  have inj : Function.Injective L := by
    rw [injective_iff_map_eq_zero]
    intro f hf
    funext ⟨n, hn⟩
    rw [List.mem_toFinset] at hn
    -- two stationary families that differ by `f`
    have hne : nodes ≠ [] := by rintro rfl; cases hn
    have pos : ∀ m ∈ nodes, (1 : F) ≤ degree nodes w m := fun m hm => by exact_mod_cast hdeg m hm
    have heq : ∀ m ∈ nodes, ext f m = d * P (ext f) m := by
      intro m hm
      have := congrFun hf ⟨m, List.mem_toFinset.mpr hm⟩
      simp only [L, LinearMap.coe_mk, AddHom.coe_mk, Pi.zero_apply] at this
      rw [hext f m hm]
      linarith
    obtain ⟨m, hm, hmax⟩ := exists_greatest nodes hne (fun n => |ext f n| / degree nodes w n)
    have hpm := pos m hm
    have e0 : 0 ≤ |ext f m| / (degree nodes w m : F) := div_nonneg (abs_nonneg _) (by linarith)
    have hZ : ∀ v ∈ nodes, |ext f v| ≤ degree nodes w v * (|ext f m| / degree nodes w m) := by
      intro v hv
      have := hmax v hv
      have hpv := pos v hv
      rw [div_le_iff₀ (by linarith)] at this
      linarith
    have hp := passed_le nodes w _ e0 (ext f) hZ m
    have e2 : (degree nodes w m : F) * (|ext f m| / degree nodes w m) = |ext f m| := by
      rw [mul_div_assoc']; exact mul_div_cancel_left₀ _ (by linarith)
    rw [e2] at hp
    have h3 : |ext f m| ≤ d * |ext f m| := by
      nth_rw 1 [heq m hm]
      rw [abs_mul, abs_of_nonneg hd0]
      exact mul_le_mul_of_nonneg_left hp hd0
    have h4 : |ext f m| = 0 := by
      have := abs_nonneg (ext f m)
      nlinarith
    have := hZ n hn
    rw [h4, zero_div, mul_zero] at this
    have := abs_eq_zero.mp (le_antisymm this (abs_nonneg _))
    rw [hext f n hn] at this
    simpa using this
  obtain ⟨f, hf⟩ := (LinearMap.injective_iff_surjective.mp inj) (fun _ => 1 - d)
  refine ⟨ext f, fun n hn => ?_⟩
  have := congrFun hf ⟨n, List.mem_toFinset.mpr hn⟩
  simp only [L, LinearMap.coe_mk, AddHom.coe_mk] at this
  rw [hext f n hn]
  change _ = (1 - d) + d * P (ext f) n
  linarith

/-- Values after `t` rounds, between 0 and the degree. -/
theorem Ranking.bounds {nodes : List κ} {w : κ → κ → Nat} {d : F} {S : Nat → κ → F} (hS : Ranking nodes w d S)
    (hdeg : ∀ n ∈ nodes, 1 ≤ degree nodes w n) : ∀ n ∈ nodes, 0 ≤ S 0 n ∧ S 0 n ≤ degree nodes w n := by
  intro n hn
  rw [hS.start n hn]
  have h1 : (1 : F) ≤ nodes.length := by
    have : 1 ≤ nodes.length := List.length_pos_of_mem hn
    exact_mod_cast this
  have h2 : (1 : F) ≤ degree nodes w n := by exact_mod_cast hdeg n hn
  refine ⟨div_nonneg zero_le_one (by linarith), le_trans ?_ h2⟩
  rw [div_le_one (by linarith)]
  exact h1

/-- After `t` rounds the values are within `d ^ t * degree` of the stationary ones. -/
theorem Ranking.near {nodes : List κ} {w : κ → κ → Nat} {d : F} (hd0 : 0 ≤ d) (hd1 : d < 1) {S : Nat → κ → F} (hS : Ranking nodes w d S)
    (hdeg : ∀ n ∈ nodes, 1 ≤ degree nodes w n) {X : κ → F} (hX : Stationary nodes w d X) (t : Nat) :
    ∀ n ∈ nodes, |S t n - X n| ≤ degree nodes w n * d ^ t := by
  induction t with
  | zero =>
    intro n hn
    obtain ⟨a, b⟩ := hS.bounds hdeg n hn
    obtain ⟨a', b'⟩ := hX.bounds hd0 hd1 hdeg n hn
    rw [pow_zero, mul_one, abs_le]
    constructor <;> linarith
  | succ t ih =>
    have := round_contracts nodes w d hd0 hd1 S hS X hX t (d ^ t) (pow_nonneg hd0 _) ih
    intro n hn
    rw [pow_succ, mul_comm (d ^ t)]
    exact this n hn

end
end Jieba.Spec
