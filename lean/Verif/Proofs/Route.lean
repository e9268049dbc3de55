import Verif.Model.Route
import Verif.Proofs.Lookup
/-!
# `calc` with any `route`
-/

set_option linter.unusedSectionVars false

namespace Jieba
open Jieba.Spec

variable {F : Type _} [LinearOrder F]

/-- An entry of the model with natural numbers as an entry with ints. -/
def toInt (r : F × Nat) : F × Int := (r.1, (r.2 : Int))

theorem pyMax_toInt (x : F × Nat) (xs : List (F × Nat)) :
    pyMax (tupLt (fun a b : Int => decide (a < b))) (toInt x) (xs.map toInt) =
      toInt (pyMax (tupLt (fun a b : Nat => decide (a < b))) x xs) := by
  unfold pyMax
  induction xs generalizing x with
  | nil => rfl
  | cons y ys ih =>
    simp only [List.map_cons, List.foldl_cons]
    have h : tupLt (fun a b : Int => decide (a < b)) (toInt x) (toInt y) = tupLt (fun a b : Nat => decide (a < b)) x y := by
      unfold tupLt toInt
      have e : decide ((x.2 : Int) < (y.2 : Int)) = decide (x.2 < y.2) := decide_eq_decide.mpr Int.ofNat_lt
      simp only [e]
    rw [h]
    split
    · exact ih y
    · exact ih x

theorem maxTupD_toInt (l : List (F × Nat)) : maxTupD (l.map toInt) = (maxTup l).map toInt := by
  cases l with
  | nil => rfl
  | cons x xs => simp only [List.map_cons, maxTupD, maxTup, pyMax_toInt]; rfl

theorem mapM_toInt {f : Nat → Except PyErr (F × Nat)} {g : Int → Except PyErr (F × Int)} (L : List Nat)
    (h : ∀ x ∈ L, g (x : Int) = (f x).map toInt) : (L.map (fun x : Nat => (x : Int))).mapM g = (L.mapM f).map (List.map toInt) := by
  induction L with
  | nil => rfl
  | cons x xs ih =>
    have hx := h x (by simp)
    have hi := ih (fun y hy => h y (by simp [hy]))
    simp only [List.map_cons, List.mapM_cons, hx, bind, Except.bind, pure, Except.pure]
    cases f x with
    | error e => rfl
    | ok a =>
      simp only [Except.map]
      rw [hi]
      cases xs.mapM f with
      | error e => rfl
      | ok b => rfl

/-- What `route` contains when `n` positions are still to do. -/
def RouteAt (route0 : PyDict Int (F × Int)) (N n : Nat) (tail : List (F × Nat)) (route : PyDict Int (F × Int)) : Prop :=
  ∀ k : Int, PyDict.get? route k = if (n : Int) ≤ k ∧ k ≤ N then (tail[(k - n).toNat]?).map toInt else PyDict.get? route0 k

theorem edgeScoreD_eq (A : Arith F) (freq : Freq) (lt : F) (s : Str) (route0 route : PyDict Int (F × Int)) (idx : Nat)
    (tail : List (F × Nat)) (htl : idx + 1 + tail.length = s.length + 1) (hr : RouteAt route0 s.length (idx + 1) tail route) (x : Nat)
    (hx : (idx ≤ x ∧ x < s.length) ∨ PyDict.get? route0 ((x : Int) + 1) = none) :
    edgeScoreD A freq lt s route idx (x : Int) = (edgeScore A freq lt s tail idx x).map toInt := by
  have hsl : sliceInt s idx ((x : Int) + 1) = slice s idx (x + 1) := by
    unfold sliceInt
    rw [if_pos (by omega)]
    rfl
  unfold edgeScoreD edgeScore
  rw [hsl]
  simp only [bind, Except.bind]
  cases A.pylog (freqOr1 freq (slice s idx (x + 1))) with
  | error e => rfl
  | ok lf =>
    simp only []
    rw [hr]
    by_cases hb : idx ≤ x ∧ x < s.length
    · rw [if_pos (by omega), if_neg (by omega)]
      rw [show ((x : Int) + 1 - ((idx + 1 : Nat) : Int)).toNat = x - idx by omega]
      cases tail[x - idx]? with
      | none => rfl
      | some r => rfl
    · rw [if_neg (by omega), (hx.resolve_left hb)]
      by_cases hlt : x < idx
      · rw [if_pos hlt]; rfl
      · rw [if_neg hlt, List.getElem?_eq_none (by omega)]; rfl

theorem routeAt_set (route0 route : PyDict Int (F × Int)) (N idx : Nat) (tail : List (F × Nat)) (hN : idx ≤ N) (best : F × Nat)
    (hr : RouteAt route0 N (idx + 1) tail route) :
    RouteAt route0 N idx (best :: tail) (PyDict.set route (idx : Int) (toInt best)) := by
  intro k
  rw [PyDict.get?_set]
  by_cases hk : (idx : Int) = k
  · subst hk
    rw [if_pos rfl, if_pos (by omega)]
    simp
  · rw [if_neg hk, hr k]
    by_cases h : (idx : Int) ≤ k ∧ k ≤ N
    · rw [if_pos (by omega), if_pos h]
      rw [show (k - (idx : Int)).toNat = (k - ((idx + 1 : Nat) : Int)).toNat + 1 by omega]
      rfl
    · rw [if_neg (by omega), if_neg h]

theorem calcLoopD_eq (A : Arith F) (freq : Freq) (lt : F) (s : Str) (dagD : PyDict Int (List Int)) (dag : List (List Nat))
    (hd : ∀ x < s.length, PyDict.get? dagD (x : Int) = (dag[x]?).map (List.map (fun x : Nat => (x : Int))))
    (route0 : PyDict Int (F × Int))
    (h0 : ∀ x < s.length, ∀ L, dag[x]? = some L → ∀ e ∈ L, (x ≤ e ∧ e < s.length) ∨ PyDict.get? route0 ((e : Int) + 1) = none)
    (n : Nat) (tail : List (F × Nat)) (htl : n + tail.length = s.length + 1) (hn : n ≤ s.length)
    (route : PyDict Int (F × Int)) (hr : RouteAt route0 s.length n tail route) :
    match calcLoop A freq lt s dag n tail with
    | .error e => (calcLoopD A freq lt s dagD n route).2 = .error e
    | .ok full => ∃ route', calcLoopD A freq lt s dagD n route = (route', .ok ()) ∧ RouteAt route0 s.length 0 full route' := by
  induction n generalizing tail route with
  | zero => exact ⟨route, rfl, hr⟩
  | succ idx ih =>
    unfold calcLoop calcLoopD
    rw [hd idx (by omega)]
    cases hrow : dag[idx]? with
    | none => rfl
    | some L =>
      simp only [Option.map_some, bind, Except.bind]
      rw [mapM_toInt L (fun x hx => edgeScoreD_eq A freq lt s route0 route idx tail htl hr x (h0 idx (by omega) L hrow x hx))]
      cases L.mapM (edgeScore A freq lt s tail idx) with
      | error e => rfl
      | ok cands =>
        simp only [Except.map]
        rw [maxTupD_toInt]
        cases maxTup cands with
        | error e => rfl
        | ok best =>
          simp only [Except.map]
          exact ih (best :: tail) (by simp only [List.length_cons]; omega) (by omega) _ (routeAt_set route0 route _ idx tail (by omega) best hr)

/-- Keys outside of `0 … N` are never written. -/
theorem calcLoopD_rest (A : Arith F) (freq : Freq) (lt : F) (s : Str) (dagD : PyDict Int (List Int)) (n : Nat)
    (route : PyDict Int (F × Int)) (k : Int) (hk : k < 0 ∨ (n : Int) ≤ k) :
    PyDict.get? (calcLoopD A freq lt s dagD n route).1 k = PyDict.get? route k := by
  induction n generalizing route with
  | zero => rfl
  | succ idx ih =>
    unfold calcLoopD
    cases PyDict.get? dagD (idx : Int) with
    | none => rfl
    | some L =>
      simp only []
      cases L.mapM (edgeScoreD A freq lt s route idx) with
      | error e => rfl
      | ok cands =>
        simp only []
        cases maxTupD cands with
        | error e => rfl
        | ok best =>
          simp only []
          rw [ih _ (by omega), PyDict.get?_set_of_ne _ _ _ _ (by omega)]

theorem mapM_ok_mem {α β : Type _} {f : α → Except PyErr β} {L : List α} {ys : List β} (h : L.mapM f = .ok ys) :
    ∀ x ∈ L, ∃ y, f x = .ok y := by
  induction L generalizing ys with
  | nil => simp
  | cons a L ih =>
    simp only [List.mapM_cons, bind, Except.bind, pure, Except.pure] at h
    cases ha : f a with
    | error e => rw [ha] at h; simp at h
    | ok b =>
      rw [ha] at h
      cases hb : L.mapM f with
      | error e => rw [hb] at h; simp at h
      | ok bs =>
        intro x hx
        rcases List.mem_cons.mp hx with rfl | hx
        · exact ⟨b, ha⟩
        · exact ih hb x hx

/-- If the loop succeeds, every position has ends, and the entry behind every end was in `route` before or was written at a later position. -/
theorem calcLoopD_ok (A : Arith F) (freq : Freq) (lt : F) (s : Str) (dagD : PyDict Int (List Int)) (n N : Nat) (hn : n ≤ N)
    (route : PyDict Int (F × Int)) (hr : ∀ k : Int, (PyDict.get? route k).isSome → (n : Int) ≤ k ∧ k ≤ N)
    (h : (calcLoopD A freq lt s dagD n route).2 = .ok ()) :
    ∀ x < n, ∃ L, PyDict.get? dagD (x : Int) = some L ∧ L ≠ [] ∧ ∀ e ∈ L, (x : Int) ≤ e ∧ e < N := by
  induction n generalizing route with
  | zero => intro x hx; omega
  | succ idx ih =>
    unfold calcLoopD at h
    cases hd : PyDict.get? dagD (idx : Int) with
    | none => rw [hd] at h; simp at h
    | some L =>
      rw [hd] at h
      simp only [] at h
      cases hm : L.mapM (edgeScoreD A freq lt s route idx) with
      | error e => rw [hm] at h; simp at h
      | ok cands =>
        rw [hm] at h
        simp only [] at h
        cases hb : maxTupD cands with
        | error e => rw [hb] at h; simp at h
        | ok best =>
          rw [hb] at h
          simp only [] at h
          intro x hx
          by_cases hxi : x = idx
          · subst hxi
            refine ⟨L, hd, ?_, ?_⟩
            · rintro rfl
              simp only [List.mapM_nil, pure, Except.pure, Except.ok.injEq] at hm
              subst hm
              simp [maxTupD] at hb
            · intro e he
              obtain ⟨y, hy⟩ := mapM_ok_mem hm e he
              unfold edgeScoreD at hy
              simp only [bind, Except.bind] at hy
              cases hl : A.pylog (freqOr1 freq (sliceInt s x (e + 1))) with
              | error e' => rw [hl] at hy; simp at hy
              | ok lf =>
                rw [hl] at hy
                simp only [] at hy
                cases hg : PyDict.get? route (e + 1) with
                | none => rw [hg] at hy; simp at hy
                | some r =>
                  have := hr (e + 1) (by rw [hg]; rfl)
                  omega
          · refine ih (by omega) _ (fun k hk => ?_) h x (by omega)
            by_cases hk' : (idx : Int) = k
            · omega
            · rw [PyDict.get?_set_of_ne _ _ _ _ hk'] at hk
              have := hr k hk
              omega

end Jieba
