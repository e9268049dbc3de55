import Verif.Proofs.Route
import Verif.Props.Lookup
/-!
# C134 — `calc(sentence, DAG, route)` with any `route`
-/

set_option linter.unusedSectionVars false

namespace Jieba.Props
open Jieba Jieba.Spec

variable {F : Type _} [LinearOrder F]

/-- C134: `calc` writes nothing outside of the keys `0` to `len(sentence)`, whatever graph and route it is given and whether or not it
raises; and afterwards the entry at `len(sentence)` is `(0, 0)`. -/
theorem C134_rest_untouched (S : Sys F) (w : World) (t : Nat) (s : Str) (dag : PyDict Int (List Int)) (route : PyDict Int (F × Int)) :
    (∀ k : Int, k < 0 ∨ (s.length : Int) < k → PyDict.get? (calcD S w t s dag route).1 k = PyDict.get? route k) ∧
      PyDict.get? (calcD S w t s dag route).1 (s.length : Int) = some (S.A.zero, 0) := by
  unfold calcD
  constructor
  · intro k hk
    cases S.A.pylog (w.tok t).total with
    | error e => exact PyDict.get?_set_of_ne _ _ _ _ (by omega)
    | ok lt =>
      simp only []
      rw [calcLoopD_rest _ _ _ _ _ _ _ _ (by omega), PyDict.get?_set_of_ne _ _ _ _ (by omega)]
  · cases S.A.pylog (w.tok t).total with
    | error e => exact PyDict.get?_set_self _ _ _
    | ok lt =>
      simp only []
      rw [calcLoopD_rest _ _ _ _ _ _ _ _ (by omega), PyDict.get?_set_self]

/-- C134: if every end in the graph is inside the text and not before its position, or the route has no entry behind it, then what the
route contained before does not matter: `calc` raises the exception that it raises with an empty route, or the entries at `0` to
`len(sentence)` are those of C128 afterwards. -/
theorem C134_route_before_is_ignored (S : Sys F) (w : World) (t : Nat) (s : Str) (dagD : PyDict Int (List Int)) (dag : List (List Nat))
    (hd : ∀ x < s.length, PyDict.get? dagD (x : Int) = (dag[x]?).map (List.map (fun x : Nat => (x : Int))))
    (route : PyDict Int (F × Int))
    (h0 : ∀ x < s.length, ∀ L, dag[x]? = some L → ∀ e ∈ L, (x ≤ e ∧ e < s.length) ∨ PyDict.get? route ((e : Int) + 1) = none) :
    match calcW S w t s dag with
    | .error e => (calcD S w t s dagD route).2 = .error e
    | .ok full => (calcD S w t s dagD route).2 = .ok () ∧
        ∀ k ≤ s.length, PyDict.get? (calcD S w t s dagD route).1 (k : Int) = (full[k]?).map (fun r => (r.1, (r.2 : Int))) := by
  unfold calcW calcRoute calcD
  simp only [bind, Except.bind]
  cases S.A.pylog (w.tok t).total with
  | error e => rfl
  | ok lt =>
    simp only []
    have hr : RouteAt route s.length s.length [(S.A.zero, 0)] (PyDict.set route (s.length : Int) (S.A.zero, 0)) := by
      intro k
      rw [PyDict.get?_set]
      by_cases hk : (s.length : Int) = k
      · subst hk
        simp [toInt]
      · rw [if_neg hk, if_neg (by omega)]
    have := calcLoopD_eq S.A (w.tok t).freq lt s dagD dag hd route h0 s.length _ (by simp) (le_refl _) _ hr
    cases hc : calcLoop S.A (w.tok t).freq lt s dag s.length [(S.A.zero, 0)] with
    | error e => rw [hc] at this; exact this
    | ok full =>
      rw [hc] at this
      obtain ⟨route', h1, h2⟩ := this
      simp only [h1, true_and]
      intro k hk
      rw [h2, if_pos (by omega)]
      simp only [Nat.cast_zero, Int.sub_zero, Int.toNat_natCast]
      rfl

/-- C134: with an empty route, `calc` succeeds if and only if every position has ends, all of them inside the text and not before the position:
negative ends raise as well. -/
theorem C134_calc_succeeds (S : Sys F) (w : World) (t : Nat) (hn : NonNeg (w.tok t).freq) (ht : 0 < (w.tok t).total) (s : Str)
    (dagD : PyDict Int (List Int)) :
    (calcD S w t s dagD []).2 = .ok () ↔
      ∀ x < s.length, ∃ L, PyDict.get? dagD (x : Int) = some L ∧ L ≠ [] ∧ ∀ e ∈ L, (x : Int) ≤ e ∧ e < s.length := by
  constructor
  · intro h
    unfold calcD at h
    cases hl : S.A.pylog (w.tok t).total with
    | error e => rw [hl] at h; simp at h
    | ok lt =>
      rw [hl] at h
      simp only [] at h
      refine calcLoopD_ok _ _ _ _ _ _ _ (le_refl _) _ (fun k hk => ?_) h
      by_cases hk' : (s.length : Int) = k
      · omega
      · rw [PyDict.get?_set_of_ne _ _ _ _ hk'] at hk
        simp [PyDict.get?] at hk
  · intro h
    choose! rows h1 h2 h3 using h
    let dag : List (List Nat) := (List.range s.length).map (fun x => (rows x).map Int.toNat)
    have hdag : ∀ x < s.length, dag[x]? = some ((rows x).map Int.toNat) := by
      intro x hx
      simp only [dag, List.getElem?_map, List.getElem?_range hx, Option.map_some]
    have hd : ∀ x < s.length, PyDict.get? dagD (x : Int) = (dag[x]?).map (List.map (fun x : Nat => (x : Int))) := by
      intro x hx
      rw [hdag x hx, h1 x hx, Option.map_some, List.map_map]
      congr 1
      refine (List.map_id _).symm.trans (List.map_congr_left (fun e he => ?_))
      have := h3 x hx e he
      simp only [id, Function.comp]
      omega
    have hs : SoundGraph s.length dag := by
      intro x hx
      refine ⟨_, hdag x hx, by simpa using h2 x hx, ?_⟩
      intro e he
      obtain ⟨e', he', rfl⟩ := List.mem_map.mp he
      have := h3 x hx e' he'
      omega
    obtain ⟨full, hf⟩ := (C128_calc_succeeds S w t hn ht s dag).mpr hs
    have := C134_route_before_is_ignored S w t s dagD dag hd [] (fun x hx L hL e he => by
      obtain ⟨L', e1, -, e2⟩ := hs x hx
      rw [hL] at e1
      simp at e1
      subst e1
      exact Or.inl (e2 e he))
    rw [hf] at this
    exact this.1

/-- C134: one route may be handed in again and again: with sound graphs, after any calls of `calc` with other texts and graphs, the entries at `0` to
`len(sentence)` are those with an empty route. -/
theorem C134_route_reused (S : Sys F) (w : World) (t : Nat) (hn : NonNeg (w.tok t).freq) (ht : 0 < (w.tok t).total) (s : Str)
    (dag : List (List Nat)) (hs : SoundGraph s.length dag) (dagD : PyDict Int (List Int))
    (hd : ∀ x < s.length, PyDict.get? dagD (x : Int) = (dag[x]?).map (List.map (fun x : Nat => (x : Int))))
    (route : PyDict Int (F × Int)) (before : List (Str × PyDict Int (List Int))) :
    (calcD S w t s dagD (before.foldl (fun r b => (calcD S w t b.1 b.2 r).1) route)).2 = .ok () ∧
    ∀ k : Nat, k ≤ s.length →
      PyDict.get? (calcD S w t s dagD (before.foldl (fun r b => (calcD S w t b.1 b.2 r).1) route)).1 (k : Int) =
        PyDict.get? (calcD S w t s dagD []).1 (k : Int) := by
  have h0 : ∀ route : PyDict Int (F × Int), ∀ x < s.length, ∀ L, dag[x]? = some L → ∀ e ∈ L,
      (x ≤ e ∧ e < s.length) ∨ PyDict.get? route ((e : Int) + 1) = none := by
    intro route x hx L hL e he
    obtain ⟨L', e1, -, e2⟩ := hs x hx
    rw [hL] at e1
    simp at e1
    subst e1
    exact Or.inl (e2 e he)
  obtain ⟨full, hf⟩ := (C128_calc_succeeds S w t hn ht s dag).mpr hs
  have a := C134_route_before_is_ignored S w t s dagD dag hd _
    (h0 (before.foldl (fun r b => (calcD S w t b.1 b.2 r).1) route))
  have b := C134_route_before_is_ignored S w t s dagD dag hd _ (h0 [])
  rw [hf] at a b
  exact ⟨a.1, fun k hk => (a.2 k hk).trans (b.2 k hk).symm⟩

/-- The world of the examples. -/
def routeWorld : World := (checkInit sampleSys sampleWorld 0 true).1

/-- C134: with an end outside of the text, what the route contained before does matter: after `calc` of 北京大学, `calc` of 北京 with a graph with an
end that is too far succeeds and uses the entry of the other text, while it raises KeyError with an empty route. -/
theorem C134_stale_entries :
    (calcD sampleSys routeWorld 0 (lit ['北', '京', '大', '学']) [(0, [1]), (1, [1]), (2, [3]), (3, [3])] []).2 = .ok () ∧
    (calcD sampleSys routeWorld 0 (lit ['北', '京']) [(0, [1, 3]), (1, [1])] []).2 = .error .keyError ∧
    (calcD sampleSys routeWorld 0 (lit ['北', '京']) [(0, [1, 3]), (1, [1])]
      (calcD sampleSys routeWorld 0 (lit ['北', '京', '大', '学']) [(0, [1]), (1, [1]), (2, [3]), (3, [3])] []).1).2 = .ok () ∧
    (calcD sampleSys routeWorld 0 (lit ['北', '京']) [(0, [1]), (1, [-1])] []).2 = .error .keyError := by
  decide +kernel

/-- The hypotheses of the theorems are met, with a route that has entries at 0, 1 and 9. -/
example : NonNeg (routeWorld.tok 0).freq ∧ (∀ x : Nat, x < 2 → PyDict.get? ([(0, [0, 1]), (1, [1])] : PyDict Int (List Int)) (x : Int) =
      (([[0, 1], [1]] : List (List Nat))[x]?).map (List.map (fun x : Nat => (x : Int)))) ∧ SoundGraph 2 [[0, 1], [1]] ∧
    0 < (routeWorld.tok 0).total ∧
    (calcD sampleSys routeWorld 0 (lit ['北', '京']) [(0, [0, 1]), (1, [1])] [(0, (7, 3)), (1, (9, 2)), (9, (1, 1))]).1 =
      (PyDict.set (PyDict.set (PyDict.set [(0, (7, 3)), (1, (9, 2)), (9, (1, 1))] 2 (0, 0))
        1 ((calcD sampleSys routeWorld 0 (lit ['北', '京']) [(0, [0, 1]), (1, [1])] []).1.get? 1).get!)
        0 ((calcD sampleSys routeWorld 0 (lit ['北', '京']) [(0, [0, 1]), (1, [1])] []).1.get? 0).get!) := by
  refine ⟨nonNeg_of_all _ (by decide +kernel), by decide, ?_, by decide +kernel, by decide +kernel⟩
  intro x hx
  have : x = 0 ∨ x = 1 := by omega
  rcases this with rfl | rfl <;> exact ⟨_, rfl, by decide, by decide⟩

end Jieba.Props
