import Verif.Model.Tokenizer
import Verif.Spec.Dictionary
import Verif.Proofs.FinalSeg
/-!
# Lemmas about get_DAG and calc
-/

set_option linter.unusedSectionVars false

namespace Jieba
open Jieba.Spec

theorem truthy_iff (freq : Freq) (w : Str) : freq.truthy w = true ↔ DictWord freq w := by
  unfold Freq.truthy DictWord
  cases h : PyDict.get? freq w with
  | none => simp
  | some v => simp

theorem DictWord.has {freq : Freq} {w : Str} (h : DictWord freq w) : PyDict.has freq w = true := by
  obtain ⟨v, h, _⟩ := h
  exact (PyDict.has_iff _ _).mpr ⟨v, h⟩

theorem freqOr1_eq (freq : Freq) (w : Str) : freqOr1 freq w = scoreFreq freq w := rfl

/-- What the `while` loop of get_DAG computes: it scans a stretch of registered fragments and keeps the words. -/
theorem dagLoop_spec (freq : Freq) (s : Str) (k fuel i : Nat) (acc : List Nat) (hf : s.length - i < fuel) :
    ∃ m, dagLoop freq s k fuel i (slice s k (i + 1)) acc =
        acc ++ (List.range' i m).filter (fun j => freq.truthy (slice s k (j + 1))) ∧
      (m = 0 ∨ i + m ≤ s.length) ∧
      (∀ j, i ≤ j → j < i + m → PyDict.has freq (slice s k (j + 1)) = true) ∧
      (i + m < s.length → PyDict.has freq (slice s k (i + m + 1)) = false) := by
  induction fuel generalizing i acc with
  | zero => omega
  | succ fuel ih =>
    unfold dagLoop
    by_cases hc : i < s.length ∧ PyDict.has freq (slice s k (i + 1)) = true
    · rw [if_pos hc]
      obtain ⟨m, h1, h2, h3, h4⟩ := ih (i + 1)
        (if freq.truthy (slice s k (i + 1)) then acc ++ [i] else acc) (by omega)
      refine ⟨m + 1, ?_, ?_, ?_, ?_⟩
      · rw [h1, List.range'_succ]
        by_cases ht : freq.truthy (slice s k (i + 1)) = true <;> simp [ht]
      · right; omega
      · intro j hj1 hj2
        by_cases e : j = i
        · subst e; exact hc.2
        · exact h3 j (by omega) (by omega)
      · intro h
        have := h4 (by omega)
        rw [show i + (m + 1) + 1 = i + 1 + m + 1 by omega]; exact this
    · rw [if_neg hc]
      refine ⟨0, by simp, Or.inl rfl, by omega, ?_⟩
      intro h
      have hh : ¬ PyDict.has freq (slice s k (i + 1)) = true := fun h' => hc ⟨by omega, h'⟩
      simpa using hh

theorem filter_range'_mem (i m : Nat) (p : Nat → Bool) (x : Nat) :
    x ∈ (List.range' i m).filter p ↔ i ≤ x ∧ x < i + m ∧ p x = true := by
  simp [List.mem_filter, List.mem_range'_1, and_assoc]

/-- Rows of the DAG: never empty, only ends between `k` and `N-1`. -/
theorem dagRow_bounds (freq : Freq) (s : Str) (k : Nat) (hk : k < s.length) :
    dagRow freq s k ≠ [] ∧ ∀ x ∈ dagRow freq s k, k ≤ x ∧ x < s.length := by
  unfold dagRow
  obtain ⟨m, h1, h2, h3, h4⟩ := dagLoop_spec freq s k (s.length + 1) k [] (by omega)
  simp only
  split
  · simp; omega
  · rename_i hne
    refine ⟨hne, ?_⟩
    intro x hx
    rw [h1, List.nil_append, filter_range'_mem] at hx
    omega

/-- Words in a row are registered together with all shorter fragments; for a one-element default row `[k]` too. -/
theorem dagRow_mem (freq : Freq) (s : Str) (k x : Nat) (hk : k < s.length) (hx : x ∈ dagRow freq s k) :
    DictWord freq (slice s k (x + 1)) ∨ (x = k ∧ dagRow freq s k = [k]) := by
  revert hx
  unfold dagRow
  obtain ⟨m, h1, h2, h3, h4⟩ := dagLoop_spec freq s k (s.length + 1) k [] (by omega)
  simp only
  split
  · rename_i h; intro hx; right; simp at hx; exact ⟨hx, rfl⟩
  · intro hx
    left
    rw [h1, List.nil_append, filter_range'_mem] at hx
    exact (truthy_iff _ _).mp hx.2.2

/-- With a prefix-closed dictionary a row lists exactly the ends of dictionary words, in increasing order. -/
theorem dagRow_exact (freq : Freq) (hp : PrefixClosed freq) (s : Str) (k : Nat) (hk : k < s.length) :
    dagRow freq s k =
      if (List.range' k (s.length - k)).filter (fun j => freq.truthy (slice s k (j + 1))) = [] then [k]
      else (List.range' k (s.length - k)).filter (fun j => freq.truthy (slice s k (j + 1))) := by
  unfold dagRow
  obtain ⟨m, h1, h2, h3, h4⟩ := dagLoop_spec freq s k (s.length + 1) k [] (by omega)
  have key : dagLoop freq s k (s.length + 1) k (slice s k (k + 1)) [] =
      (List.range' k (s.length - k)).filter (fun j => freq.truthy (slice s k (j + 1))) := by
    rw [h1, List.nil_append]
    have hm : m ≤ s.length - k := by omega
    have e : s.length - k = m + (s.length - k - m) := by omega
    rw [e, ← List.range'_append_1, List.filter_append]
    have : (List.range' (k + m) (s.length - k - m)).filter (fun j => freq.truthy (slice s k (j + 1))) = [] := by
      rw [List.filter_eq_nil_iff]
      intro x hx ht
      rw [List.mem_range'_1] at hx
      have hw := DictWord.has ((truthy_iff _ _).mp ht)
      have := h4 (by omega)
      have hpre := hp _ hw (slice s k (k + m + 1)) (slice_ne_nil _ _ _ (by omega) (by omega))
        (slice_prefix _ _ _ _ (by omega))
      rw [this] at hpre
      exact Bool.noConfusion hpre
    rw [this, List.append_nil]
  simp only [key]

/-! ## calc -/

variable {F : Type _} [LinearOrder F]

theorem maxTup_spec (l : List (F × Nat)) (b : F × Nat) (h : maxTup l = .ok b) :
    b ∈ l ∧ ∀ y ∈ l, y.1 < b.1 ∨ (y.1 = b.1 ∧ y.2 ≤ b.2) := by
  cases l with
  | nil => simp [maxTup] at h
  | cons x xs =>
    simp only [maxTup, Except.ok.injEq] at h
    subst h
    unfold pyMax
    have key : ∀ (xs : List (F × Nat)) (x : F × Nat),
        (xs.foldl (fun m y => if tupLt (fun a b : Nat => decide (a < b)) m y then y else m) x) ∈ x :: xs ∧
        ∀ y ∈ x :: xs, y.1 < (xs.foldl (fun m y => if tupLt (fun a b : Nat => decide (a < b)) m y then y else m) x).1 ∨
          (y.1 = (xs.foldl (fun m y => if tupLt (fun a b : Nat => decide (a < b)) m y then y else m) x).1 ∧
           y.2 ≤ (xs.foldl (fun m y => if tupLt (fun a b : Nat => decide (a < b)) m y then y else m) x).2) := by
      intro xs
      induction xs with
      | nil => intro x; simp
      | cons z xs ih =>
        intro x
        simp only [List.foldl_cons]
        obtain ⟨i1, i2⟩ := ih (if tupLt (fun a b : Nat => decide (a < b)) x z then z else x)
        have hx : x.1 < (if tupLt (fun a b : Nat => decide (a < b)) x z then z else x).1 ∨
            (x.1 = (if tupLt (fun a b : Nat => decide (a < b)) x z then z else x).1 ∧
              x.2 ≤ (if tupLt (fun a b : Nat => decide (a < b)) x z then z else x).2) := by
          split
          · rename_i h; simp [tupLt] at h
            rcases h with h | h
            · exact Or.inl h
            · exact Or.inr ⟨h.1, by omega⟩
          · exact Or.inr ⟨rfl, le_refl _⟩
        have hz : z.1 < (if tupLt (fun a b : Nat => decide (a < b)) x z then z else x).1 ∨
            (z.1 = (if tupLt (fun a b : Nat => decide (a < b)) x z then z else x).1 ∧
              z.2 ≤ (if tupLt (fun a b : Nat => decide (a < b)) x z then z else x).2) := by
          split
          · exact Or.inr ⟨rfl, le_refl _⟩
          · rename_i h; simp [tupLt] at h
            rcases lt_or_eq_of_le h.1 with h' | h'
            · exact Or.inl h'
            · exact Or.inr ⟨h', h.2 h'.symm⟩
        constructor
        · rcases List.mem_cons.mp i1 with h | h
          · rw [h]; split <;> simp
          · simp [h]
        · intro y hy
          have trans : ∀ a b c : F × Nat, (a.1 < b.1 ∨ (a.1 = b.1 ∧ a.2 ≤ b.2)) →
              (b.1 < c.1 ∨ (b.1 = c.1 ∧ b.2 ≤ c.2)) → (a.1 < c.1 ∨ (a.1 = c.1 ∧ a.2 ≤ c.2)) := by
            intro a b c h1 h2
            rcases h1 with h1 | h1 <;> rcases h2 with h2 | h2
            · exact Or.inl (lt_trans h1 h2)
            · exact Or.inl (h2.1 ▸ h1)
            · exact Or.inl (h1.1 ▸ h2)
            · exact Or.inr ⟨h1.1.trans h2.1, le_trans h1.2 h2.2⟩
          rcases List.mem_cons.mp hy with rfl | hy
          · exact trans _ _ _ hx (i2 _ (by simp))
          · rcases List.mem_cons.mp hy with rfl | hy
            · exact trans _ _ _ hz (i2 _ (by simp))
            · exact i2 y (by simp [hy])
    exact key xs x

theorem maxTup_exists (l : List (F × Nat)) (h : l ≠ []) : ∃ b, maxTup l = .ok b := by
  cases l with
  | nil => exact absurd rfl h
  | cons x xs => exact ⟨_, rfl⟩

theorem mapM_except_ok {α β ε} (l : List α) (f : α → Except ε β) (r : List β) (h : l.mapM f = .ok r) :
    r.length = l.length ∧ (∀ a ∈ l, ∃ b ∈ r, f a = .ok b) ∧ (∀ b ∈ r, ∃ a ∈ l, f a = .ok b) := by
  induction l generalizing r with
  | nil => simp [pure, Except.pure] at h; subst h; simp
  | cons a l ih =>
    rw [List.mapM_cons] at h
    cases hfa : f a with
    | error e => rw [hfa] at h; simp [bind, Except.bind] at h
    | ok b =>
      rw [hfa] at h
      cases hl : l.mapM f with
      | error e => rw [hl] at h; simp [bind, Except.bind] at h
      | ok bs =>
        rw [hl] at h
        simp [bind, Except.bind, pure, Except.pure] at h
        subst h
        obtain ⟨h1, h2, h3⟩ := ih bs hl
        refine ⟨by simp [h1], ?_, ?_⟩
        · intro x hx
          rcases List.mem_cons.mp hx with rfl | hx
          · exact ⟨b, by simp, hfa⟩
          · obtain ⟨y, hy, e⟩ := h2 x hx; exact ⟨y, by simp [hy], e⟩
        · intro y hy
          rcases List.mem_cons.mp hy with rfl | hy
          · exact ⟨a, by simp, hfa⟩
          · obtain ⟨x, hx, e⟩ := h3 y hy; exact ⟨x, by simp [hx], e⟩

theorem mapM_except_total {α β ε} (l : List α) (f : α → Except ε β) (h : ∀ a ∈ l, ∃ b, f a = .ok b) :
    ∃ r, l.mapM f = .ok r := by
  induction l with
  | nil => exact ⟨[], rfl⟩
  | cons a l ih =>
    obtain ⟨b, hb⟩ := h a (by simp)
    obtain ⟨r, hr⟩ := ih (fun x hx => h x (by simp [hx]))
    exact ⟨b :: r, by rw [List.mapM_cons, hb, hr]; rfl⟩

/-- What the finished `route` says about position `idx`. -/
structure RowOK (A : Arith F) (freq : Freq) (total : Int) (s : Str) (dag : List (List Nat))
    (route : List (F × Nat)) (idx : Nat) : Prop where
  exists_best : ∃ L best nxt, dag[idx]? = some L ∧ route[idx]? = some best ∧ best.2 ∈ L ∧ idx ≤ best.2 ∧
    route[best.2 + 1]? = some nxt ∧ 0 < scoreFreq freq (slice s idx (best.2 + 1)) ∧
    best.1 = A.add (A.sub (A.log (scoreFreq freq (slice s idx (best.2 + 1))).toNat) (A.log total.toNat)) nxt.1 ∧
    ∀ x ∈ L, idx ≤ x ∧ ∃ nx, route[x + 1]? = some nx ∧
      (let sc := A.add (A.sub (A.log (scoreFreq freq (slice s idx (x + 1))).toNat) (A.log total.toNat)) nx.1
       sc < best.1 ∨ (sc = best.1 ∧ x ≤ best.2))

theorem edgeScore_ok (A : Arith F) (freq : Freq) (total : Int) (s : Str) (tail : List (F × Nat)) (idx x : Nat)
    (b : F × Nat) (h : edgeScore A freq (A.log total.toNat) s tail idx x = .ok b) :
    idx ≤ x ∧ b.2 = x ∧ 0 < scoreFreq freq (slice s idx (x + 1)) ∧ ∃ r, tail[x - idx]? = some r ∧
      b.1 = A.add (A.sub (A.log (scoreFreq freq (slice s idx (x + 1))).toNat) (A.log total.toNat)) r.1 := by
  unfold edgeScore at h
  simp only [freqOr1_eq] at h
  unfold Arith.pylog at h
  by_cases hp : 0 < scoreFreq freq (slice s idx (x + 1))
  · simp only [hp, if_true, bind, Except.bind] at h
    by_cases hx : x < idx
    · simp [hx] at h
    · simp only [hx, if_false] at h
      cases ht : tail[x - idx]? with
      | none => rw [ht] at h; simp at h
      | some r =>
        rw [ht] at h
        simp at h
        subst h
        exact ⟨by omega, rfl, hp, r, rfl, rfl⟩
  · simp [hp, bind, Except.bind] at h

theorem calcLoop_ok (A : Arith F) (freq : Freq) (total : Int) (s : Str) (dag : List (List Nat)) (n : Nat)
    (tail route : List (F × Nat)) (h : calcLoop A freq (A.log total.toNat) s dag n tail = .ok route) :
    ∃ pre, route = pre ++ tail ∧ pre.length = n ∧ ∀ idx < n, RowOK A freq total s dag route idx := by
  induction n generalizing tail with
  | zero => simp [calcLoop] at h; exact ⟨[], by simp [h], rfl, by omega⟩
  | succ idx ih =>
    unfold calcLoop at h
    cases hd : dag[idx]? with
    | none => rw [hd] at h; simp at h
    | some L =>
      rw [hd] at h
      simp only [bind, Except.bind] at h
      cases hm : L.mapM (edgeScore A freq (A.log total.toNat) s tail idx) with
      | error e => rw [hm] at h; simp at h
      | ok cands =>
        rw [hm] at h
        simp only at h
        cases hb : maxTup cands with
        | error e => rw [hb] at h; simp at h
        | ok best =>
          rw [hb] at h
          simp only at h
          obtain ⟨pre, hroute, hlen, hrows⟩ := ih (best :: tail) h
          refine ⟨pre ++ [best], by simp [hroute], by simp [hlen], ?_⟩
          intro i hi
          by_cases hlt : i < idx
          · exact hrows i hlt
          · have : i = idx := by omega
            subst this
            obtain ⟨hmem, hmax⟩ := maxTup_spec cands best hb
            obtain ⟨_, hm1, hm2⟩ := mapM_except_ok _ _ _ hm
            obtain ⟨x, hxL, hxe⟩ := hm2 best hmem
            obtain ⟨e1, e2, e3, r, e4, e5⟩ := edgeScore_ok A freq total s tail i x best hxe
            have hget : ∀ x, i ≤ x → route[x + 1]? = tail[x - i]? := by
              intro x hx
              rw [hroute, List.getElem?_append_right (by omega), hlen, show x + 1 - i = (x - i) + 1 by omega]
              simp
            refine ⟨L, best, r, hd, ?_, by rw [e2]; exact hxL, by omega, ?_, by rw [e2]; exact e3, ?_, ?_⟩
            · rw [hroute, List.getElem?_append_right (by omega), hlen]; simp
            · rw [e2, hget x e1]; exact e4
            · rw [e2]; exact e5
            · intro x' hx'
              obtain ⟨b', hb', hbe⟩ := hm1 x' hx'
              obtain ⟨f1, f2, f3, r', f4, f5⟩ := edgeScore_ok A freq total s tail i x' b' hbe
              refine ⟨f1, r', ?_, ?_⟩
              · rw [hget x' f1]; exact f4
              · have := hmax b' hb'
                rw [f5, f2] at this
                exact this

theorem calcRoute_ok (A : Arith F) (freq : Freq) (total : Int) (s : Str) (dag : List (List Nat))
    (route : List (F × Nat)) (h : calcRoute A freq total s dag = .ok route) :
    0 < total ∧ route.length = s.length + 1 ∧ route[s.length]? = some (A.zero, 0) ∧
      ∀ idx < s.length, RowOK A freq total s dag route idx := by
  unfold calcRoute at h
  by_cases ht : 0 < total
  · simp only [Arith.pylog, ht, if_true, bind, Except.bind] at h
    obtain ⟨pre, h1, h2, h3⟩ := calcLoop_ok A freq total s dag _ _ _ h
    refine ⟨ht, by simp [h1, h2], ?_, h3⟩
    rw [h1, List.getElem?_append_right (by omega), h2]; simp
  · simp [Arith.pylog, ht, bind, Except.bind] at h

theorem scoreFreq_pos (freq : Freq) (h : NonNeg freq) (w : Str) : 0 < scoreFreq freq w := by
  unfold scoreFreq
  split
  · rename_i v hv
    have := h w v hv
    split <;> omega
  · decide

/-- On a well-formed dictionary and the DAG it computes, `calc` never raises. -/
theorem calcLoop_total (A : Arith F) (freq : Freq) (hn : NonNeg freq) (lt : F) (s : Str) (n : Nat)
    (tail : List (F × Nat)) (hn' : n ≤ s.length) (htl : n + tail.length = s.length + 1) :
    ∃ route, calcLoop A freq lt s (getDAG freq s) n tail = .ok route := by
  induction n generalizing tail with
  | zero => exact ⟨tail, rfl⟩
  | succ idx ih =>
    unfold calcLoop
    have hidx : idx < s.length := by omega
    have hd : (getDAG freq s)[idx]? = some (dagRow freq s idx) := by
      unfold getDAG; simp [hidx]
    rw [hd]
    obtain ⟨hne, hb⟩ := dagRow_bounds freq s idx hidx
    have : ∀ x ∈ dagRow freq s idx, ∃ b, edgeScore A freq lt s tail idx x = .ok b := by
      intro x hx
      obtain ⟨h1, h2⟩ := hb x hx
      have ht : ∃ r, tail[x - idx]? = some r := ⟨tail[x - idx]'(by omega), List.getElem?_eq_getElem _⟩
      obtain ⟨r, hr⟩ := ht
      unfold edgeScore
      simp only [freqOr1_eq, Arith.pylog, scoreFreq_pos freq hn, if_true, bind, Except.bind, if_neg (show ¬ x < idx by omega), hr]
      exact ⟨_, rfl⟩
    obtain ⟨cands, hc⟩ := mapM_except_total _ _ this
    have hcne : cands ≠ [] := by
      intro e
      have := (mapM_except_ok _ _ _ hc).1
      rw [e] at this
      exact hne (List.length_eq_zero_iff.mp this.symm)
    obtain ⟨best, hbest⟩ := maxTup_exists cands hcne
    simp only [bind, Except.bind, hc, hbest]
    exact ih (best :: tail) (by omega) (by simp; omega)

theorem calcRoute_total (A : Arith F) (freq : Freq) (hn : NonNeg freq) (total : Int) (ht : 0 < total) (s : Str) :
    ∃ route, calcRoute A freq total s (getDAG freq s) = .ok route := by
  unfold calcRoute
  simp only [Arith.pylog, ht, if_true, bind, Except.bind]
  exact calcLoop_total A freq hn _ s s.length _ (le_refl _) (by simp)

theorem calcRoute_raises (A : Arith F) (freq : Freq) (total : Int) (ht : ¬ 0 < total) (s : Str) (dag : List (List Nat)) :
    calcRoute A freq total s dag = .error .valueError := by
  unfold calcRoute
  simp [Arith.pylog, ht, bind, Except.bind]

/-! ## The path through the route -/

/-- The words read off the route from position `x`. -/
def pathFrom (s : Str) (route : List (F × Nat)) : Nat → Nat → List Str
  | 0, _ => []
  | fuel + 1, x =>
    if x < s.length then
      match route[x]? with
      | none => []
      | some r => slice s x (r.2 + 1) :: pathFrom s route fuel (r.2 + 1)
    else []

/-- Every position has an end not before it and inside the text. -/
def RouteWF (s : Str) (route : List (F × Nat)) : Prop :=
  ∀ x < s.length, ∃ r, route[x]? = some r ∧ x ≤ r.2 ∧ r.2 < s.length

theorem getDAG_get (freq : Freq) (s : Str) (k : Nat) (hk : k < s.length) : (getDAG freq s)[k]? = some (dagRow freq s k) := by
  unfold getDAG; simp [hk]

theorem routeWF_of_calc (A : Arith F) (freq : Freq) (total : Int) (s : Str) (route : List (F × Nat))
    (h : calcRoute A freq total s (getDAG freq s) = .ok route) : RouteWF s route := by
  obtain ⟨_, _, _, hrow⟩ := calcRoute_ok A freq total s _ route h
  intro x hx
  obtain ⟨L, best, nxt, h1, h2, h3, h4, -⟩ := (hrow x hx).exists_best
  rw [getDAG_get freq s x hx] at h1
  simp at h1; subst h1
  exact ⟨best, h2, h4, ((dagRow_bounds freq s x hx).2 _ h3).2⟩

theorem pathFrom_flatten (s : Str) (route : List (F × Nat)) (hr : RouteWF s route) (fuel x : Nat)
    (hf : s.length - x ≤ fuel) :
    (pathFrom s route fuel x).flatten = s.drop x ∧ ∀ w ∈ pathFrom s route fuel x, w ≠ [] := by
  induction fuel generalizing x with
  | zero =>
    have : s.drop x = [] := List.drop_eq_nil_of_le (by omega)
    simp [pathFrom, this]
  | succ fuel ih =>
    unfold pathFrom
    by_cases hx : x < s.length
    · rw [if_pos hx]
      obtain ⟨r, h1, h2, h3⟩ := hr x hx
      rw [h1]
      obtain ⟨i1, i2⟩ := ih (r.2 + 1) (by omega)
      refine ⟨?_, ?_⟩
      · simp only [List.flatten_cons, i1]
        exact slice_append_drop _ _ _ (by omega)
      · intro w hw
        rcases List.mem_cons.mp hw with rfl | hw
        · exact slice_ne_nil _ _ _ (by omega) hx
        · exact i2 w hw
    · rw [if_neg hx]
      have : s.drop x = [] := List.drop_eq_nil_of_le (by omega)
      simp [this]

/-- Merging of adjacent one-letter path words, as `__cut_DAG_NO_HMM` does. -/
def mergeEng : Str → List Str → List Str
  | buf, [] => if buf = [] then [] else [buf]
  | buf, w :: ws =>
    if reEng.isMatch w && w.length == 1 then mergeEng (buf ++ w) ws
    else (if buf = [] then [] else [buf]) ++ w :: mergeEng [] ws

theorem noHmmLoop_eq (s : Str) (route : List (F × Nat)) (hr : RouteWF s route) (fuel x : Nat) (buf : Str)
    (hf : s.length - x ≤ fuel) :
    noHmmLoop s route fuel x buf = Gen.ok (mergeEng buf (pathFrom s route fuel x)) := by
  induction fuel generalizing x buf with
  | zero => simp [noHmmLoop, pathFrom, mergeEng]
  | succ fuel ih =>
    unfold noHmmLoop pathFrom
    by_cases hx : x < s.length
    · rw [if_pos hx, if_pos hx]
      obtain ⟨r, h1, h2, h3⟩ := hr x hx
      rw [h1]
      simp only [mergeEng]
      by_cases hm : (reEng.isMatch (slice s x (r.2 + 1)) && (slice s x (r.2 + 1)).length == 1) = true
      · rw [if_pos hm, if_pos hm]
        exact ih _ _ (by omega)
      · rw [if_neg hm, if_neg hm, ih _ _ (by omega)]
        simp
    · rw [if_neg hx, if_neg hx]
      simp [mergeEng]

/-- Regrouping of runs of single-character path words, as `__cut_DAG` does. -/
def regroup (freq : Freq) (hmm : Str → Gen Str) : Str → List Str → Gen Str
  | buf, [] => flushBuf freq hmm buf
  | buf, w :: ws =>
    if w.length = 1 then regroup freq hmm (buf ++ w) ws
    else Gen.andThen (flushBuf freq hmm buf) (Gen.andThen (Gen.ok [w]) (regroup freq hmm [] ws))

theorem dagCutLoop_eq (freq : Freq) (hmm : Str → Gen Str) (s : Str) (route : List (F × Nat)) (hr : RouteWF s route)
    (fuel x : Nat) (buf : Str) (hf : s.length - x ≤ fuel) :
    dagCutLoop freq hmm s route fuel x buf = regroup freq hmm buf (pathFrom s route fuel x) := by
  induction fuel generalizing x buf with
  | zero => simp [dagCutLoop, pathFrom, regroup]
  | succ fuel ih =>
    unfold dagCutLoop pathFrom
    by_cases hx : x < s.length
    · rw [if_pos hx, if_pos hx]
      obtain ⟨r, h1, h2, h3⟩ := hr x hx
      rw [h1]
      simp only [regroup]
      have hl : (slice s x (r.2 + 1)).length = r.2 + 1 - x := slice_length _ _ _ (by omega)
      rw [hl]
      by_cases hm : r.2 + 1 - x = 1
      · rw [if_pos hm, if_pos hm]
        exact ih _ _ (by omega)
      · rw [if_neg hm, if_neg hm, ih _ _ (by omega)]
    · rw [if_neg hx, if_neg hx]
      simp [regroup]

end Jieba
