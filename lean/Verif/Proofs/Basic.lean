import Verif.Model.Basic
import Mathlib.Data.List.Basic
/-!
# Lemmas about slices, generators and dicts
-/

namespace Jieba

/-! ## slices -/

theorem slice_eq {α} (s : List α) (i j : Nat) : slice s i j = (s.drop i).take (j - i) := by
  unfold slice; rw [List.drop_take]

theorem slice_append_drop {α} (s : List α) (i j : Nat) (h : i ≤ j) : slice s i j ++ s.drop j = s.drop i := by
  rw [slice_eq]
  have : s.drop j = (s.drop i).drop (j - i) := by rw [List.drop_drop]; congr 1; omega
  rw [this, List.take_append_drop]

theorem slice_length {α} (s : List α) (i j : Nat) (hj : j ≤ s.length) : (slice s i j).length = j - i := by
  unfold slice; simp; omega

theorem slice_ne_nil {α} (s : List α) (i j : Nat) (hi : i < j) (hj : i < s.length) : slice s i j ≠ [] := by
  intro h
  have := congrArg List.length h
  unfold slice at this; simp at this; omega

theorem slice_zero_length {α} (s : List α) : slice s 0 s.length = s := by simp [slice]

theorem slice_append {α} (s : List α) (i j k : Nat) (h1 : i ≤ j) (h2 : j ≤ k) :
    slice s i j ++ slice s j k = slice s i k := by
  rw [slice_eq, slice_eq, slice_eq]
  have e : k - i = (j - i) + (k - j) := by omega
  rw [e, List.take_add, List.drop_drop]
  congr 4; omega

theorem slice_one {α} (s : List α) (k : Nat) (h : k < s.length) : slice s k (k + 1) = [s[k]] := by
  rw [slice_eq]
  have : k + 1 - k = 1 := by omega
  rw [this, List.drop_eq_getElem_cons h, List.take_succ_cons, List.take_zero]

theorem slice_prefix {α} (s : List α) (k i j : Nat) (h : i ≤ j) : slice s k i <+: slice s k j := by
  rw [slice_eq, slice_eq]
  exact List.take_prefix_take_left (by omega)

/-- Non-empty prefixes of `s.drop k` are the slices starting at `k`. -/
theorem prefix_drop_iff {α} (s : List α) (k : Nat) (p : List α) (hk : k ≤ s.length) :
    p <+: s.drop k ↔ p = slice s k (k + p.length) ∧ k + p.length ≤ s.length := by
  constructor
  · intro h
    have hl := h.length_le
    simp at hl
    refine ⟨?_, by omega⟩
    rw [slice_eq]
    have : k + p.length - k = p.length := by omega
    rw [this]
    exact List.prefix_iff_eq_take.mp h
  · rintro ⟨h, _⟩
    rw [h, slice_eq]
    exact List.take_prefix _ _

/-! ## generators -/

namespace Gen

@[simp] theorem ok_out {α} (l : List α) : (ok l).out = l := rfl
@[simp] theorem ok_err {α} (l : List α) : (ok l).err = none := rfl
@[simp] theorem raise_out {α} (e : PyErr) : (raise e : Gen α).out = [] := rfl
@[simp] theorem raise_err {α} (e : PyErr) : (raise e : Gen α).err = some e := rfl

@[simp] theorem ok_andThen_ok {α} (a b : List α) : andThen (ok a) (ok b) = ok (a ++ b) := rfl
@[simp] theorem ok_nil_andThen {α} (g : Gen α) : andThen (ok []) g = g := by
  cases g; rfl
theorem ok_andThen {α} (a : List α) (g : Gen α) : andThen (ok a) g = ⟨a ++ g.out, g.err⟩ := rfl

theorem eq_ok_iff {α} (g : Gen α) (l : List α) : g = ok l ↔ g.err = none ∧ g.out = l := by
  cases g; simp [ok, and_comm]

theorem eq_ok_of_err {α} (g : Gen α) (h : g.err = none) : g = ok g.out := by
  cases g; simp_all [ok]

theorem andThen_assoc {α} (a b c : Gen α) : andThen (andThen a b) c = andThen a (andThen b c) := by
  cases a with | mk ao ae => cases b with | mk bo be => cases c with | mk co ce =>
  cases ae <;> cases be <;> simp [andThen]

@[simp] theorem andThen_ok_nil {α} (g : Gen α) : andThen g (ok []) = g := by
  cases g with | mk o e => cases e <;> simp [andThen]

theorem andThen_err_none {α} (a b : Gen α) : (andThen a b).err = none ↔ a.err = none ∧ b.err = none := by
  cases a with | mk ao ae => cases b with | mk bo be => cases ae <;> simp [andThen]

theorem andThen_out_of_ok {α} (a b : Gen α) (h : a.err = none) : (andThen a b).out = a.out ++ b.out := by
  cases a with | mk ao ae => cases b with | mk bo be => simp at h; subst h; simp [andThen]

@[simp] theorem forEach_nil {α β} (f : α → Gen β) : forEach [] f = ok [] := rfl
@[simp] theorem forEach_cons {α β} (a : α) (l : List α) (f : α → Gen β) :
    forEach (a :: l) f = andThen (f a) (forEach l f) := rfl

theorem forEach_append {α β} (l m : List α) (f : α → Gen β) :
    forEach (l ++ m) f = andThen (forEach l f) (forEach m f) := by
  induction l with
  | nil => simp
  | cons a l ih => simp [ih, andThen_assoc]

theorem forEach_congr {α β} {l : List α} {f g : α → Gen β} (h : ∀ a ∈ l, f a = g a) :
    forEach l f = forEach l g := by
  induction l with
  | nil => rfl
  | cons a l ih => simp [h a (by simp), ih (fun b hb => h b (by simp [hb]))]

/-- A loop whose body never raises yields the concatenation. -/
theorem forEach_ok {α β} (l : List α) (f : α → List β) : forEach l (fun a => ok (f a)) = ok (l.flatMap f) := by
  induction l with
  | nil => rfl
  | cons a l ih => simp [ih]

theorem forEach_eq_ok {α β} (l : List α) (f : α → Gen β) (h : ∀ a ∈ l, (f a).err = none) :
    forEach l f = ok (l.flatMap (fun a => (f a).out)) := by
  rw [← forEach_ok]
  exact forEach_congr (fun a ha => eq_ok_of_err _ (h a ha))

@[simp] theorem mapOut_ok {α β} (l : List α) (f : α → List β) : (ok l).mapOut f = ok (l.flatMap f) := rfl
@[simp] theorem mapOut_out {α β} (g : Gen α) (f : α → List β) : (g.mapOut f).out = g.out.flatMap f := rfl
@[simp] theorem mapOut_err {α β} (g : Gen α) (f : α → List β) : (g.mapOut f).err = g.err := rfl
@[simp] theorem ofExcept_ok {α β} (a : α) (k : α → Gen β) : ofExcept (.ok a) k = k a := rfl
@[simp] theorem ofExcept_error {α β} (e : PyErr) (k : α → Gen β) : ofExcept (.error e) k = raise e := rfl

end Gen

/-! ## dicts -/

namespace PyDict
variable {K V : Type _} [DecidableEq K]

@[simp] theorem get?_nil (k : K) : get? ([] : PyDict K V) k = none := rfl

@[simp] theorem get?_set_self (d : PyDict K V) (k : K) (v : V) : get? (set d k v) k = some v := by
  induction d with
  | nil => simp [set, get?]
  | cons kv d ih => obtain ⟨k', v'⟩ := kv; by_cases h : k' = k <;> simp [set, get?, h, ih]

theorem get?_set_of_ne (d : PyDict K V) (k k' : K) (v : V) (h : k ≠ k') : get? (set d k v) k' = get? d k' := by
  induction d with
  | nil => simp [set, get?, h]
  | cons kv d ih =>
    obtain ⟨k0, v0⟩ := kv
    by_cases h0 : k0 = k
    · subst h0; simp [set, get?, h]
    · simp only [set, if_neg h0, get?, ih]

theorem get?_set (d : PyDict K V) (k k' : K) (v : V) :
    get? (set d k v) k' = if k = k' then some v else get? d k' := by
  by_cases h : k = k'
  · subst h; simp
  · simp [h, get?_set_of_ne]

theorem has_iff (d : PyDict K V) (k : K) : has d k = true ↔ ∃ v, get? d k = some v := by
  unfold has; cases get? d k <;> simp

theorem has_set (d : PyDict K V) (k k' : K) (v : V) : has (set d k v) k' = (decide (k = k') || has d k') := by
  unfold has; rw [get?_set]; by_cases h : k = k' <;> simp [h]

theorem mem_keys_iff (d : PyDict K V) (k : K) : k ∈ keys d ↔ has d k = true := by
  induction d with
  | nil => simp [keys, has]
  | cons kv d ih =>
    obtain ⟨k', v'⟩ := kv
    unfold keys has at *
    by_cases h : k' = k
    · simp [get?, h]
    · have h' : ¬ k = k' := fun e => h e.symm
      simp only [List.map_cons, List.mem_cons, h', false_or, get?, if_neg h]
      exact ih

theorem keys_set (d : PyDict K V) (k : K) (v : V) :
    keys (set d k v) = if has d k then keys d else keys d ++ [k] := by
  induction d with
  | nil => simp [keys, set, has]
  | cons kv d ih =>
    obtain ⟨k', v'⟩ := kv
    unfold keys has at *
    by_cases h : k' = k
    · simp [set, get?, h]
    · simp only [set, get?, if_neg h, List.map_cons, ih]
      split <;> simp

/-- Every dict built by `set` from the empty one has pairwise distinct keys. -/
theorem nodup_keys_set (d : PyDict K V) (k : K) (v : V) (h : (keys d).Nodup) : (keys (set d k v)).Nodup := by
  rw [keys_set]
  split
  · exact h
  · rename_i hk
    rw [List.nodup_append]
    refine ⟨h, by simp, ?_⟩
    intro a ha b hb
    simp at hb; subst hb
    rintro rfl
    exact hk ((mem_keys_iff d a).mp ha)

theorem get?_eq_some_iff_mem (d : PyDict K V) (hd : (keys d).Nodup) (k : K) (v : V) :
    get? d k = some v ↔ (k, v) ∈ d := by
  induction d with
  | nil => simp
  | cons kv d ih =>
    obtain ⟨k', v'⟩ := kv
    simp only [keys, List.map_cons, List.nodup_cons] at hd
    by_cases h : k' = k
    · subst h
      simp only [get?, if_true, List.mem_cons, Prod.mk.injEq, Option.some.injEq, true_and]
      constructor
      · intro e; left; exact e.symm
      · rintro (e | e)
        · exact e.symm
        · exact absurd (List.mem_map_of_mem (f := Prod.fst) e) hd.1
    · have h' : ¬ k = k' := fun e => h e.symm
      simp only [get?, if_neg h, ih hd.2, List.mem_cons, Prod.mk.injEq, h', false_and, false_or]

theorem nodup_keys_update (d e : PyDict K V) (h : (keys d).Nodup) : (keys (update d e)).Nodup := by
  unfold update
  induction e generalizing d with
  | nil => exact h
  | cons kv e ih => exact ih _ (nodup_keys_set _ _ _ h)

end PyDict

end Jieba
