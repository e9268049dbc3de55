import Verif.Proofs.Regex
import Verif.Model.World
/-!
# Lines of user dictionaries
-/

namespace Jieba
namespace RE

theorem mem_run_plus (p : Ch → Bool) (st : Bool) (s : Str) (x : Nat × Caps) :
    x ∈ run (plus p) st s ↔ ∃ u v, s = u ++ v ∧ u ≠ [] ∧ (∀ c ∈ u, p c = true) ∧ x = (u.length, []) := by
  simp only [run, List.mem_map, List.mem_reverse, List.mem_range]
  constructor
  · rintro ⟨i, hi, rfl⟩
    have hl : i + 1 ≤ s.length := by
      have := (List.takeWhile_prefix (l := s) p).length_le; omega
    refine ⟨s.take (i + 1), s.drop (i + 1), by simp, ?_, ?_, by rw [List.length_take, Nat.min_eq_left hl]⟩
    · intro h; have := congrArg List.length h; rw [List.length_take, Nat.min_eq_left hl] at this; simp at this
    · intro c hc
      have : s.take (i + 1) = (s.takeWhile p).take (i + 1) := by
        conv => lhs; rw [← List.takeWhile_append_dropWhile (p := p) (l := s)]
        rw [List.take_append_of_le_length (by omega)]
      rw [this] at hc
      exact of_mem_takeWhile p s c (List.mem_of_mem_take hc)
  · rintro ⟨u, v, rfl, hu, hp, rfl⟩
    refine ⟨u.length - 1, ?_, ?_⟩
    · have : (u ++ v).takeWhile p = u ++ v.takeWhile p := by
        rw [List.takeWhile_append_of_pos hp]
      rw [this]; simp
      have := List.length_pos_iff.mpr hu; omega
    · have := List.length_pos_iff.mpr hu
      simp; omega

theorem mem_run_seq (a b : RE) (st : Bool) (s : Str) (x : Nat × Caps) :
    x ∈ run (seq a b) st s ↔ ∃ h ∈ run a st s, ∃ h' ∈ run b (st && h.1 == 0) (s.drop h.1), x = (h.1 + h'.1, h.2 ++ h'.2) := by
  simp only [run, List.mem_flatMap, List.mem_map]
  constructor
  · rintro ⟨h, h1, h', h2, rfl⟩; exact ⟨h, h1, h', h2, rfl⟩
  · rintro ⟨h, h1, h', h2, rfl⟩; exact ⟨h, h1, h', h2, rfl⟩

/-- A group `( [..]+)`. -/
theorem mem_run_field (n : Nat) (p : Ch → Bool) (st : Bool) (s : Str) (x : Nat × Caps) :
    x ∈ run (grp n (seq (cls (· == 0x20)) (plus p))) st s ↔
      ∃ u v, s = 0x20 :: (u ++ v) ∧ u ≠ [] ∧ (∀ c ∈ u, p c = true) ∧ x = (u.length + 1, [(n, 0x20 :: u)]) := by
  rw [run]
  simp only [List.mem_map, mem_run_seq, mem_run_plus]
  constructor
  · rintro ⟨y, ⟨h, h1, h', ⟨u, v, h2, h3, h4, rfl⟩, rfl⟩, rfl⟩
    cases s with
    | nil => simp [run] at h1
    | cons c s =>
      simp only [run] at h1
      split at h1
      · next hc =>
        simp at h1; subst h1
        simp at hc; subst hc
        simp at h2
        subst h2
        exact ⟨u, v, rfl, h3, h4, by simp [Nat.add_comm 1]⟩
      · simp at h1
  · rintro ⟨u, v, rfl, h3, h4, rfl⟩
    refine ⟨(1 + u.length, []), ⟨(1, []), by simp [run], (u.length, []), ⟨u, v, by simp, h3, h4, rfl⟩, rfl⟩, ?_⟩
    simp [Nat.add_comm 1]

end RE

/-- An optional field: nothing, or a space and the field. -/
def optField : Option Str → Str
  | none => []
  | some u => 0x20 :: u

/-- The fields after the word: digits and a tag of lower-case letters, both optional. -/
structure FieldsOk (a b : Option Str) : Prop where
  digits : ∀ u, a = some u → u ≠ [] ∧ ∀ c ∈ u, isDigit c = true
  letters : ∀ u, b = some u → u ≠ [] ∧ ∀ c ∈ u, isLower c = true

def fieldCaps (n : Nat) (a : Option Str) : Caps :=
  match a with
  | none => []
  | some u => [(n, 0x20 :: u)]

/-- What follows the word in `re_userdict`. -/
def reUserTail : RE :=
  .seq (.opt (.grp 2 (.seq (.cls (· == 0x20)) (.plus isDigit))))
      (.seq (.opt (.grp 3 (.seq (.cls (· == 0x20)) (.plus isLower)))) .eos)

theorem mem_reUserTail (st : Bool) (s : Str) (hn : 0x0A ∉ s) (x : Nat × Caps) :
    x ∈ reUserTail.run st s ↔ ∃ a b, FieldsOk a b ∧ s = optField a ++ optField b ∧
      x = (s.length, fieldCaps 2 a ++ fieldCaps 3 b) := by
  unfold reUserTail
  rw [RE.mem_run_seq]
  have eos : ∀ (st : Bool) (s : Str) (hn : 0x0A ∉ s) (x : Nat × Caps), x ∈ RE.run .eos st s ↔ s = [] ∧ x = (0, []) := by
    intro st s hn x
    simp only [RE.run]
    split
    · next h =>
      rcases h with h | h
      · simp [h]
      · rw [h] at hn; simp at hn
    · next h =>
      constructor
      · simp
      · rintro ⟨rfl, -⟩; simp at h
  have tail : ∀ (st : Bool) (s : Str) (hn : 0x0A ∉ s) (x : Nat × Caps),
      x ∈ RE.run (.seq (.opt (.grp 3 (.seq (.cls (· == 0x20)) (.plus isLower)))) .eos) st s ↔
      ∃ b, (∀ u, b = some u → u ≠ [] ∧ ∀ c ∈ u, isLower c = true) ∧ s = optField b ∧ x = (s.length, fieldCaps 3 b) := by
    intro st s hn x
    rw [RE.mem_run_seq]
    constructor
    · rintro ⟨h, h1, h', h2, rfl⟩
      rw [eos _ _ (fun h => hn (List.mem_of_mem_drop h))] at h2
      obtain ⟨h2, rfl⟩ := h2
      rw [RE.run, List.mem_append, RE.mem_run_field] at h1
      rcases h1 with ⟨u, v, rfl, hu, hl, rfl⟩ | h1
      · simp at h2
        have hv : v = [] := h2
        subst hv
        exact ⟨some u, by rintro _ ⟨⟩; exact ⟨hu, hl⟩, by simp [optField], by simp [fieldCaps]⟩
      · simp at h1; subst h1
        simp at h2; subst h2
        exact ⟨none, by simp, rfl, rfl⟩
    · rintro ⟨b, hb, rfl, rfl⟩
      cases b with
      | none => exact ⟨(0, []), by simp [RE.run], (0, []), by simp [eos _ _ (by simp : 0x0A ∉ ([] : Str)), optField], rfl⟩
      | some u =>
        obtain ⟨h1, h2⟩ := hb u rfl
        refine ⟨(u.length + 1, [(3, 0x20 :: u)]), ?_, (0, []), ?_, ?_⟩
        · rw [RE.run, List.mem_append, RE.mem_run_field]
          left; exact ⟨u, [], by simp [optField], h1, h2, rfl⟩
        · rw [eos _ _ (by simp [optField])]; simp [optField]
        · simp [optField, fieldCaps]
  constructor
  · rintro ⟨h, h1, h', h2, rfl⟩
    rw [tail _ _ (fun h => hn (List.mem_of_mem_drop h))] at h2
    obtain ⟨b, hb, h2, rfl⟩ := h2
    rw [RE.run, List.mem_append, RE.mem_run_field] at h1
    rcases h1 with ⟨u, v, rfl, hu, hl, rfl⟩ | h1
    · have hv : v = optField b := by simpa using h2
      subst hv
      exact ⟨some u, b, ⟨by rintro _ ⟨⟩; exact ⟨hu, hl⟩, hb⟩, by simp [optField],
        by simp [fieldCaps]; omega⟩
    · simp at h1; subst h1
      simp at h2; subst h2
      exact ⟨none, b, ⟨by simp, hb⟩, by simp [optField], by simp [fieldCaps]⟩
  · rintro ⟨a, b, ⟨ha, hb⟩, rfl, rfl⟩
    cases a with
    | none =>
      refine ⟨(0, []), by simp [RE.run], ((optField b).length, fieldCaps 3 b), ?_, by simp [fieldCaps, optField]⟩
      rw [tail _ _ (fun h => hn (List.mem_of_mem_drop h))]
      exact ⟨b, hb, by simp [optField], by simp [optField]⟩
    | some u =>
      obtain ⟨h1, h2⟩ := ha u rfl
      refine ⟨(u.length + 1, [(2, 0x20 :: u)]), ?_, ((optField b).length, fieldCaps 3 b), ?_, ?_⟩
      · rw [RE.run, List.mem_append, RE.mem_run_field]
        left; exact ⟨u, optField b, by simp [optField], h1, h2, rfl⟩
      · rw [tail _ _ (fun h => hn (List.mem_of_mem_drop h))]
        exact ⟨b, hb, by simp [optField], by simp [optField]⟩
      · simp [optField, fieldCaps]; omega

theorem not_space_of_digit (c : Ch) (h : isDigit c = true) : c ≠ 0x20 := by rintro rfl; simp [isDigit] at h
theorem not_space_of_lower (c : Ch) (h : isLower c = true) : c ≠ 0x20 := by rintro rfl; simp [isLower] at h
theorem not_lower_of_digit (c : Ch) (h : isDigit c = true) : isLower c = false := by
  unfold isDigit at h; unfold isLower; simp at h ⊢; unfold Ch at *; omega

/-- The part of a list before its first space. -/
theorem space_split (u v u' v' : Str) (hu : 0x20 ∉ u) (hu' : 0x20 ∉ u') (hv : ∀ c, v.head? = some c → c = 0x20)
    (hv' : ∀ c, v'.head? = some c → c = 0x20) (h : u ++ v = u' ++ v') : u = u' ∧ v = v' := by
  induction u generalizing u' with
  | nil =>
    cases u' with
    | nil => exact ⟨rfl, h⟩
    | cons c u' =>
      simp at h; subst h
      have := hv c (by simp)
      subst this; simp at hu'
  | cons c u ih =>
    cases u' with
    | nil =>
      simp at h; subst h
      have := hv' c (by simp)
      subst this; simp at hu
    | cons c' u' =>
      simp at h
      obtain ⟨rfl, h⟩ := h
      obtain ⟨rfl, rfl⟩ := ih u' (fun h => hu (List.mem_cons_of_mem _ h)) (fun h => hu' (List.mem_cons_of_mem _ h)) h
      exact ⟨rfl, rfl⟩

theorem optField_head (b : Option Str) (c : Ch) (h : (optField b).head? = some c) : c = 0x20 := by
  cases b with
  | none => simp [optField] at h
  | some u => simp [optField] at h; exact h.symm

theorem no_space_digits {a b : Option Str} (h : FieldsOk a b) (u : Str) (ha : a = some u) : 0x20 ∉ u :=
  fun hm => not_space_of_digit _ ((h.digits u ha).2 _ hm) rfl
theorem no_space_letters {a b : Option Str} (h : FieldsOk a b) (u : Str) (hb : b = some u) : 0x20 ∉ u :=
  fun hm => not_space_of_lower _ ((h.letters u hb).2 _ hm) rfl

/-- The fields can be read off in only one way. -/
theorem fields_unique (a b a' b' : Option Str) (h : FieldsOk a b) (h' : FieldsOk a' b')
    (he : optField a ++ optField b = optField a' ++ optField b') : a = a' ∧ b = b' := by
  have key : ∀ (u u' : Str) (v v' : Option Str), 0x20 ∉ u → 0x20 ∉ u' →
      u ++ optField v = u' ++ optField v' → u = u' ∧ v = v' := by
    intro u u' v v' h1 h2 he
    obtain ⟨rfl, hv⟩ := space_split u _ u' _ h1 h2 (optField_head v) (optField_head v') he
    refine ⟨rfl, ?_⟩
    cases v <;> cases v' <;> simp [optField] at hv ⊢
    exact hv
  have digit_lower : ∀ (u u' : Str) (v : Option Str), u ≠ [] → (∀ c ∈ u, isDigit c = true) → (∀ c ∈ u', isLower c = true) →
      u ++ optField v ≠ u' := by
    intro u u' v h1 h2 h3 he
    cases u with
    | nil => exact h1 rfl
    | cons c u =>
      have h4 := h2 c (by simp)
      have h5 := h3 c (by rw [← he]; simp)
      rw [not_lower_of_digit c h4] at h5; simp at h5
  cases a with
  | none =>
    cases a' with
    | none =>
      refine ⟨rfl, ?_⟩
      cases b <;> cases b' <;> simp [optField] at he ⊢
      exact he
    | some u' =>
      exfalso
      cases b with
      | none => simp [optField] at he
      | some v =>
        simp only [optField, List.nil_append, List.cons_append, List.cons.injEq, true_and] at he
        exact digit_lower u' v b' (h'.digits u' rfl).1 (h'.digits u' rfl).2 (h.letters v rfl).2 he.symm
  | some u =>
    cases a' with
    | none =>
      exfalso
      cases b' with
      | none => simp [optField] at he
      | some v =>
        simp only [optField, List.nil_append, List.cons_append, List.cons.injEq, true_and] at he
        exact digit_lower u v b (h.digits u rfl).1 (h.digits u rfl).2 (h'.letters v rfl).2 he
    | some u' =>
      simp only [optField, List.cons_append, List.cons.injEq, true_and] at he
      obtain ⟨rfl, rfl⟩ := key u u' b b' (no_space_digits h u rfl) (no_space_digits h' u' rfl) he
      exact ⟨rfl, rfl⟩

theorem run_reUserTail (st : Bool) (s : Str) (hn : 0x0A ∉ s) :
    (∀ a b, FieldsOk a b → s = optField a ++ optField b →
      (reUserTail.run st s).head? = some (s.length, fieldCaps 2 a ++ fieldCaps 3 b)) ∧
    ((¬ ∃ a b, FieldsOk a b ∧ s = optField a ++ optField b) → reUserTail.run st s = []) := by
  constructor
  · intro a b hf hs
    have hm := (mem_reUserTail st s hn _).mpr ⟨a, b, hf, hs, rfl⟩
    cases hr : reUserTail.run st s with
    | nil => rw [hr] at hm; simp at hm
    | cons x l =>
      have hx : x ∈ reUserTail.run st s := by rw [hr]; simp
      obtain ⟨a', b', hf', hs', rfl⟩ := (mem_reUserTail st s hn _).mp hx
      obtain ⟨rfl, rfl⟩ := fields_unique a b a' b' hf hf' (by rw [← hs, ← hs'])
      rfl
  · intro h
    cases hr : reUserTail.run st s with
    | nil => rfl
    | cons x l =>
      have hx : x ∈ reUserTail.run st s := by rw [hr]; simp
      obtain ⟨a', b', hf', hs', -⟩ := (mem_reUserTail st s hn _).mp hx
      exact absurd ⟨a', b', hf', hs'⟩ h

theorem head?_flatMap_range {α : Type _} (f : Nat → List α) (n k : Nat) (hk : k < n) (x : α)
    (h1 : ∀ i < k, f i = []) (h2 : (f k).head? = some x) : ((List.range n).flatMap f).head? = some x := by
  obtain ⟨m, rfl⟩ : ∃ m, n = k + (m + 1) := ⟨n - k - 1, by omega⟩
  rw [List.range_add, List.flatMap_append]
  have : (List.range k).flatMap f = [] := by
    rw [List.flatMap_eq_nil_iff]; intro i hi; exact h1 i (List.mem_range.mp hi)
  rw [this, List.nil_append, List.range_succ_eq_map]
  simp only [List.map_cons, List.flatMap_cons, Nat.add_zero]
  cases hf : f k with
  | nil => rw [hf] at h2; simp at h2
  | cons y l => rw [hf] at h2; simpa using h2

/-- The parse of a line: the shortest beginning such that the rest is made of fields. -/
theorem userFields_parse (word : Str) (a b : Option Str) (hw : word ≠ []) (hf : FieldsOk a b)
    (hn : 0x0A ∉ word ++ (optField a ++ optField b))
    (hmin : ∀ u v, word = u ++ v → u ≠ [] → v ≠ [] →
      ¬ ∃ a' b', FieldsOk a' b' ∧ v ++ (optField a ++ optField b) = optField a' ++ optField b') :
    userFields (word ++ (optField a ++ optField b)) =
      some (word, a.map (fun u => stripBy isSpace (0x20 :: u)), b.map (fun u => stripBy isSpace (0x20 :: u))) := by
  generalize hs : word ++ (optField a ++ optField b) = s at *
  have hre : reUserdict.run true s = (RE.seq (.grp 1 (.plusLazy (fun c => c != 0x0A))) reUserTail).run true s := by
    unfold reUserdict reUserTail
    rw [RE.run]
    simp [RE.run]
  have htw : s.takeWhile (fun c => c != 0x0A) = s := by
    have : ∀ l : Str, 0x0A ∉ l → l.takeWhile (fun c => c != 0x0A) = l := by
      intro l
      induction l with
      | nil => intro _; rfl
      | cons c l ih =>
        intro h
        simp only [List.mem_cons, not_or] at h
        have hc : (c != 0x0A) = true := by simp only [bne_iff_ne, ne_eq]; exact fun h' => h.1 h'.symm
        rw [List.takeWhile_cons, if_pos hc, ih h.2]
    exact this s hn
  have hwl := List.length_pos_iff.mpr hw
  have hsl : word.length ≤ s.length := by rw [← hs]; simp
  have hpm : reUserdict.pmatch s = some (word.length + (optField a ++ optField b).length,
      [(1, word)] ++ (fieldCaps 2 a ++ fieldCaps 3 b)) := by
    unfold RE.pmatch
    rw [hre, RE.run]
    simp only [RE.run, htw, List.map_map, List.flatMap_map]
    refine head?_flatMap_range _ _ (word.length - 1) (by omega) _ ?_ ?_
    · intro i hi
      simp only [Function.comp_apply, List.map_eq_nil_iff]
      refine (run_reUserTail _ _ (fun h => hn (List.mem_of_mem_drop h))).2 ?_
      rintro ⟨a', b', hf', hv⟩
      have h1 : word = word.take (i + 1) ++ word.drop (i + 1) := by simp
      refine hmin _ _ h1 ?_ ?_ ⟨a', b', hf', ?_⟩
      · intro h; have := congrArg List.length h; rw [List.length_take, List.length_nil] at this; omega
      · intro h; have := congrArg List.length h; rw [List.length_drop, List.length_nil] at this; omega
      · rw [← hv, ← hs, List.drop_append_of_le_length (by omega)]
    · simp only [Function.comp_apply, List.head?_map]
      have h1 : word.length - 1 + 1 = word.length := by omega
      rw [h1]
      have h2 : s.drop word.length = optField a ++ optField b := by rw [← hs, List.drop_left]
      rw [(run_reUserTail _ _ (fun h => hn (List.mem_of_mem_drop h))).1 a b hf h2, h2]
      have h3 : s.take word.length = word := by rw [← hs, List.take_left]
      simp [h3]
  unfold userFields
  rw [hpm]
  cases a <;> cases b <;> rfl

theorem strip_field (u : Str) (h : ∀ c ∈ u, isSpace c = false) : stripBy isSpace (0x20 :: u) = u := by
  have key : ∀ l : Str, (∀ c ∈ l, isSpace c = false) → l.dropWhile isSpace = l := by
    intro l hl
    cases l with
    | nil => rfl
    | cons c l => simp [hl c (by simp)]
  unfold stripBy
  rw [List.dropWhile_cons, if_pos (by rfl), key u h, key u.reverse (by intro c hc; exact h c (List.mem_reverse.mp hc)),
    List.reverse_reverse]

theorem isSpace_digit (c : Ch) (h : isDigit c = true) : isSpace c = false := by
  unfold isDigit at h; unfold isSpace; simp at h ⊢; unfold Ch at *; omega
theorem isSpace_lower (c : Ch) (h : isLower c = true) : isSpace c = false := by
  unfold isLower at h; unfold isSpace; simp at h ⊢; unfold Ch at *; omega

theorem userFields_parse' (word : Str) (a b : Option Str) (hw : word ≠ []) (hf : FieldsOk a b) (hn : 0x0A ∉ word)
    (hmin : ∀ u v, word = u ++ v → u ≠ [] → v ≠ [] →
      ¬ ∃ a' b', FieldsOk a' b' ∧ v ++ (optField a ++ optField b) = optField a' ++ optField b') :
    userFields (word ++ (optField a ++ optField b)) = some (word, a, b) := by
  have hd : ∀ u, a = some u → ∀ c ∈ u, isSpace c = false := fun u hu c hc => isSpace_digit c ((hf.digits u hu).2 c hc)
  have hl : ∀ u, b = some u → ∀ c ∈ u, isSpace c = false := fun u hu c hc => isSpace_lower c ((hf.letters u hu).2 c hc)
  have hn' : 0x0A ∉ word ++ (optField a ++ optField b) := by
    simp only [List.mem_append, not_or]
    refine ⟨hn, ?_, ?_⟩
    · cases a with
      | none => simp [optField]
      | some u => simp only [optField, List.mem_cons, not_or]; exact ⟨by simp, fun h => by have := hd u rfl _ h; simp [isSpace] at this⟩
    · cases b with
      | none => simp [optField]
      | some u => simp only [optField, List.mem_cons, not_or]; exact ⟨by simp, fun h => by have := hl u rfl _ h; simp [isSpace] at this⟩
  rw [userFields_parse word a b hw hf hn' hmin]
  cases a with
  | none =>
    cases b with
    | none => rfl
    | some v => simp [strip_field v (hl v rfl)]
  | some u =>
    cases b with
    | none => simp [strip_field u (hd u rfl)]
    | some v => simp [strip_field u (hd u rfl), strip_field v (hl v rfl)]

/-- Number of spaces. -/
def spaces (s : Str) : Nat := s.count 0x20

theorem spaces_fields {a b : Option Str} (h : FieldsOk a b) :
    spaces (optField a ++ optField b) = (if a.isSome then 1 else 0) + (if b.isSome then 1 else 0) := by
  unfold spaces
  rw [List.count_append]
  congr 1
  · cases a with
    | none => rfl
    | some u => simp only [optField, List.count_cons]; rw [List.count_eq_zero_of_not_mem (no_space_digits h u rfl)]; rfl
  · cases b with
    | none => rfl
    | some u => simp only [optField, List.count_cons]; rw [List.count_eq_zero_of_not_mem (no_space_letters h u rfl)]; rfl

/-- With a frequency field, no shorter beginning can be the word. -/
theorem no_shorter_parse (a : Str) (b : Option Str) (hf : FieldsOk (some a) b) (v : Str) (hv : v ≠ []) :
    ¬ ∃ a' b', FieldsOk a' b' ∧ v ++ (optField (some a) ++ optField b) = optField a' ++ optField b' := by
  rintro ⟨a', b', hf', he⟩
  obtain ⟨c, v, rfl⟩ := List.exists_cons_of_ne_nil hv
  have hc : c = 0x20 := by
    cases a' with
    | some u' => simp [optField] at he; exact he.1
    | none =>
      cases b' with
      | some u' => simp [optField] at he; exact he.1
      | none => simp [optField] at he
  subst hc
  have hsp := congrArg spaces he
  rw [spaces_fields hf'] at hsp
  have h1 : spaces (0x20 :: v ++ (optField (some a) ++ optField b)) = 1 + spaces v + (1 + if b.isSome then 1 else 0) := by
    have := spaces_fields hf
    unfold spaces at this ⊢
    rw [List.count_append, this, List.count_cons]; simp; omega
  rw [h1] at hsp
  cases b with
  | some u => simp at hsp; split at hsp <;> split at hsp <;> omega
  | none =>
    cases a' with
    | none => simp at hsp; split at hsp <;> omega
    | some a' =>
      cases b' with
      | none => simp at hsp
      | some b' =>
        simp at hsp
        have hv0 : 0x20 ∉ v := by
          intro hm
          have := List.count_pos_iff.mpr hm
          unfold spaces at hsp; omega
        simp only [optField, List.cons_append, List.cons.injEq, true_and, List.append_nil] at he
        obtain ⟨-, h2⟩ := space_split v _ a' _ hv0 (no_space_digits hf' a' rfl) (by simp) (by simp) he
        simp at h2
        obtain ⟨h3, h4⟩ := hf.digits a rfl
        obtain ⟨d, a, rfl⟩ := List.exists_cons_of_ne_nil h3
        have h5 := h4 d (by simp)
        have h6 := (hf'.letters b' rfl).2 d (by rw [← h2]; simp)
        rw [not_lower_of_digit d h5] at h6; simp at h6

end Jieba
