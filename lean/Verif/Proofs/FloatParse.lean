import Verif.Proofs.FloatText
import Mathlib.Tactic.FieldSimp
import Mathlib.Tactic.Ring
/-!
# Lemmas about `float`: the whole parser
-/

namespace Jieba
open Jieba.Spec

theorem digits_split {A r : Str} (hA : ∀ c ∈ A, isDigit c = true) (hr : ∀ x, r.head? = some x → isDigit x = false) :
    (A ++ r).takeWhile isDigit = A ∧ (A ++ r).dropWhile isDigit = r := by
  induction A with
  | nil =>
    cases r with
    | nil => exact ⟨rfl, rfl⟩
    | cons x r =>
      have := hr x rfl
      exact ⟨by rw [List.nil_append, List.takeWhile_cons_of_neg (by simp [this])], by rw [List.nil_append, List.dropWhile_cons_of_neg (by simp [this])]⟩
  | cons c A ih =>
    have hc := hA c (List.mem_cons_self ..)
    obtain ⟨h1, h2⟩ := ih (fun x hx => hA x (List.mem_cons_of_mem _ hx))
    rw [List.cons_append, List.takeWhile_cons_of_pos hc, List.dropWhile_cons_of_pos hc, h1, h2]
    exact ⟨rfl, rfl⟩

theorem decVal_append (A B : Str) : decVal (A ++ B) = decVal A * 10 ^ B.length + decVal B := by
  have key : ∀ (B : Str) (acc : Nat), B.foldl (fun n c => n * 10 + (c - 0x30)) acc = acc * 10 ^ B.length + decVal B := by
    intro B
    induction B with
    | nil => intro acc; simp [decVal]
    | cons c B ih =>
      intro acc
      unfold decVal
      rw [List.foldl_cons, List.foldl_cons, ih, ih]
      simp only [List.length_cons, pow_succ, Nat.zero_mul, Nat.zero_add]
      ring
  unfold decVal
  rw [List.foldl_append, key]
  rfl

theorem point_value (A B : Str) : ((decVal (A ++ B) : ℚ)) / 10 ^ B.length = decVal A + decVal B / 10 ^ B.length := by
  rw [decVal_append]
  push_cast
  field_simp

theorem mantissa_whole {A r : Str} (hA : ∀ c ∈ A, isDigit c = true) (hne : A ≠ []) (hr : ∀ x, r.head? = some x → isDigit x = false ∧ x ≠ 0x2E) :
    mantissa (A ++ r) = some ((decVal A : ℚ), r) := by
  obtain ⟨h1, h2⟩ := digits_split hA (fun x hx => (hr x hx).1)
  unfold mantissa
  rw [h1, h2]
  cases r with
  | nil => simp [hne]
  | cons x r => simp [hne, (hr x rfl).2]

theorem mantissa_point {A B r : Str} (hA : ∀ c ∈ A, isDigit c = true) (hB : ∀ c ∈ B, isDigit c = true) (hne : ¬ (A = [] ∧ B = []))
    (hr : ∀ x, r.head? = some x → isDigit x = false) :
    mantissa (A ++ 0x2E :: (B ++ r)) = some ((decVal A : ℚ) + decVal B / 10 ^ B.length, r) := by
  obtain ⟨h1, h2⟩ := digits_split (r := 0x2E :: (B ++ r)) hA (by rintro x ⟨rfl⟩; decide)
  obtain ⟨h3, h4⟩ := digits_split hB hr
  unfold mantissa
  rw [h1, h2]
  simp only [if_true, h3, h4, if_neg hne, point_value]

theorem digit_ne {p : Nat} (hp : isDigit p = true) : p ≠ 0x5F := by rintro rfl; revert hp; decide

theorem point_under {a : Str} {q : ℚ} (h : PointText a q) :
    ∃ A, A ≠ [] ∧ (∀ x, A.head? = some x → isDigit x = true ∨ x = 0x2E) ∧
      (∀ r, (∀ x, r.head? = some x → isDigit x = false ∧ x ≠ 0x2E) → mantissa (A ++ r) = some (q, r)) ∧
      ∃ p, p ≠ 0x5F ∧ ∀ prev, prev ≠ 0x5F → ∀ r, dropUnder prev ((a ++ r).map asc) = (dropUnder p (r.map asc)).map (A ++ ·) := by
  cases h with
  | whole _ n h =>
    obtain ⟨A, a1, a2, a3, a4, p, a5, a6⟩ := digits_under h
    refine ⟨A, a1, fun x hx => Or.inl (a2 x (List.mem_of_mem_head? hx)), fun r hr => ?_, p, digit_ne a5, a6⟩
    rw [mantissa_whole a2 a1 hr, a3]
  | ends a n h =>
    obtain ⟨A, a1, a2, a3, a4, p, a5, a6⟩ := digits_under h
    refine ⟨A ++ [0x2E], by simp, fun x hx => Or.inl (a2 x ?_), fun r hr => ?_, 0x2E, by decide, fun prev hp r => ?_⟩
    · cases A with
      | nil => exact absurd rfl a1
      | cons c A => rw [List.cons_append] at hx; cases hx; exact List.mem_cons_self ..
    · have := mantissa_point (A := A) (B := []) (r := r) a2 (by simp) (by simp [a1]) (fun x hx => (hr x hx).1)
      rw [List.append_assoc, List.singleton_append]
      rw [List.nil_append] at this
      rw [this, a3]
      simp [decVal]
    · rw [List.append_assoc, a6 prev hp, List.singleton_append, under_plain (digit_ne a5) (by decide) (by decide), Option.map_map]
      congr 1; funext x; simp
  | starts b m h =>
    obtain ⟨B, a1, a2, a3, a4, p, a5, a6⟩ := digits_under h
    refine ⟨0x2E :: B, by simp, ?_, fun r hr => ?_, p, digit_ne a5, fun prev hp r => ?_⟩
    · rintro x ⟨rfl⟩; exact Or.inr rfl
    · have := mantissa_point (A := []) (B := B) (r := r) (by simp) a2 (by simp [a1]) (fun x hx => (hr x hx).1)
      rw [List.nil_append] at this
      rw [List.cons_append, this, a3, a4]
      simp [decVal]
    · rw [List.cons_append, under_plain hp (by decide) (by decide), a6 _ (by decide), Option.map_map]
      congr 1
  | inside a b n m h h' =>
    obtain ⟨A, a1, a2, a3, a4, p, a5, a6⟩ := digits_under h
    obtain ⟨B, b1, b2, b3, b4, p', b5, b6⟩ := digits_under h'
    refine ⟨A ++ 0x2E :: B, by simp, fun x hx => Or.inl (a2 x ?_), fun r hr => ?_, p', digit_ne b5, fun prev hp r => ?_⟩
    · cases A with
      | nil => exact absurd rfl a1
      | cons c A => rw [List.cons_append] at hx; cases hx; exact List.mem_cons_self ..
    · have := mantissa_point (A := A) (B := B) (r := r) a2 b2 (by simp [a1]) (fun x hx => (hr x hx).1)
      rw [List.append_assoc, List.cons_append, this, a3, b3, b4]
    · rw [List.append_assoc, a6 prev hp, List.cons_append, under_plain (digit_ne a5) (by decide) (by decide), b6 _ (by decide), Option.map_map,
        Option.map_map]
      congr 1; funext x; simp

theorem sign_under {sg : Str} {neg : Bool} (h : SignText sg neg) :
    (∀ t, (∀ x, t.head? = some x → x ≠ 0x2B ∧ x ≠ 0x2D) → signOf (sg ++ t) = (neg, t)) ∧
      (∀ prev, prev ≠ 0x5F → ∃ p, p ≠ 0x5F ∧ ∀ r, dropUnder prev ((sg ++ r).map asc) = (dropUnder p (r.map asc)).map (sg ++ ·)) := by
  cases h with
  | none =>
    refine ⟨fun t ht => ?_, fun prev hp => ⟨prev, hp, fun r => ?_⟩⟩
    · cases t with
      | nil => rfl
      | cons x t =>
        obtain ⟨h1, h2⟩ := ht x rfl
        simp [signOf, h1, h2]
    · simp
  | plus =>
    refine ⟨fun t _ => rfl, fun prev hp => ⟨0x2B, by decide, fun r => ?_⟩⟩
    rw [List.singleton_append, under_plain hp (by decide) (by decide)]; rfl
  | minus =>
    refine ⟨fun t _ => rfl, fun prev hp => ⟨0x2D, by decide, fun r => ?_⟩⟩
    rw [List.singleton_append, under_plain hp (by decide) (by decide)]; rfl

theorem not_sign {x : Nat} (h : isDigit x = true ∨ x = 0x2E) : x ≠ 0x2B ∧ x ≠ 0x2D := by
  rcases h with h | rfl
  · constructor <;> (rintro rfl; revert h; decide)
  · decide

theorem decimal_under {t : Str} {q : ℚ} (h : DecimalText t q) :
    ∃ A, (∀ x, A.head? = some x → isDigit x = true ∨ x = 0x2E) ∧ strtod A = some (q, []) ∧ ∀ prev, prev ≠ 0x5F → dropUnder prev (t.map asc) = some A := by
  cases h with
  | plain a q h =>
    obtain ⟨A, a1, a2, a3, p, a4, a5⟩ := point_under h
    refine ⟨A, a2, ?_, fun prev hp => ?_⟩
    · have := a3 [] (by simp)
      rw [List.append_nil] at this
      unfold strtod
      rw [this]
      simp [exponent]
    · have := a5 prev hp []
      rw [List.append_nil] at this
      rw [this]
      simp [dropUnder, a4]
  | exp a q e sg neg b k h he hs hb =>
    obtain ⟨A, a1, a2, a3, p, a4, a5⟩ := point_under h
    obtain ⟨B, b1, b2, b3, b4, p', b5, b6⟩ := digits_under hb
    obtain ⟨s1, s2⟩ := sign_under hs
    have hee : e < 127 ∧ e ≠ 0x5F ∧ isDigit e = false ∧ e ≠ 0x2E := by rcases he with rfl | rfl <;> decide
    obtain ⟨p2, hp2, s3⟩ := s2 e hee.2.1
    have hB : ∀ x, B.head? = some x → isDigit x = true := fun x hx => b2 x (List.mem_of_mem_head? hx)
    refine ⟨A ++ e :: (sg ++ B), ?_, ?_, fun prev hp => ?_⟩
    · intro x hx
      cases A with
      | nil => exact absurd rfl a1
      | cons c A => rw [List.cons_append] at hx; cases hx; exact a2 _ rfl
    · unfold strtod
      rw [a3 _ (by rintro x ⟨rfl⟩; exact ⟨hee.2.2.1, hee.2.2.2⟩), Option.map_some]
      have ht := digits_split (r := []) b2 (by simp)
      rw [List.append_nil] at ht
      have : exponent (e :: (sg ++ B)) = (if neg then -(k : ℤ) else (k : ℤ), []) := by
        simp only [exponent, if_pos he, s1 B (fun x hx => not_sign (Or.inl (hB x hx))), ht, if_neg b1, b3]
      rw [this]
    · rw [a5 prev hp, under_plain a4 hee.1 hee.2.1, s3, show b = b ++ [] by simp, b6 _ hp2]
      simp [dropUnder, digit_ne b5]

/-! ## Back -/

theorem under_mantissa {m u : Str} {prev : Nat} (h : dropUnder prev (m.map asc) = some u) (hprev : isDigit prev = false) {q : ℚ} {r : Str}
    (hm : mantissa u = some (q, r)) : ∃ a tr, m = a ++ tr ∧ PointText a q ∧ ∃ p, dropUnder p (tr.map asc) = some r := by
  unfold mantissa at hm
  by_cases ha : u.takeWhile isDigit = []
  · rcases hu : u.dropWhile isDigit with _ | ⟨c, r'⟩
    · rw [hu] at hm; simp [ha] at hm
    · rw [hu] at hm
      simp only [ha, if_true] at hm
      split at hm
      · next hc =>
        split at hm
        · cases hm
        · next hb =>
          simp only [Option.some.injEq, Prod.mk.injEq] at hm
          obtain ⟨hq, hr⟩ := hm
          have hb : r'.takeWhile isDigit ≠ [] := fun hb' => hb ⟨trivial, hb'⟩
          have hu' : u = c :: r' := by rw [← List.takeWhile_append_dropWhile (p := isDigit) (l := u), ha, hu]; rfl
          subst hc
          rw [hu'] at h
          obtain ⟨c, m', rfl, h1, -, -, h2⟩ := under_head m prev 0x2E r' h (by decide)
          have hc := (asc_eq (by decide) (by decide) (by decide) (by decide)).mp h1
          obtain ⟨ta, tr, rfl, e2, e3, p, e4, e5⟩ := under_digits0 m' 0x2E r' h2 (by decide) hb
          refine ⟨0x2E :: ta, tr, by rw [hc]; rfl, ?_, p, by rw [e5, hr]⟩
          have := PointText.starts _ _ e2
          rw [e3] at this
          rw [← hq, List.nil_append]
          exact this
      · cases hm
  · obtain ⟨ta, tr, rfl, e2, e3, p, e4, e5⟩ := under_digits0 m prev u h hprev ha
    rcases hu : u.dropWhile isDigit with _ | ⟨c, r'⟩
    · rw [hu] at hm e5
      simp only [if_neg ha, Option.some.injEq, Prod.mk.injEq] at hm
      obtain ⟨hq, hr⟩ := hm
      exact ⟨ta, tr, rfl, by rw [← hq]; exact .whole _ _ e2, p, by rw [e5, hr]⟩
    · rw [hu] at hm e5
      simp only [ha, false_and, if_false] at hm
      split at hm
      · next hc =>
        simp only [Option.some.injEq, Prod.mk.injEq] at hm
        obtain ⟨hq, hr⟩ := hm
        subst hc
        obtain ⟨c, m', rfl, h1, -, -, h2⟩ := under_head tr p 0x2E r' e5 (by decide)
        have hc := (asc_eq (by decide) (by decide) (by decide) (by decide)).mp h1
        subst hc
        rw [point_value] at hq
        by_cases hb : r'.takeWhile isDigit = []
        · refine ⟨ta ++ [0x2E], m', by simp, ?_, 0x2E, ?_⟩
          · rw [← hq, hb]
            have := PointText.ends _ _ e2
            simpa [decVal] using this
          · have h5 : r'.dropWhile isDigit = r' := by
              have := List.takeWhile_append_dropWhile (p := isDigit) (l := r')
              rwa [hb, List.nil_append] at this
            rw [h2, ← hr, h5]
        · obtain ⟨tb, tr', rfl, f2, f3, p', f4, f5⟩ := under_digits0 m' 0x2E r' h2 (by decide) hb
          refine ⟨ta ++ 0x2E :: tb, tr', by simp, ?_, p', by rw [f5, hr]⟩
          have := PointText.inside _ _ _ _ e2 f2
          rw [f3] at this
          rw [← hq]; exact this
      · simp only [Option.some.injEq, Prod.mk.injEq] at hm
        obtain ⟨hq, hr⟩ := hm
        exact ⟨ta, tr, rfl, by rw [← hq]; exact .whole _ _ e2, p, by rw [e5, hr]⟩

theorem under_sign {m u : Str} {prev : Nat} (h : dropUnder prev (m.map asc) = some u) (hprev : isDigit prev = false) :
    ∃ sg m' p, m = sg ++ m' ∧ SignText sg (signOf u).1 ∧ isDigit p = false ∧ dropUnder p (m'.map asc) = some (signOf u).2 := by
  rcases u with _ | ⟨c, t⟩
  · exact ⟨[], m, prev, rfl, .none, hprev, h⟩
  · by_cases h1 : c = 0x2D
    · subst h1
      obtain ⟨c, m', rfl, e, -, -, h2⟩ := under_head m prev 0x2D t h (by decide)
      have hc := (asc_eq (by decide) (by decide) (by decide) (by decide)).mp e
      subst hc
      exact ⟨[0x2D], m', 0x2D, rfl, .minus, by decide, h2⟩
    · by_cases h2 : c = 0x2B
      · subst h2
        obtain ⟨c, m', rfl, e, -, -, h2⟩ := under_head m prev 0x2B t h (by decide)
        have hc := (asc_eq (by decide) (by decide) (by decide) (by decide)).mp e
        subst hc
        exact ⟨[0x2B], m', 0x2B, rfl, .plus, by decide, h2⟩
      · have : signOf (c :: t) = (false, c :: t) := by simp [signOf, h1, h2]
        rw [this]
        exact ⟨[], m, prev, rfl, .none, hprev, h⟩

theorem under_decimal {m u : Str} {prev : Nat} (h : dropUnder prev (m.map asc) = some u) (hprev : isDigit prev = false) {q : ℚ}
    (hm : strtod u = some (q, [])) : DecimalText m q := by
  unfold strtod at hm
  rcases hmm : mantissa u with _ | ⟨q0, r⟩
  · rw [hmm] at hm; cases hm
  · rw [hmm] at hm
    simp only [Option.map_some, Option.some.injEq, Prod.mk.injEq] at hm
    obtain ⟨hq, hr⟩ := hm
    obtain ⟨a, tr, rfl, ha, p, hp⟩ := under_mantissa h hprev hmm
    rcases r with _ | ⟨e, t⟩
    · rw [under_nil tr p hp, List.append_nil, ← hq]
      simpa [exponent] using DecimalText.plain a q0 ha
    · by_cases he : e = 0x65 ∨ e = 0x45
      · simp only [exponent, if_pos he] at hq hr
        by_cases hx : (signOf t).2.takeWhile isDigit = []
        · simp [hx] at hr
        · simp only [if_neg hx] at hq hr
          have hee : e < 127 ∧ isDigit e = false ∧ e ≠ 0x20 ∧ e ≠ 0x3F := by rcases he with rfl | rfl <;> decide
          obtain ⟨c, m', rfl, e1, -, -, h2⟩ := under_head tr p e t hp hee.2.1
          have hc := (asc_eq hee.1 hee.2.1 hee.2.2.1 hee.2.2.2).mp e1
          subst hc
          obtain ⟨sg, m2, p2, rfl, s1, s2, s3⟩ := under_sign h2 hee.2.1
          obtain ⟨tb, tr', rfl, f2, f3, p', f4, f5⟩ := under_digits0 m2 p2 _ s3 s2 hx
          rw [hr] at f5
          rw [under_nil tr' p' f5, List.append_nil, ← hq]
          exact .exp a q0 c sg _ tb _ ha he s1 f2
      · simp [exponent, if_neg he] at hr

theorem letters_none {t : Str} (h : ∀ x, t.head? = some x → isDigit x = false ∧ x ≠ 0x2E) : strtod t = none := by
  unfold strtod mantissa
  cases t with
  | nil => rfl
  | cons x t =>
    obtain ⟨h1, h2⟩ := h x rfl
    rw [List.takeWhile_cons_of_neg (by simp [h1]), List.dropWhile_cons_of_neg (by simp [h1])]
    simp [h2]

theorem lower_letter {x : Nat} (h : isLower (if isUpper x then x + 0x20 else x) = true) :
    x < 127 ∧ isDigit x = false ∧ x ≠ 0x20 ∧ x ≠ 0x3F ∧ x ≠ 0x2E ∧ x ≠ 0x2B ∧ x ≠ 0x2D ∧ x ≠ 0x5F := by
  have : (0x41 ≤ x ∧ x ≤ 0x5A) ∨ (0x61 ≤ x ∧ x ≤ 0x7A) := by
    split at h
    · next hu => simp only [isUpper, Bool.and_eq_true, decide_eq_true_eq] at hu; exact Or.inl hu
    · simp only [isLower, Bool.and_eq_true, decide_eq_true_eq] at h; exact Or.inr h
  refine ⟨by omega, ?_, by omega, by omega, by omega, by omega, by omega, by omega⟩
  rw [Bool.eq_false_iff, Ne, isDigit_iff]
  omega

theorem anyCase_letters {t : Str} {w : List Char} (hw : ∀ c ∈ lit w, isLower c = true) (h : AnyCase t w) :
    ∀ x ∈ t, x < 127 ∧ isDigit x = false ∧ x ≠ 0x20 ∧ x ≠ 0x3F ∧ x ≠ 0x2E ∧ x ≠ 0x2B ∧ x ≠ 0x2D ∧ x ≠ 0x5F := by
  intro x hx
  refine lower_letter (hw _ ?_)
  rw [← h]
  exact List.mem_map.mpr ⟨x, hx, rfl⟩

theorem map_asc_letters {t : Str} (h : ∀ x ∈ t, x < 127) : t.map asc = t := by
  refine (List.map_congr_left (fun x hx => ?_)).trans (List.map_id t)
  unfold asc
  rw [if_pos (h x hx)]; rfl

theorem letters_map_asc {t u : Str} (h : ∀ x ∈ u, x < 127 ∧ isDigit x = false ∧ x ≠ 0x20 ∧ x ≠ 0x3F) (e : t.map asc = u) : t = u := by
  induction t generalizing u with
  | nil => exact e
  | cons c t ih =>
    cases u with
    | nil => cases e
    | cons x u =>
      rw [List.map_cons, List.cons.injEq] at e
      obtain ⟨h1, h2, h3, h4⟩ := h x (List.mem_cons_self ..)
      rw [(asc_eq h1 h2 h3 h4).mp e.1, ih (fun y hy => h y (List.mem_cons_of_mem _ hy)) e.2]

theorem under_word {t : Str} {prev : Nat} (hp : prev ≠ 0x5F) (h : ∀ x ∈ t, x < 127 ∧ x ≠ 0x5F) : dropUnder prev (t.map asc) = some t := by
  induction t generalizing prev with
  | nil => simp [dropUnder, hp]
  | cons c t ih =>
    obtain ⟨h1, h2⟩ := h c (List.mem_cons_self ..)
    rw [under_plain hp h1 h2, ih h2 (fun x hx => h x (List.mem_cons_of_mem _ hx))]
    rfl

/-- The parser accepts exactly the texts of the grammar, with the value of the grammar. -/
theorem pyFloat_iff (s : Str) (v : PyFloat) : pyFloat s = some v ↔ FloatText s v := by
  have word : ∀ {sg t : Str} {neg : Bool} {w : List Char}, SignText sg neg → AnyCase t w → (∀ c ∈ lit w, isLower c = true) →
      dropUnder 0 ((sg ++ t).map asc) = some (sg ++ t) ∧ signOf (sg ++ t) = (neg, t) ∧ strtod t = none := by
    intro sg t neg w hs ht hw
    have hl := anyCase_letters hw ht
    obtain ⟨s1, s2⟩ := sign_under hs
    obtain ⟨p, hp, s3⟩ := s2 0 (by decide)
    refine ⟨?_, s1 t (fun x hx => ?_), letters_none (fun x hx => ?_)⟩
    · rw [s3, under_word hp (fun x hx => ⟨(hl x hx).1, (hl x hx).2.2.2.2.2.2.2⟩)]; rfl
    · have := hl x (List.mem_of_mem_head? hx); exact ⟨this.2.2.2.2.2.1, this.2.2.2.2.2.2.1⟩
    · have := hl x (List.mem_of_mem_head? hx); exact ⟨this.2.1, this.2.2.2.2.1⟩
  have winf : ∀ c ∈ lit ['i', 'n', 'f'], isLower c = true := by decide
  have winfinity : ∀ c ∈ lit ['i', 'n', 'f', 'i', 'n', 'i', 't', 'y'], isLower c = true := by decide
  have wnan : ∀ c ∈ lit ['n', 'a', 'n'], isLower c = true := by decide
  constructor
  · intro h
    unfold pyFloat at h
    rw [strip_asc] at h
    obtain ⟨m, hm⟩ : ∃ m, m = stripBy isIntSpace s := ⟨_, rfl⟩
    have htrim : TrimmedBy isIntSpace s m := (trimmedBy_iff ..).mpr hm.symm
    rw [← hm] at h
    rcases hd : dropUnder 0 (m.map asc) with _ | u
    · rw [hd] at h; cases h
    · rw [hd] at h
      simp only [] at h
      obtain ⟨sg, m', p, rfl, h1, h2, h3⟩ := under_sign hd (by decide)
      rcases ht : strtod (signOf u).2 with _ | ⟨q, r⟩
      · rw [ht] at h
        simp only [infNan] at h
        have letters : ∀ {w : List Char}, (∀ c ∈ lit w, isLower c = true) → AnyCase (signOf u).2 w → m' = (signOf u).2 := by
          intro w hw ha
          have hl := anyCase_letters hw ha
          exact letters_map_asc (fun x hx => ⟨(hl x hx).1, (hl x hx).2.1, (hl x hx).2.2.1, (hl x hx).2.2.2.1⟩) (under_letters _ _ _ h3 (fun x hx => (hl x hx).2.1))
        split at h
        · next hi =>
          cases h
          refine .infinite sg _ m' htrim h1 ?_
          rcases hi with hi | hi
          · rw [letters winf hi]; exact Or.inl hi
          · rw [letters winfinity hi]; exact Or.inr hi
        · split at h
          · next hn =>
            cases h
            refine .nan sg _ m' htrim h1 ?_
            rw [letters wnan hn]; exact hn
          · cases h
      · rw [ht] at h
        cases r with
        | cons _ _ => cases h
        | nil =>
          cases h
          exact .number sg _ m' q htrim h1 (under_decimal h3 h2 ht)
  · intro h
    unfold pyFloat
    rw [strip_asc]
    cases h with
    | number sg neg t q ht hs hq =>
      rw [(trimmedBy_iff ..).mp ht]
      obtain ⟨A, a1, a2, a3⟩ := decimal_under hq
      obtain ⟨s1, s2⟩ := sign_under hs
      obtain ⟨p, hp, s3⟩ := s2 0 (by decide)
      rw [s3, a3 p hp, Option.map_some]
      simp only [s1 A (fun x hx => not_sign (a1 x hx)), a2]
    | infinite sg neg t ht hs hw =>
      rw [(trimmedBy_iff ..).mp ht]
      rcases hw with hw | hw
      · obtain ⟨w1, w2, w3⟩ := word hs hw winf
        rw [w1]
        simp only [w2, w3]
        exact if_pos (Or.inl hw)
      · obtain ⟨w1, w2, w3⟩ := word hs hw winfinity
        rw [w1]
        simp only [w2, w3]
        exact if_pos (Or.inr hw)
    | nan sg neg t ht hs hw =>
      rw [(trimmedBy_iff ..).mp ht]
      obtain ⟨w1, w2, w3⟩ := word hs hw wnan
      rw [w1]
      simp only [w2, w3]
      unfold infNan
      have hw' : t.map (fun c => if isUpper c then c + 0x20 else c) = lit ['n', 'a', 'n'] := hw
      rw [if_neg (by rw [hw']; decide), if_pos hw']

end Jieba
