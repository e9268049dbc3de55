import Verif.Spec.FloatText
import Verif.Proofs.Fields
/-!
# Lemmas about `float`: the parser against the grammar
-/

namespace Jieba
open Jieba.Spec

theorem digitValue_lt {c d : Nat} (h : digitValue c = some d) : d < 10 := by
  unfold digitValue at h
  rcases hf : ndStarts.find? (fun b => decide (b ≤ c) && decide (c < b + 10)) with _ | z
  · rw [hf] at h; cases h
  · rw [hf] at h
    have := List.find?_some hf
    simp only [Bool.and_eq_true, decide_eq_true_eq, Option.map_some, Option.some.injEq] at this h
    omega

theorem digitValue_low : ∀ c : Nat, c < 128 → digitValue c = if isDigit c then some (c - 0x30) else none := by decide

theorem isDigit_iff (c : Nat) : isDigit c = true ↔ 0x30 ≤ c ∧ c ≤ 0x39 := by simp [isDigit]

theorem isDigit_add {d : Nat} (h : d < 10) : isDigit (0x30 + d) = true := by rw [isDigit_iff]; omega

theorem digitValue_asc (c : Nat) : digitValue (asc c) = digitValue c := by
  unfold asc
  split
  · rfl
  · split
    · next h1 h2 =>
      have : digitValue c = none := by
        by_contra h
        obtain ⟨d, hd⟩ := Option.ne_none_iff_exists'.mp h
        have h2 : (0x09 ≤ c ∧ c ≤ 0x0D) ∨ (0x1C ≤ c ∧ c ≤ 0x20) ∨ c = 0x85 ∨ c = 0xA0 ∨ c = 0x1680 ∨
            (0x2000 ≤ c ∧ c ≤ 0x200A) ∨ c = 0x2028 ∨ c = 0x2029 ∨ c = 0x202F ∨ c = 0x205F ∨ c = 0x3000 := by
          simpa [isSpace, or_assoc] using h2
        have key : ∀ c ∈ ([0x85, 0xA0, 0x1680, 0x2028, 0x2029, 0x202F, 0x205F, 0x3000] ++ (List.range 11).map (0x2000 + ·)), digitValue c = none := by decide
        have hc : c ∈ ([0x85, 0xA0, 0x1680, 0x2028, 0x2029, 0x202F, 0x205F, 0x3000] ++ (List.range 11).map (0x2000 + ·)) := by
          rcases h2 with h2 | h2 | h2 | h2 | h2 | h2 | h2 | h2 | h2 | h2 | h2
          · omega
          · omega
          · simp [h2]
          · simp [h2]
          · simp [h2]
          · simp only [List.mem_append, List.mem_map, List.mem_range]; right; exact ⟨c - 0x2000, by omega, by omega⟩
          all_goals simp [h2]
        rw [key c hc] at hd; cases hd
      rw [this]; decide
    · split
      · next d h =>
        rw [h]
        have hlt := digitValue_lt h
        rw [digitValue_low _ (by omega), isDigit_add hlt]
        simp
      · next h => rw [h]; decide

theorem isDigit_asc (c : Nat) : isDigit (asc c) = isDecimal c := by
  have h : asc c < 128 := by
    unfold asc
    split
    · omega
    · split
      · omega
      · split
        · next d h => have := digitValue_lt h; omega
        · omega
  unfold isDecimal
  rw [← digitValue_asc c, digitValue_low _ h]
  split <;> simp_all

theorem asc_eq {c x : Nat} (hx : x < 127) (h1 : isDigit x = false) (h2 : x ≠ 0x20) (h3 : x ≠ 0x3F) : asc c = x ↔ c = x := by
  constructor
  · intro h
    unfold asc at h
    split at h
    · exact h
    · split at h
      · exact absurd h.symm h2
      · split at h
        · next d hd =>
          have := isDigit_add (digitValue_lt hd)
          rw [h, h1] at this; cases this
        · exact absurd h.symm h3
  · rintro rfl
    unfold asc
    rw [if_pos hx]

theorem byteSpace_asc (c : Nat) : isByteSpace (asc c) = isIntSpace c := by
  unfold asc isIntSpace
  split
  · next h =>
    have : (0x80 ≤ c) = False := by simp; omega
    simp [this]
  · next h =>
    have hb : isByteSpace c = false := by
      simp only [isByteSpace, Bool.or_eq_false_iff, Bool.and_eq_false_iff, decide_eq_false_iff_not, beq_eq_false_iff_ne]
      omega
    split
    · next hs =>
      have : 0x80 ≤ c := by
        rcases (show c = 127 ∨ 128 ≤ c by omega) with rfl | h
        · revert hs; decide
        · exact h
      rw [hb, hs]; simp [this]; decide
    · next hs =>
      have hs : isSpace c = false := by simpa using hs
      rw [hb, hs]
      split
      · next d hd =>
        have := digitValue_lt hd
        simp only [isByteSpace, Bool.and_false, Bool.or_false, Bool.or_eq_false_iff, Bool.and_eq_false_iff, decide_eq_false_iff_not, beq_eq_false_iff_ne]
        omega
      · simp; decide

theorem map_dropWhile {p q : Nat → Bool} {f : Nat → Nat} (h : ∀ c, p (f c) = q c) (s : List Nat) : (s.map f).dropWhile p = (s.dropWhile q).map f := by
  induction s with
  | nil => rfl
  | cons c s ih =>
    rw [List.map_cons, List.dropWhile_cons, List.dropWhile_cons, h, ih]
    split <;> rfl

theorem strip_asc (s : Str) : stripBy isByteSpace (s.map asc) = (stripBy isIntSpace s).map asc := by
  unfold stripBy
  rw [map_dropWhile byteSpace_asc, ← List.map_reverse, map_dropWhile byteSpace_asc, ← List.map_reverse]

/-! ## Underscores: from the text without them back -/

theorem decVal_snoc (acc : Nat) (c : Nat) (l : Str) :
    (c :: l).foldl (fun n c => n * 10 + (c - 0x30)) acc = l.foldl (fun n c => n * 10 + (c - 0x30)) (acc * 10 + (c - 0x30)) := List.foldl_cons ..

theorem digitValue_of {c : Nat} (h : isDigit (asc c) = true) : digitValue c = some (asc c - 0x30) := by
  rw [← digitValue_asc, digitValue_low _ (by rw [isDigit_iff] at h; omega), if_pos h]

theorem under_digits (m : Str) (prev : Nat) (us : Bool) (u : Str) (h : dropUnder prev (m.map asc) = some u) (pre : Str) (acc : Nat) (hp : DigitText pre acc)
    (hprev : if us then prev = 0x5F else isDigit prev = true) :
    ∃ ta tr, m = ta ++ tr ∧
      DigitText (pre ++ (if us then [0x5F] else []) ++ ta) ((u.takeWhile isDigit).foldl (fun n c => n * 10 + (c - 0x30)) acc) ∧
      ta.countP isDecimal = (u.takeWhile isDigit).length ∧ ∃ p, isDigit p = true ∧ dropUnder p (tr.map asc) = some (u.dropWhile isDigit) := by
  induction m generalizing prev us u pre acc with
  | nil =>
    simp only [List.map_nil, dropUnder] at h
    cases us with
    | true => simp only [if_true] at hprev; rw [if_pos hprev] at h; cases h
    | false =>
      simp only [Bool.false_eq_true, if_false] at hprev
      have hne : prev ≠ 0x5F := by rintro rfl; revert hprev; decide
      rw [if_neg hne] at h
      cases h
      exact ⟨[], [], rfl, by simpa using hp, rfl, prev, hprev, by simp [dropUnder, hne]⟩
  | cons c m ih =>
    rw [List.map_cons] at h
    have h0 := h
    unfold dropUnder at h
    by_cases hc : asc c = 0x5F
    · rw [if_pos hc] at h
      have hcc : c = 0x5F := (asc_eq (by decide) (by decide) (by decide) (by decide)).mp hc
      cases us with
      | true =>
        simp only [if_true] at hprev
        subst hprev
        rw [if_neg (by decide)] at h; cases h
      | false =>
        simp only [Bool.false_eq_true, if_false] at hprev
        rw [if_pos hprev] at h
        obtain ⟨ta, tr, e1, e2, e3, e4⟩ := ih (asc c) true u h pre acc hp (by simpa using hc)
        refine ⟨c :: ta, tr, by rw [e1]; rfl, ?_, ?_, e4⟩
        · subst hcc; simpa using e2
        · rw [List.countP_cons, e3, hcc]; rfl
    · rw [if_neg hc] at h
      by_cases hd : isDigit (asc c) = true
      · rw [if_neg (by rw [hd]; simp)] at h
        rcases hr : dropUnder (asc c) (m.map asc) with _ | u'
        · rw [hr] at h; cases h
        · rw [hr] at h; cases h
          have hv := digitValue_of hd
          have hp' : DigitText (pre ++ (if us then [0x5F] else []) ++ [c]) (acc * 10 + (asc c - 0x30)) := by
            cases us with
            | true => simpa using DigitText.under pre acc c _ hp hv
            | false => simpa using DigitText.next pre acc c _ hp hv
          obtain ⟨ta, tr, e1, e2, e3, e4⟩ := ih (asc c) false u' hr _ _ hp' (by simpa using hd)
          refine ⟨c :: ta, tr, by rw [e1]; rfl, ?_, ?_, ?_⟩
          · rw [List.takeWhile_cons_of_pos hd, decVal_snoc]; simpa using e2
          · rw [List.takeWhile_cons_of_pos hd, List.countP_cons, e3, ← isDigit_asc, if_pos hd]; rfl
          · rw [List.dropWhile_cons_of_pos hd]; exact e4
      · have hd : isDigit (asc c) = false := by simpa using hd
        cases us with
        | true =>
          simp only [if_true] at hprev
          rw [if_pos ⟨hprev, hd⟩] at h; cases h
        | false =>
          simp only [Bool.false_eq_true, if_false] at hprev
          have hne : prev ≠ 0x5F := by rintro rfl; revert hprev; decide
          rw [if_neg (by simp [hne])] at h
          rcases hr : dropUnder (asc c) (m.map asc) with _ | u'
          · rw [hr] at h; cases h
          · rw [hr] at h; cases h
            refine ⟨[], c :: m, rfl, ?_, ?_, prev, hprev, ?_⟩
            · rw [List.takeWhile_cons_of_neg (by simp [hd])]; simpa using hp
            · rw [List.takeWhile_cons_of_neg (by simp [hd])]; rfl
            · rw [List.dropWhile_cons_of_neg (by simp [hd])]; exact h0

theorem under_digits0 (m : Str) (prev : Nat) (u : Str) (h : dropUnder prev (m.map asc) = some u) (hprev : isDigit prev = false)
    (hne : u.takeWhile isDigit ≠ []) :
    ∃ ta tr, m = ta ++ tr ∧ DigitText ta (decVal (u.takeWhile isDigit)) ∧
      ta.countP isDecimal = (u.takeWhile isDigit).length ∧ ∃ p, isDigit p = true ∧ dropUnder p (tr.map asc) = some (u.dropWhile isDigit) := by
  cases m with
  | nil =>
    simp only [List.map_nil, dropUnder] at h
    split at h
    · cases h
    · cases h; exact absurd rfl hne
  | cons c m =>
    rw [List.map_cons] at h
    unfold dropUnder at h
    by_cases hc : asc c = 0x5F
    · rw [if_pos hc, hprev] at h; cases h
    · rw [if_neg hc] at h
      split at h
      · cases h
      · rcases hr : dropUnder (asc c) (m.map asc) with _ | u'
        · rw [hr] at h; cases h
        · rw [hr] at h; cases h
          have hd : isDigit (asc c) = true := by
            by_contra hd
            rw [List.takeWhile_cons_of_neg hd] at hne
            exact hne rfl
          have hv := digitValue_of hd
          obtain ⟨ta, tr, e1, e2, e3, e4⟩ := under_digits m (asc c) false u' hr [c] _ (.digit c _ hv) (by simpa using hd)
          refine ⟨c :: ta, tr, by rw [e1]; rfl, ?_, ?_, ?_⟩
          · rw [List.takeWhile_cons_of_pos hd]; simpa [decVal] using e2
          · rw [List.takeWhile_cons_of_pos hd, List.countP_cons, e3, ← isDigit_asc, if_pos hd]; rfl
          · rw [List.dropWhile_cons_of_pos hd]; exact e4

theorem under_head (m : Str) (prev x : Nat) (r : Str) (h : dropUnder prev (m.map asc) = some (x :: r)) (hx : isDigit x = false) :
    ∃ c m', m = c :: m' ∧ asc c = x ∧ prev ≠ 0x5F ∧ x ≠ 0x5F ∧ dropUnder x (m'.map asc) = some r := by
  have plain : ∀ (c : Nat) (m : Str) (prev : Nat), asc c ≠ 0x5F → dropUnder prev ((c :: m).map asc) = some (x :: r) →
      asc c = x ∧ prev ≠ 0x5F ∧ dropUnder x (m.map asc) = some r := by
    intro c m prev hc h
    rw [List.map_cons] at h
    unfold dropUnder at h
    rw [if_neg hc] at h
    split at h
    · cases h
    · next hp =>
      rcases hr : dropUnder (asc c) (m.map asc) with _ | u'
      · rw [hr] at h; cases h
      · rw [hr] at h; cases h
        refine ⟨rfl, ?_, hr⟩
        rintro rfl
        exact hp ⟨rfl, hx⟩
  cases m with
  | nil =>
    simp only [List.map_nil, dropUnder] at h
    split at h <;> cases h
  | cons c m =>
    by_cases hc : asc c = 0x5F
    · exfalso
      rw [List.map_cons] at h
      unfold dropUnder at h
      rw [if_pos hc] at h
      split at h
      · cases m with
        | nil => rw [hc] at h; simp [dropUnder] at h
        | cons c' m =>
          by_cases hc' : asc c' = 0x5F
          · rw [List.map_cons] at h
            unfold dropUnder at h
            rw [if_pos hc', hc, if_neg (by decide)] at h; cases h
          · exact (plain c' m _ hc' h).2.1 hc
      · cases h
    · obtain ⟨h1, h2, h3⟩ := plain c m prev hc h
      exact ⟨c, m, rfl, h1, h2, by rw [← h1]; exact hc, h3⟩

theorem under_nil (m : Str) (prev : Nat) (h : dropUnder prev (m.map asc) = some []) : m = [] := by
  have plain : ∀ (c : Nat) (m : Str) (prev : Nat), asc c ≠ 0x5F → dropUnder prev ((c :: m).map asc) = some [] → False := by
    intro c m prev hc h
    rw [List.map_cons] at h
    unfold dropUnder at h
    rw [if_neg hc] at h
    split at h
    · cases h
    · rcases hr : dropUnder (asc c) (m.map asc) with _ | u'
      · rw [hr] at h; cases h
      · rw [hr] at h; cases h
  cases m with
  | nil => rfl
  | cons c m =>
    exfalso
    by_cases hc : asc c = 0x5F
    · rw [List.map_cons] at h
      unfold dropUnder at h
      rw [if_pos hc] at h
      split at h
      · cases m with
        | nil => rw [hc] at h; simp [dropUnder] at h
        | cons c' m =>
          by_cases hc' : asc c' = 0x5F
          · rw [List.map_cons] at h
            unfold dropUnder at h
            rw [if_pos hc', hc, if_neg (by decide)] at h; cases h
          · exact plain c' m _ hc' h
      · cases h
    · exact plain c m prev hc h

theorem under_letters (m : Str) (prev : Nat) (u : Str) (h : dropUnder prev (m.map asc) = some u) (hu : ∀ x ∈ u, isDigit x = false) : m.map asc = u := by
  induction u generalizing m prev with
  | nil => rw [under_nil m prev h]; rfl
  | cons x r ih =>
    obtain ⟨c, m', rfl, h1, -, -, h2⟩ := under_head m prev x r h (hu x (List.mem_cons_self ..))
    rw [List.map_cons, h1, ih m' x h2 (fun y hy => hu y (List.mem_cons_of_mem _ hy))]

/-! ## Underscores: forward -/

theorem digits_under {ta : Str} {n : Nat} (h : DigitText ta n) :
    ∃ a, a ≠ [] ∧ (∀ c ∈ a, isDigit c = true) ∧ decVal a = n ∧ a.length = ta.countP isDecimal ∧
      ∃ p, isDigit p = true ∧ ∀ prev, prev ≠ 0x5F → ∀ r, dropUnder prev ((ta ++ r).map asc) = (dropUnder p (r.map asc)).map (a ++ ·) := by
  have dig : ∀ {c d : Nat}, digitValue c = some d → isDigit (asc c) = true ∧ asc c - 0x30 = d ∧ asc c ≠ 0x5F ∧ isDecimal c = true := by
    intro c d h
    have h1 : isDecimal c = true := by unfold isDecimal; rw [h]; rfl
    have h2 : isDigit (asc c) = true := by rw [isDigit_asc]; exact h1
    have h3 := digitValue_of h2
    rw [h] at h3
    refine ⟨h2, by simpa using h3.symm, ?_, h1⟩
    intro h4
    rw [h4] at h2; revert h2; decide
  have ne5 : ∀ {p : Nat}, isDigit p = true → p ≠ 0x5F := by rintro p hp rfl; revert hp; decide
  induction h with
  | digit c d h =>
    obtain ⟨h1, h2, h3, h4⟩ := dig h
    refine ⟨[asc c], by simp, by simpa using h1, by simp [decVal, h2], by simp [h4], asc c, h1, ?_⟩
    intro prev hp r
    rw [List.cons_append, List.nil_append, List.map_cons]
    conv_lhs => unfold dropUnder
    rw [if_neg h3, if_neg (by simp [hp])]
    rfl
  | next s n c d _ hd ih =>
    obtain ⟨h1, h2, h3, h4⟩ := dig hd
    obtain ⟨a, a1, a2, a3, a4, p, a5, a6⟩ := ih
    refine ⟨a ++ [asc c], by simp, ?_, ?_, ?_, asc c, h1, ?_⟩
    · intro x hx
      rcases List.mem_append.mp hx with hx | hx
      · exact a2 x hx
      · rw [List.mem_singleton.mp hx]; exact h1
    · unfold decVal at a3 ⊢
      rw [List.foldl_append, a3]; simp [h2]
    · simp [a4, h4]
    · intro prev hp r
      rw [List.append_assoc, a6 prev hp, List.cons_append, List.nil_append, List.map_cons]
      conv_lhs => unfold dropUnder
      rw [if_neg h3, if_neg (by simp [ne5 a5]), Option.map_map]
      congr 1; funext x; simp
  | under s n c d _ hd ih =>
    obtain ⟨h1, h2, h3, h4⟩ := dig hd
    obtain ⟨a, a1, a2, a3, a4, p, a5, a6⟩ := ih
    refine ⟨a ++ [asc c], by simp, ?_, ?_, ?_, asc c, h1, ?_⟩
    · intro x hx
      rcases List.mem_append.mp hx with hx | hx
      · exact a2 x hx
      · rw [List.mem_singleton.mp hx]; exact h1
    · unfold decVal at a3 ⊢
      rw [List.foldl_append, a3]; simp [h2]
    · have : isDecimal 0x5F = false := by decide
      simp [a4, h4, this]
    · intro prev hp r
      have e5 : asc 0x5F = 0x5F := by decide
      rw [List.append_assoc, a6 prev hp, List.cons_append, List.cons_append, List.nil_append, List.map_cons, List.map_cons, e5]
      conv_lhs => unfold dropUnder
      rw [if_pos rfl, if_pos a5]
      conv_lhs => unfold dropUnder
      rw [if_neg h3, if_neg (by simp [h1]), Option.map_map]
      congr 1; funext x; simp

theorem under_plain {prev c : Nat} (hp : prev ≠ 0x5F) (hc : c < 127) (hc5 : c ≠ 0x5F) (r : Str) :
    dropUnder prev ((c :: r).map asc) = (dropUnder c (r.map asc)).map (c :: ·) := by
  have e : asc c = c := by unfold asc; rw [if_pos hc]
  rw [List.map_cons, e]
  conv_lhs => unfold dropUnder
  rw [if_neg hc5, if_neg (by simp [hp])]

end Jieba
