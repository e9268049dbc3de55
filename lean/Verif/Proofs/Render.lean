import Verif.Spec.Render
import Verif.Model.Dict
import Verif.Proofs.Codec
/-!
# Lemmas about numbers, lines and stripping
-/

namespace Jieba
open Jieba.Spec

theorem decimal_digits (n : Nat) : ∀ c ∈ decimal n, isDigit c = true := by
  fun_induction decimal n with
  | case1 n h => intro c hc; simp at hc; subst hc; simp [isDigit]; unfold Ch; omega
  | case2 n h ih =>
    intro c hc
    rcases List.mem_append.mp hc with hc | hc
    · exact ih c hc
    · simp at hc; subst hc; simp [isDigit]; unfold Ch; omega

theorem decimal_ne_nil (n : Nat) : decimal n ≠ [] := by
  unfold decimal; split <;> simp

theorem digitValue_ascii (d : Nat) (h : d < 10) : digitValue (0x30 + d) = some d := by
  revert d
  decide

theorem digitsGo_append (s : Str) (d : Nat) (hd : d < 10) (acc : Nat) (us : Bool) (m : Nat)
    (hs : s ≠ [] ∨ us = false) (h : digitsGo acc us s = some m) : digitsGo acc us (s ++ [0x30 + d]) = some (m * 10 + d) := by
  induction s generalizing acc us with
  | nil =>
    rcases hs with hs | rfl
    · exact absurd rfl hs
    · simp [digitsGo] at h; subst h
      have : ¬ (0x30 + d = 0x5F) := by omega
      simp only [List.nil_append, digitsGo, if_neg this, digitValue_ascii d hd]
      simp
  | cons c s ih =>
    simp only [List.cons_append, digitsGo] at h ⊢
    split at h
    · next hc =>
      rw [if_pos hc]
      split at h
      · simp at h
      · next hu =>
        rw [if_neg hu]
        refine ih _ _ ?_ h
        left; rintro rfl; simp [digitsGo] at h
    · next hc =>
      rw [if_neg hc]
      split at h
      · exact ih _ _ (Or.inr rfl) h
      · simp at h

theorem digitsValue_decimal (n : Nat) : digitsValue (decimal n) = some n := by
  fun_induction decimal n with
  | case1 n h => simp [digitsValue, digitValue_ascii n h, digitsGo]
  | case2 n h ih =>
    obtain ⟨c, l, hl⟩ := List.exists_cons_of_ne_nil (decimal_ne_nil (n / 10))
    rw [hl] at ih ⊢
    simp only [digitsValue, List.cons_append] at ih ⊢
    split at ih
    · next d hd =>
      rw [digitsGo_append l (n % 10) (by omega) d false (n / 10) (Or.inr rfl) ih]
      congr 1; omega
    · simp at ih

/-! ## strip -/

theorem dropWhile_head (p : Nat → Bool) (s : List Nat) (h : ∀ c, s.head? = some c → p c = false) : s.dropWhile p = s := by
  cases s with
  | nil => rfl
  | cons c s => simp [h c rfl]

/-- Stripping removes exactly the trailing blanks when the text begins and ends with something else. -/
theorem stripBy_append (p : Nat → Bool) (s t : List Nat) (hs : s ≠ []) (h1 : ∀ c, s.head? = some c → p c = false)
    (h2 : ∀ c, s.getLast? = some c → p c = false) (ht : ∀ c ∈ t, p c = true) : stripBy p (s ++ t) = s := by
  unfold stripBy
  rw [dropWhile_head p (s ++ t) (by
    intro c hc; apply h1
    cases s with
    | nil => exact absurd rfl hs
    | cons d s => simpa using hc)]
  rw [List.reverse_append]
  have : ∀ u : List Nat, (∀ c ∈ u, p c = true) → ∀ v, (u ++ v).dropWhile p = v.dropWhile p := by
    intro u
    induction u with
    | nil => intro _ v; rfl
    | cons c u ih =>
      intro hu v
      rw [List.cons_append, List.dropWhile_cons, if_pos (hu c (by simp))]
      exact ih (fun c hc => hu c (List.mem_cons_of_mem _ hc)) v
  rw [this _ (fun c hc => ht c (List.mem_reverse.mp hc)), dropWhile_head p s.reverse (by
    intro c hc; apply h2; rw [List.head?_reverse] at hc; exact hc), List.reverse_reverse]

theorem mem_of_mem_stripBy (p : Nat → Bool) (s : List Nat) (c : Nat) (h : c ∈ stripBy p s) : c ∈ s := by
  unfold stripBy at h
  rw [List.mem_reverse] at h
  have h := (List.dropWhile_sublist p).subset h
  rw [List.mem_reverse] at h
  exact (List.dropWhile_sublist p).subset h

theorem stripBy_of_none (p : Nat → Bool) (s : List Nat) (h : ∀ c ∈ s, p c = false) : stripBy p s = s := by
  cases hs : s with
  | nil => rfl
  | cons c t =>
    rw [← hs]
    have := stripBy_append p s [] (by simp [hs]) (fun c hc => h c (List.mem_of_mem_head? hc))
      (fun c hc => h c (List.mem_of_getLast? hc)) (by simp)
    simpa using this

theorem isIntSpace_digit (c : Ch) (h : isDigit c = true) : isIntSpace c = false := by
  unfold isDigit at h; unfold isIntSpace isByteSpace isSpace; simp at h ⊢; unfold Ch at *; omega

theorem pyInt_digits (s : Str) (h : ∀ c ∈ s, isDigit c = true) : pyInt s = (digitsValue s).map Int.ofNat := by
  unfold pyInt
  rw [stripBy_of_none _ s (fun c hc => isIntSpace_digit c (h c hc))]
  cases s with
  | nil => rfl
  | cons c s =>
    have hc := h c (by simp)
    have h1 : ¬ c = 0x2B := by rintro rfl; simp [isDigit] at hc
    have h2 : ¬ c = 0x2D := by rintro rfl; simp [isDigit] at hc
    simp only [if_neg h1, if_neg h2]

theorem pyInt_decimal (n : Nat) : pyInt (decimal n) = some (n : Int) := by
  rw [pyInt_digits _ (decimal_digits n), digitsValue_decimal]; rfl

theorem pyInt_nonneg (s : Str) (h : 0x2D ∉ s) (n : Int) (hn : pyInt s = some n) : 0 ≤ n := by
  unfold pyInt at hn
  split at hn
  · simp at hn
  · next c t hs =>
    have hc : c ≠ 0x2D := by
      rintro rfl
      exact h (mem_of_mem_stripBy isIntSpace s _ (by rw [hs]; simp))
    split at hn
    · cases hd : digitsValue t with
      | none => rw [hd] at hn; simp at hn
      | some k => rw [hd] at hn; simp at hn; rw [← hn]; exact Int.natCast_nonneg k
    · cases hd : digitsValue (c :: t) with
      | none => rw [hd] at hn; simp at hn
      | some k => rw [hd] at hn; simp at hn; rw [← hn]; exact Int.natCast_nonneg k

/-! ## Lines -/

theorem fileLines_go (a b acc : Bytes) (h : 0x0A ∉ a) :
    fileLines.go (a ++ 0x0A :: b) acc = (acc ++ a ++ [0x0A]) :: fileLines.go b [] := by
  induction a generalizing acc with
  | nil => simp [fileLines.go]
  | cons c a ih =>
    simp only [List.mem_cons, not_or] at h
    rw [List.cons_append, fileLines.go, if_neg (fun h' => h.1 h'.symm), ih _ h.2]
    simp

theorem fileLines_line (a b : Bytes) (h : 0x0A ∉ a) : fileLines (a ++ 0x0A :: b) = (a ++ [0x0A]) :: fileLines b := by
  unfold fileLines
  rw [fileLines_go _ _ _ h]; simp

/-! ## Encoding -/

theorem utf8EncodeCh_bytes (c : Nat) (b : Bytes) (h : utf8EncodeCh c = some b) :
    b ≠ [] ∧ (c < 0x80 → b = [c]) ∧ (0x80 ≤ c → ∀ x ∈ b, 0x80 ≤ x) := by
  unfold utf8EncodeCh at h
  split at h
  · next hc =>
    simp at h; subst h
    exact ⟨by simp, fun _ => rfl, fun h => by omega⟩
  · next hc =>
    split at h
    · simp at h; subst h; simp; omega
    · split at h
      · simp at h
      · split at h
        · simp at h; subst h; simp; omega
        · split at h
          · simp at h; subst h; simp; omega
          · simp at h

theorem utf8Encode_append (s t : Str) (a b : Bytes) (ha : utf8Encode s = some a) (hb : utf8Encode t = some b) :
    utf8Encode (s ++ t) = some (a ++ b) := by
  induction s generalizing a with
  | nil => simp [utf8Encode] at ha; subst ha; simpa using hb
  | cons c s ih =>
    simp only [utf8Encode, List.cons_append] at ha ⊢
    cases h1 : utf8EncodeCh c with
    | none => rw [h1] at ha; simp at ha
    | some x =>
      cases h2 : utf8Encode s with
      | none => rw [h1, h2] at ha; simp at ha
      | some y =>
        rw [h1, h2] at ha; simp at ha; subst ha
        rw [ih y h2]; simp

theorem utf8Encode_cons (c : Nat) (s : Str) (b : Bytes) (h : utf8Encode (c :: s) = some b) :
    ∃ x y, utf8EncodeCh c = some x ∧ utf8Encode s = some y ∧ b = x ++ y := by
  simp only [utf8Encode] at h
  cases h1 : utf8EncodeCh c with
  | none => rw [h1] at h; simp at h
  | some x =>
    cases h2 : utf8Encode s with
    | none => rw [h1, h2] at h; simp at h
    | some y => rw [h1, h2] at h; simp at h; exact ⟨x, y, rfl, rfl, h.symm⟩

theorem utf8Encode_append_inv (s t : Str) (b : Bytes) (h : utf8Encode (s ++ t) = some b) :
    ∃ x y, utf8Encode s = some x ∧ utf8Encode t = some y ∧ b = x ++ y := by
  induction s generalizing b with
  | nil => exact ⟨[], b, rfl, h, rfl⟩
  | cons c s ih =>
    obtain ⟨u, v, h1, h2, rfl⟩ := utf8Encode_cons c (s ++ t) b h
    obtain ⟨x, y, h3, h4, rfl⟩ := ih v h2
    exact ⟨u ++ x, y, by simp [utf8Encode, h1, h3], h4, by simp⟩

/-- ASCII bytes of an encoded text are characters of the text. -/
theorem utf8Encode_mem (s : Str) (b : Bytes) (h : utf8Encode s = some b) (x : Nat) (hx : x ∈ b) (ha : x < 0x80) : x ∈ s := by
  induction s generalizing b with
  | nil => simp [utf8Encode] at h; subst h; simp at hx
  | cons c s ih =>
    obtain ⟨u, v, h1, h2, rfl⟩ := utf8Encode_cons c s b h
    obtain ⟨-, h3, h4⟩ := utf8EncodeCh_bytes c u h1
    rcases List.mem_append.mp hx with hx | hx
    · by_cases hc : c < 0x80
      · rw [h3 hc] at hx; simp at hx; simp [hx]
      · have := h4 (Nat.le_of_not_lt hc) x hx; omega
    · exact List.mem_cons_of_mem _ (ih v h2 hx)

theorem utf8Encode_head (s : Str) (b : Bytes) (h : utf8Encode s = some b) (x : Nat) (hx : b.head? = some x) (ha : x < 0x80) :
    s.head? = some x := by
  cases s with
  | nil => simp [utf8Encode] at h; subst h; simp at hx
  | cons c s =>
    obtain ⟨u, v, h1, -, rfl⟩ := utf8Encode_cons c s b h
    obtain ⟨h0, h3, h4⟩ := utf8EncodeCh_bytes c u h1
    obtain ⟨y, u, rfl⟩ := List.exists_cons_of_ne_nil h0
    simp at hx; subst hx
    by_cases hc : c < 0x80
    · have := h3 hc; simp at this; simp [this.1]
    · have := h4 (Nat.le_of_not_lt hc) y (by simp); omega

theorem utf8Encode_ne_nil (s : Str) (b : Bytes) (h : utf8Encode s = some b) (hs : s ≠ []) : b ≠ [] := by
  cases s with
  | nil => exact absurd rfl hs
  | cons c s =>
    obtain ⟨u, v, h1, -, rfl⟩ := utf8Encode_cons c s b h
    obtain ⟨h0, -, -⟩ := utf8EncodeCh_bytes c u h1
    simp [h0]

theorem utf8Encode_ascii (s : Str) (h : ∀ c ∈ s, c < 0x80) : utf8Encode s = some s := by
  induction s with
  | nil => rfl
  | cons c s ih =>
    have hc : utf8EncodeCh c = some [c] := by unfold utf8EncodeCh; rw [if_pos (h c (by simp))]
    simp only [utf8Encode, hc, ih (fun c hc => h c (List.mem_cons_of_mem _ hc))]
    rfl

theorem splitOn1_none (sep : Nat) (s : List Nat) (h : sep ∉ s) : splitOn1 sep s = [s] := by
  induction s with
  | nil => rfl
  | cons c s ih =>
    simp only [List.mem_cons, not_or] at h
    rw [splitOn1, if_neg (fun h' => h.1 h'.symm), ih h.2]

theorem splitOn1_cons (sep : Nat) (s t : List Nat) (h : sep ∉ s) : splitOn1 sep (s ++ sep :: t) = s :: splitOn1 sep t := by
  induction s with
  | nil => simp [splitOn1]
  | cons c s ih =>
    simp only [List.mem_cons, not_or] at h
    rw [List.cons_append, splitOn1, if_neg (fun h' => h.1 h'.symm), ih h.2]

theorem digit_lt (c : Ch) (h : isDigit c = true) : c < 0x80 := by
  unfold isDigit at h; simp at h; unfold Ch at *; omega

theorem getLast?_mem_of_append (s t : List Nat) (c : Nat) (ht : t ≠ []) (h : (s ++ t).getLast? = some c) : c ∈ t := by
  rw [List.getLast?_append] at h
  cases hl : t.getLast? with
  | none => rw [List.getLast?_eq_none_iff] at hl; exact absurd hl ht
  | some d => rw [hl] at h; simp at h; subst h; exact List.mem_of_getLast? hl

/-- Reading back a line `word freq\n`. -/
theorem dictLine_render (w : Str) (n : Nat) (l : Bytes) (h : dictLineBytes w n = some l) (hw : w ≠ [])
    (hs : 0x20 ∉ w) (hh : ∀ c, w.head? = some c → isByteSpace c = false) : dictLine l = some (w, (n : Int)) := by
  unfold dictLineBytes at h
  cases hb : utf8Encode w with
  | none => rw [hb] at h; simp at h
  | some b =>
    rw [hb] at h; simp at h; subst h
    have hstrip : stripBy isByteSpace (b ++ 0x20 :: (decimal n ++ [0x0A])) = b ++ 0x20 :: decimal n := by
      have := stripBy_append isByteSpace (b ++ 0x20 :: decimal n) [0x0A] (by simp) ?_ ?_ (by simp [isByteSpace])
      · simpa using this
      · intro c hc
        have hbn := utf8Encode_ne_nil w b hb hw
        obtain ⟨y, b', rfl⟩ := List.exists_cons_of_ne_nil hbn
        simp at hc; subst hc
        by_cases hy : y < 0x80
        · exact hh y (utf8Encode_head w _ hb y (by simp) hy)
        · simp [isByteSpace]; omega
      · intro c hc
        have h1 : b ++ 0x20 :: decimal n = (b ++ [0x20]) ++ decimal n := by simp
        rw [h1] at hc
        have := decimal_digits n c (getLast?_mem_of_append _ _ _ (decimal_ne_nil n) hc)
        unfold isDigit at this; simp at this; unfold isByteSpace; simp; unfold Ch at *; omega
    unfold dictLine
    rw [hstrip]
    have henc : utf8Encode (w ++ 0x20 :: decimal n) = some (b ++ 0x20 :: decimal n) := by
      refine utf8Encode_append w _ b _ hb (utf8Encode_ascii _ ?_)
      intro c hc
      rcases List.mem_cons.mp hc with rfl | hc
      · decide
      · exact digit_lt c (decimal_digits n c hc)
    rw [utf8_decode_encode _ _ henc]
    simp only []
    rw [splitOn1_cons _ _ _ hs, splitOn1_none]
    · simp [pyInt_decimal]
    · intro hm
      have := decimal_digits n _ hm
      simp [isDigit] at this

end Jieba
