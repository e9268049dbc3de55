import Verif.Model.Repr
import Verif.Spec.Literal
/-!
# `repr` of a text is a literal of the text
-/

namespace Jieba
open Jieba.Spec

local macro "chomega" : tactic => `(tactic| (try unfold Ch at *) <;> (try unfold Str at *) <;> (try unfold Ch at *) <;> omega)

theorem Spec.Reads.unique {q : Nat} {t s r s' r' : Str} (h : Reads q t s r) (h' : Reads q t s' r') : s = s' ∧ r = r' := by
  induction h generalizing s' r' with
  | close r =>
    cases h' with
    | close => exact ⟨rfl, rfl⟩
    | char c t t' s r hq => simp at hq
  | char c t t' s r hq hc _ ih =>
    cases h' with
    | close => simp at hq
    | char c' _ t'' s' r' hq' hc' h' =>
      rw [hc] at hc'
      simp only [Option.some.injEq, Prod.mk.injEq] at hc'
      obtain ⟨rfl, rfl⟩ := hc'
      obtain ⟨rfl, rfl⟩ := ih h'
      exact ⟨rfl, rfl⟩

theorem literal_unique {t s r s' r' : Str} (h : Literal t s r) (h' : Literal t s' r') : s = s' ∧ r = r' := by
  obtain ⟨q, u, -, rfl, h⟩ := h
  obtain ⟨q', u', -, e, h'⟩ := h'
  simp only [List.cons.injEq] at e
  obtain ⟨rfl, rfl⟩ := e
  exact h.unique h'

theorem hexVal_hexDig (n : Nat) (h : n < 16) : hexVal (hexDig n) = some n := by
  have : ∀ n < 16, hexVal (hexDig n) = some n := by decide
  exact this n h

theorem hexNum_append (n : Nat) (a b : Str) : hexNum n (a ++ b) = (hexNum n a).bind (fun m => hexNum m b) := by
  induction a generalizing n with
  | nil => rfl
  | cons c a ih =>
    simp only [List.cons_append, hexNum]
    cases hexVal c with
    | none => rfl
    | some v => exact ih _

theorem hexN_length (k n : Nat) : (hexN k n).length = k := by
  induction k generalizing n with
  | zero => rfl
  | succ k ih => simp [hexN, ih]

theorem hexNum_hexN (k n : Nat) (h : n < 16 ^ k) : hexNum 0 (hexN k n) = some n := by
  induction k generalizing n with
  | zero => simp at h; subst h; rfl
  | succ k ih =>
    rw [hexN, hexNum_append, ih (n / 16) (by rw [Nat.pow_succ] at h; omega)]
    simp only [Option.bind_some, hexNum, hexVal_hexDig _ (Nat.mod_lt n (by omega : 16 > 0))]
    congr 1
    omega

theorem readCh_hex (e k c : Nat) (t : Str) (he : e = 0x78 ∧ k = 2 ∨ e = 0x75 ∧ k = 4 ∨ e = 0x55 ∧ k = 8) (hc : c < 16 ^ k) :
    readCh (0x5C :: e :: (hexN k c ++ t)) = some (c, t) := by
  unfold readCh
  have hl := hexN_length k c
  have h1 : (hexN k c ++ t).take k = hexN k c := by rw [List.take_append_of_le_length (by omega), List.take_of_length_le (by omega)]
  have h2 : (hexN k c ++ t).drop k = t := List.drop_left' hl
  have h3 : ¬ (hexN k c ++ t).length < k := by rw [List.length_append]; omega
  rcases he with ⟨rfl, rfl⟩ | ⟨rfl, rfl⟩ | ⟨rfl, rfl⟩ <;>
    simp [h1, h2, h3, hexNum_hexN _ _ hc, hl]

theorem readCh_reprCh (pr : Ch → Bool) (q c : Nat) (t : Str) (hq : q = 0x27 ∨ q = 0x22) (hc : c ≤ 0x10FFFF) :
    readCh (reprCh pr q c ++ t) = some (c, t) ∧ (reprCh pr q c ++ t).head? ≠ some q := by
  unfold reprCh
  have hq5 : ¬ (0x5C : Nat) = q := by chomega
  split
  · rename_i h
    have h' : c = 0x5C ∨ c = 0x27 ∨ c = 0x22 := by chomega
    refine ⟨?_, by simpa using hq5⟩
    simp [readCh, h']
  rename_i h0
  split
  · subst_vars; exact ⟨by simp [readCh], by simpa using hq5⟩
  split
  · subst_vars; exact ⟨by simp [readCh], by simpa using hq5⟩
  split
  · subst_vars; exact ⟨by simp [readCh], by simpa using hq5⟩
  split
  · exact ⟨readCh_hex 0x78 2 c t (by simp) (show c < 256 by chomega), by simpa using hq5⟩
  have hplain : readCh ([c] ++ t) = some (c, t) ∧ ([c] ++ t).head? ≠ some q := by
    constructor
    · simp only [List.singleton_append, readCh]
      rw [if_neg (by chomega), if_pos (by chomega)]
    · simp only [List.singleton_append, List.head?_cons, ne_eq, Option.some.injEq]; chomega
  split
  · exact hplain
  split
  · exact hplain
  split
  · exact ⟨readCh_hex 0x78 2 c t (by simp) (show c < 256 by chomega), by simpa using hq5⟩
  split
  · exact ⟨readCh_hex 0x75 4 c t (by simp) (show c < 65536 by chomega), by simpa using hq5⟩
  · exact ⟨readCh_hex 0x55 8 c t (by simp) (show c < 4294967296 by chomega), by simpa using hq5⟩

theorem reads_repr (pr : Ch → Bool) (q : Nat) (s r : Str) (hq : q = 0x27 ∨ q = 0x22) (hs : ∀ c ∈ s, c ≤ 0x10FFFF) :
    Reads q (s.flatMap (reprCh pr q) ++ q :: r) s r := by
  induction s with
  | nil => exact Reads.close r
  | cons c s ih =>
    rw [List.flatMap_cons, List.append_assoc]
    obtain ⟨h1, h2⟩ := readCh_reprCh pr q c (s.flatMap (reprCh pr q) ++ q :: r) hq (hs c (by simp))
    exact Reads.char c _ _ s r h2 h1 (ih (fun c hc => hs c (by simp [hc])))

theorem quoteOf_eq (s : Str) : quoteOf s = 0x27 ∨ quoteOf s = 0x22 := by
  unfold quoteOf
  split
  · exact Or.inr rfl
  · exact Or.inl rfl

theorem literal_strRepr (pr : Ch → Bool) (s r : Str) (hs : ∀ c ∈ s, c ≤ 0x10FFFF) : Literal (strRepr pr s ++ r) s r := by
  refine ⟨quoteOf s, s.flatMap (reprCh pr (quoteOf s)) ++ quoteOf s :: r, quoteOf_eq s, ?_, reads_repr pr _ s r (quoteOf_eq s) hs⟩
  simp [strRepr]

theorem strRepr_inj (pr pr' : Ch → Bool) (s s' r r' : Str) (hs : ∀ c ∈ s, c ≤ 0x10FFFF) (hs' : ∀ c ∈ s', c ≤ 0x10FFFF)
    (h : strRepr pr s ++ r = strRepr pr' s' ++ r') : s = s' ∧ r = r' :=
  literal_unique (h ▸ literal_strRepr pr s r hs) (literal_strRepr pr' s' r' hs')

/-- Both are followed by anything, and nevertheless equal texts have equal beginnings. -/
def Decodable {α : Type _} (P : α → Prop) (f : α → Str) : Prop :=
  ∀ x y r r', P x → P y → f x ++ r = f y ++ r' → x = y ∧ r = r'

theorem moreRepr_inj {α : Type _} (P : α → Prop) (f : α → Str) (hf : Decodable P f) (l l' : List α) (hl : ∀ x ∈ l, P x)
    (hl' : ∀ x ∈ l', P x) (r r' : Str) (h : moreRepr f l ++ r = moreRepr f l' ++ r') : l = l' ∧ r = r' := by
  induction l generalizing l' with
  | nil =>
    cases l' with
    | nil => simpa [moreRepr] using h
    | cons y l' => simp [moreRepr, lit] at h
  | cons x l ih =>
    cases l' with
    | nil => simp [moreRepr, lit] at h
    | cons y l' =>
      simp only [moreRepr, List.append_assoc, List.append_cancel_left_eq] at h
      obtain ⟨rfl, h2⟩ := hf x y _ _ (hl x (by simp)) (hl' y (by simp)) h
      obtain ⟨rfl, rfl⟩ := ih l' (fun x hx => hl x (by simp [hx])) (fun x hx => hl' x (by simp [hx])) h2
      exact ⟨rfl, rfl⟩

theorem listRepr_inj {α : Type _} (P : α → Prop) (f : α → Str) (hf : Decodable P f) (hh : ∀ x, (f x).head? ≠ some 0x5D ∧ f x ≠ [])
    (l l' : List α) (hl : ∀ x ∈ l, P x) (hl' : ∀ x ∈ l', P x) (h : listRepr f l = listRepr f l') : l = l' := by
  have key : ∀ x : α, ∀ r : Str, f x ++ r ≠ lit [']'] := by
    intro x r e
    obtain ⟨h1, h2⟩ := hh x
    cases hx : f x with
    | nil => exact h2 hx
    | cons c t =>
      rw [hx] at e h1
      simp [lit] at e h1
      exact h1 e.1
  cases l with
  | nil =>
    cases l' with
    | nil => rfl
    | cons y l' =>
      simp only [listRepr, List.append_assoc] at h
      exact absurd (List.append_cancel_left (as := lit ['[']) (bs := lit [']']) h).symm (key _ _)
  | cons x l =>
    cases l' with
    | nil =>
      simp only [listRepr, List.append_assoc] at h
      exact absurd (List.append_cancel_left (as := lit ['[']) (cs := lit [']']) h) (key _ _)
    | cons y l' =>
      simp only [listRepr, List.append_assoc, List.append_cancel_left_eq] at h
      obtain ⟨rfl, h2⟩ := hf x y _ _ (hl x (by simp)) (hl' y (by simp)) h
      obtain ⟨rfl, -⟩ := moreRepr_inj P f hf l l' (fun x hx => hl x (by simp [hx])) (fun x hx => hl' x (by simp [hx])) [] [] (by simpa using h2)
      rfl

theorem hexN_range (k n : Nat) : ∀ c ∈ hexN k n, 0x20 ≤ c ∧ c < 0x7F := by
  induction k generalizing n with
  | zero => simp [hexN]
  | succ k ih =>
    intro c hc
    rw [hexN, List.mem_append, List.mem_singleton] at hc
    rcases hc with hc | rfl
    · exact ih _ c hc
    · have : ∀ n < 16, 0x20 ≤ hexDig n ∧ hexDig n < 0x7F := by decide
      exact this _ (Nat.mod_lt _ (by chomega))

theorem reprCh_range (pr : Ch → Bool) (q c : Nat) (hq : q = 0x27 ∨ q = 0x22) :
    ∀ d ∈ reprCh pr q c, (0x20 ≤ d ∧ d < 0x7F) ∨ (0x7F < d ∧ pr d = true) := by
  unfold reprCh
  have hx : ∀ e k, 0x20 ≤ e → e < 0x7F → ∀ d ∈ 0x5C :: e :: hexN k c, (0x20 ≤ d ∧ d < 0x7F) ∨ (0x7F < d ∧ pr d = true) := by
    intro e k h1 h2 d hd
    simp only [List.mem_cons] at hd
    rcases hd with rfl | rfl | hd
    · left; chomega
    · left; chomega
    · exact Or.inl (hexN_range _ _ d hd)
  intro d hd
  split at hd
  · simp only [List.mem_cons, List.not_mem_nil, or_false] at hd; left; chomega
  split at hd
  · simp only [List.mem_cons, List.not_mem_nil, or_false] at hd; left; chomega
  split at hd
  · simp only [List.mem_cons, List.not_mem_nil, or_false] at hd; left; chomega
  split at hd
  · simp only [List.mem_cons, List.not_mem_nil, or_false] at hd; left; chomega
  split at hd
  · exact hx _ _ (by chomega) (by chomega) d hd
  split at hd
  · simp only [List.mem_singleton] at hd; left; chomega
  split at hd
  · rename_i h
    simp only [List.mem_singleton] at hd
    subst hd
    exact Or.inr ⟨by chomega, h⟩
  split at hd
  · exact hx _ _ (by chomega) (by chomega) d hd
  split at hd
  · exact hx _ _ (by chomega) (by chomega) d hd
  · exact hx _ _ (by chomega) (by chomega) d hd

theorem strRepr_range (pr : Ch → Bool) (s : Str) : ∀ d ∈ strRepr pr s, (0x20 ≤ d ∧ d < 0x7F) ∨ (0x7F < d ∧ pr d = true) := by
  intro d hd
  have hq := quoteOf_eq s
  unfold strRepr at hd
  simp only [List.cons_append, List.mem_cons, List.mem_append, List.mem_flatMap, List.not_mem_nil, or_false] at hd
  rcases hd with rfl | ⟨c, -, hd⟩ | rfl
  · left; chomega
  · exact reprCh_range pr _ c hq d hd
  · left; chomega

end Jieba
