import Verif.Proofs.Fields
import Verif.Proofs.Userdict
import Mathlib.Data.Nat.Find
import Mathlib.Data.List.Induction
/-!
# Lines of user dictionaries: the model agrees with `Spec/Fields`
-/

namespace Jieba
open Jieba.Spec

theorem fieldText_eq (a : Option Str) : fieldText a = optField a := by cases a <;> rfl

theorem readsAs_iff (line word : Str) (a b : Option Str) :
    ReadsAs line word a b ↔ word ≠ [] ∧ FieldsOk a b ∧ line = word ++ (optField a ++ optField b) := by
  unfold ReadsAs IsFreqField IsTagField
  rw [fieldText_eq, fieldText_eq, List.append_assoc]
  constructor
  · rintro ⟨h1, h2, h3, h4⟩; exact ⟨h1, ⟨h2, h3⟩, h4⟩
  · rintro ⟨h1, ⟨h2, h3⟩, h4⟩; exact ⟨h1, h2, h3, h4⟩

theorem userFields_of_entry (line word : Str) (a b : Option Str) (h : UserEntry line word a b) :
    userFields line = some (word, a, b) := by
  obtain ⟨hn, h1, h2⟩ := h
  obtain ⟨hw, hf, rfl⟩ := (readsAs_iff _ _ _ _).mp h1
  refine userFields_parse' word a b hw hf (fun h => hn (List.mem_append_left _ h)) ?_
  rintro u v rfl hu hv ⟨a', b', hf', he⟩
  have := h2 u a' b' ((readsAs_iff _ _ _ _).mpr ⟨hu, hf', by rw [List.append_assoc, he]⟩)
  have := List.length_pos_iff.mpr hv
  simp at *
  omega

/-- There is always a way to read a line. -/
theorem exists_entry (line : Str) (hl : line ≠ []) (hn : 0x0A ∉ line) : ∃ word a b, UserEntry line word a b := by
  classical
  have h : ∃ n, ∃ word a b, ReadsAs line word a b ∧ word.length = n :=
    ⟨line.length, line, none, none, (readsAs_iff _ _ _ _).mpr ⟨hl, ⟨by simp, by simp⟩, by simp [optField]⟩, rfl⟩
  obtain ⟨word, a, b, h1, h2⟩ := Nat.find_spec h
  refine ⟨word, a, b, hn, h1, fun w f g hr => ?_⟩
  rw [h2]
  exact Nat.find_min' h ⟨w, f, g, hr, rfl⟩

theorem userFields_iff (line word : Str) (a b : Option Str) (hl : line ≠ []) (hn : 0x0A ∉ line) :
    userFields line = some (word, a, b) ↔ UserEntry line word a b := by
  constructor
  · intro h
    obtain ⟨w, f, g, he⟩ := exists_entry line hl hn
    rw [userFields_of_entry line w f g he] at h
    simp at h
    obtain ⟨rfl, rfl, rfl⟩ := h
    exact he
  · exact userFields_of_entry line word a b

/-- A match of the rest of the pattern ends at the end of the line, or before a line feed there, and has no line feed in it. -/
theorem reUserTail_lf (st : Bool) (s : Str) (x : Nat × Caps) (h : x ∈ reUserTail.run st s) :
    ∃ u v, s = u ++ v ∧ 0x0A ∉ u ∧ (v = [] ∨ v = [0x0A]) := by
  have field : ∀ (n : Nat) (p : Ch → Bool) (hp : p 0x0A = false) (st : Bool) (s : Str) (x : Nat × Caps),
      x ∈ RE.run (.opt (.grp n (.seq (.cls (· == 0x20)) (.plus p)))) st s → ∃ u, s = u ++ s.drop x.1 ∧ 0x0A ∉ u := by
    intro n p hp st s x h
    rw [RE.run, List.mem_append, RE.mem_run_field] at h
    rcases h with ⟨u, v, rfl, hu, hl, rfl⟩ | h
    · refine ⟨0x20 :: u, by simp, ?_⟩
      simp only [List.mem_cons, not_or]
      exact ⟨by simp, fun h => by have := hl _ h; rw [hp] at this; simp at this⟩
    · simp at h; subst h
      exact ⟨[], by simp, by simp⟩
  unfold reUserTail at h
  rw [RE.mem_run_seq] at h
  obtain ⟨h1, hm1, h2, hm2, -⟩ := h
  rw [RE.mem_run_seq] at hm2
  obtain ⟨h3, hm3, h4, hm4, -⟩ := hm2
  obtain ⟨u1, e1, n1⟩ := field 2 isDigit (by decide) _ _ _ hm1
  obtain ⟨u2, e2, n2⟩ := field 3 isLower (by decide) _ _ _ hm3
  refine ⟨u1 ++ u2, (s.drop h1.1).drop h3.1, by rw [List.append_assoc, ← e2, ← e1], ?_, ?_⟩
  · simp only [List.mem_append, not_or]; exact ⟨n1, n2⟩
  · simp only [RE.run] at hm4
    split at hm4
    · next h => exact h
    · simp at hm4

theorem userFields_lf (line : Str) (hlf : 0x0A ∈ line) (hlast : line.getLast? ≠ some 0x0A) : userFields line = none := by
  have : reUserdict.pmatch line = none := by
    unfold RE.pmatch
    have hre : reUserdict.run true line = (RE.seq (.grp 1 (.plusLazy (fun c => c != 0x0A))) reUserTail).run true line := by
      unfold reUserdict reUserTail
      rw [RE.run]
      simp [RE.run]
    rw [hre]
    cases hr : (RE.seq (.grp 1 (.plusLazy (fun c => c != 0x0A))) reUserTail).run true line with
    | nil => rfl
    | cons x l =>
      exfalso
      have hx : x ∈ (RE.seq (.grp 1 (.plusLazy (fun c => c != 0x0A))) reUserTail).run true line := by rw [hr]; simp
      rw [RE.mem_run_seq] at hx
      obtain ⟨h1, hm1, h2, hm2, -⟩ := hx
      obtain ⟨u, v, e, hu, hv⟩ := reUserTail_lf _ _ _ hm2
      simp only [RE.run, List.mem_map, List.mem_range] at hm1
      obtain ⟨y, ⟨i, hi, rfl⟩, rfl⟩ := hm1
      have hpre : 0x0A ∉ line.take (i + 1) := by
        have h0 : line.take (i + 1) = (line.takeWhile (fun c => c != 0x0A)).take (i + 1) := by
          conv => lhs; rw [← List.takeWhile_append_dropWhile (p := fun c => c != 0x0A) (l := line)]
          rw [List.take_append_of_le_length (by omega)]
        rw [h0]
        intro h
        have := of_mem_takeWhile (fun c => c != 0x0A) line _ (List.mem_of_mem_take h)
        simp at this
      have hd : line = line.take (i + 1) ++ (u ++ v) := by
        rw [← e]
        simp
      rcases hv with rfl | rfl
      · rw [hd] at hlf
        simp only [List.append_nil, List.mem_append] at hlf
        exact hlf.elim hpre hu
      · apply hlast
        rw [hd, ← List.append_assoc, List.getLast?_append]; rfl
  unfold userFields
  rw [this]

/-! ## the text of a line -/

theorem dropWhile_bom (s : Str) : ∃ n, s = List.replicate n 0xFEFF ++ s.dropWhile (· == 0xFEFF) ∧
    (s.dropWhile (· == 0xFEFF)).head? ≠ some 0xFEFF := by
  induction s with
  | nil => exact ⟨0, rfl, by simp⟩
  | cons c s ih =>
    obtain ⟨n, h1, h2⟩ := ih
    rw [List.dropWhile_cons]
    by_cases h : (c == 0xFEFF) = true
    · simp only [h, if_true]
      have hc : c = 0xFEFF := by simpa using h
      refine ⟨n + 1, ?_, h2⟩
      rw [List.replicate_succ, List.cons_append, ← h1, hc]
    · simp only [h]
      exact ⟨0, by simp, by simpa using h⟩

theorem dropWhile_bom_eq (n : Nat) (line : Str) (h : line.head? ≠ some 0xFEFF) :
    (List.replicate n 0xFEFF ++ line).dropWhile (· == 0xFEFF) = line := by
  induction n with
  | zero =>
    cases line with
    | nil => rfl
    | cons c l =>
      simp at h
      simp [h]
  | succ n ih => rw [List.replicate_succ, List.cons_append, List.dropWhile_cons, if_pos (by simp), ih]

theorem userLine_iff (ln : PyText) (line : Str) : userLine ln = some line ↔ UserLine ln line := by
  constructor
  · intro h
    cases ln with
    | str s =>
      simp only [userLine, Option.some.injEq] at h
      exact .str s line ((trimmedBy_iff _ _ _).mpr h)
    | bytes b =>
      simp only [userLine, userLineBytes] at h
      obtain ⟨s, hs, rfl⟩ := Option.map_eq_some_iff.mp h
      obtain ⟨n, h1, h2⟩ := dropWhile_bom s
      exact .bytes b _ s n _ (trimmedBy_strip _ _) (utf8_encode_decode _ _ hs) h1 h2
  · intro h
    cases h with
    | str s line h =>
      simp only [userLine, Option.some.injEq]
      exact (trimmedBy_iff _ _ _).mp h
    | bytes b m s n line h1 h2 h3 h4 =>
      simp only [userLine, userLineBytes]
      rw [(trimmedBy_iff _ _ _).mp h1, utf8_decode_encode s m h2, h3]
      simp only [Option.map_some, dropWhile_bom_eq n line h4]

theorem userLine_none_iff (ln : PyText) : userLine ln = none ↔ ∀ line, ¬ UserLine ln line := by
  constructor
  · intro h line hl
    rw [(userLine_iff ln line).mpr hl] at h; simp at h
  · intro h
    cases hl : userLine ln with
    | none => rfl
    | some line => exact absurd ((userLine_iff ln line).mp hl) (h line)

theorem userLine_last (ln : PyText) (line : Str) (h : UserLine ln line) : line.getLast? ≠ some 0x0A := by
  intro hc
  cases h with
  | str s line h =>
    obtain ⟨-, -, -, -, -, h⟩ := h
    have := h _ hc
    simp [isSpace] at this
  | bytes b m s n line h1 h2 h3 h4 =>
    obtain ⟨-, -, -, -, -, h⟩ := h1
    obtain ⟨l0, rfl⟩ : ∃ l0, line = l0 ++ [0x0A] := by
      cases line using List.reverseRecOn with
      | nil => simp at hc
      | append_singleton l a => simp at hc; exact ⟨l, by rw [hc]⟩
    rw [h3, ← List.append_assoc] at h2
    obtain ⟨x, y, -, hy, rfl⟩ := utf8Encode_append_inv _ _ _ h2
    have : y = [0x0A] := by
      have := utf8Encode_ascii [0x0A] (by simp)
      rw [this] at hy; simpa using hy.symm
    subst this
    have := h 0x0A (by simp)
    simp [isByteSpace] at this

theorem userFields_none_iff (ln : PyText) (line : Str) (h : UserLine ln line) (hl : line ≠ []) :
    userFields line = none ↔ 0x0A ∈ line := by
  constructor
  · intro hf
    by_contra hn
    obtain ⟨w, f, g, he⟩ := exists_entry line hl hn
    rw [userFields_of_entry line w f g he] at hf; simp at hf
  · intro hlf; exact userFields_lf line hlf (userLine_last ln line h)

theorem userFields_some_iff (ln : PyText) (line : Str) (h : UserLine ln line) (hl : line ≠ []) (w : Str) (f g : Option Str) :
    userFields line = some (w, f, g) ↔ UserEntry line w f g := by
  by_cases hlf : 0x0A ∈ line
  · rw [(userFields_none_iff ln line h hl).mpr hlf]
    constructor
    · simp
    · intro he; exact absurd hlf he.1
  · exact userFields_iff line w f g hl hlf

end Jieba
