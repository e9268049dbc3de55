import Verif.Model.PathNames
import Verif.Spec.Walk
import Verif.Proofs.Fields

namespace Jieba
open Jieba.Spec

theorem splitOn1_append (sep : Nat) (b : List Nat) : ∀ a : List Nat, splitOn1 sep (a ++ sep :: b) = splitOn1 sep a ++ splitOn1 sep b
  | [] => by simp [splitOn1]
  | c :: a => by
    have ih := splitOn1_append sep b a
    have hne := splitOn1_ne_nil sep a
    rw [List.cons_append, splitOn1, splitOn1, ih]
    split
    · rfl
    · cases h : splitOn1 sep a with
      | nil => exact absurd h hne
      | cons w ws => rfl

theorem walk_append : ∀ (a b : List Str) (d : List Str), walk d (a ++ b) = walk (walk d a) b
  | [], _, _ => rfl
  | c :: a, b, d => by
    rw [List.cons_append, walk, walk]
    split
    · exact walk_append a b d
    · split
      · exact walk_append a b _
      · exact walk_append a b _

theorem walk_plain : ∀ (a d : List Str), (∀ c ∈ a, PlainName c) → walk d a = d ++ a
  | [], d, _ => by simp [walk]
  | c :: a, d, h => by
    obtain ⟨h1, h2, h3, -⟩ := h c (by simp)
    rw [walk, if_neg (by simp [h1, h2]), if_neg h3, walk_plain a _ (fun x hx => h x (by simp [hx]))]
    simp

theorem walk_names : ∀ (a d : List Str), (∀ c ∈ a, 0x2F ∉ c) → (∀ c ∈ d, PlainName c) → ∀ c ∈ walk d a, PlainName c
  | [], d, _, hd => by simpa [walk] using hd
  | c :: a, d, h, hd => by
    have ha : ∀ x ∈ a, 0x2F ∉ x := fun x hx => h x (by simp [hx])
    rw [walk]
    split
    · exact walk_names a d ha hd
    · rename_i h1
      split
      · exact walk_names a _ ha (fun x hx => hd x (List.dropLast_subset _ hx))
      · rename_i h2
        refine walk_names a _ ha (fun x hx => ?_)
        rcases List.mem_append.mp hx with hx | hx
        · exact hd x hx
        · obtain rfl : x = c := by simpa using hx
          rw [not_or] at h1
          exact ⟨h1.1, h1.2, h2, h x (by simp)⟩

theorem normComps_walk : ∀ (a d : List Str), (∀ c ∈ d, c ≠ [0x2E, 0x2E]) → normComps true d a = walk d a
  | [], d, _ => rfl
  | c :: a, d, hd => by
    rw [normComps, walk]
    split
    · exact normComps_walk a d hd
    · by_cases h : c = [0x2E, 0x2E]
      · have hl : d.getLast? ≠ some [0x2E, 0x2E] := fun e => hd _ (List.mem_of_getLast? e) rfl
        rw [if_neg (by simp [h, hl]), if_pos h]
        have hdr : ∀ x ∈ d.dropLast, x ≠ [0x2E, 0x2E] := fun x hx => hd x (List.dropLast_subset _ hx)
        split
        · exact normComps_walk a _ hdr
        · rename_i hne
          have : d = [] := by simpa using hne
          subst this
          exact normComps_walk a _ hdr
      · rw [if_pos (Or.inl h), if_neg h]
        refine normComps_walk a _ (fun x hx => ?_)
        rcases List.mem_append.mp hx with hx | hx
        · exact hd x hx
        · obtain rfl : x = c := by simpa using hx
          exact h

theorem initialSlashes_root (p : Str) (h : p.head? = some 0x2F) : List.replicate (initialSlashes p) 0x2F = rootOf p ∧ initialSlashes p ≠ 0 := by
  unfold initialSlashes
  rw [if_pos h]
  match p, h with
  | [_], h =>
    simp at h
    subst h
    simp [List.isPrefixOf, rootOf]
  | _ :: y :: s, h =>
    simp at h
    subst h
    by_cases hy : y = 0x2F
    · subst hy
      cases s with
      | nil => simp [List.isPrefixOf, rootOf]
      | cons z s =>
        by_cases hz : z = 0x2F
        · subst hz; simp [List.isPrefixOf, rootOf]
        · have : ¬ (0x2F = z) := fun e => hz e.symm
          simp [List.isPrefixOf, hz, this, rootOf]
    · have : ¬ (0x2F = y) := fun e => hy e.symm
      simp [List.isPrefixOf, this, rootOf, hy]

theorem rootOf_cases (p : Str) : rootOf p = [0x2F] ∨ rootOf p = [0x2F, 0x2F] := by
  unfold rootOf
  split
  · split <;> simp
  · simp

theorem normPath_abs (p : Str) (h : p.head? = some 0x2F) : normPath p = rootOf p ++ [0x2F].intercalate (walk [] (splitOn1 0x2F p)) := by
  obtain ⟨h1, h2⟩ := initialSlashes_root p h
  unfold normPath
  rw [if_neg (by rintro rfl; simp at h)]
  simp only [h1, bne_iff_ne.mpr h2]
  rw [normComps_walk _ _ (by simp), if_neg]
  rcases rootOf_cases p with e | e <;> rw [e] <;> simp

theorem rootOf_append (a b : Str) (h : a.head? = some 0x2F) (hb : b.head? ≠ some 0x2F) (ha : a.getLast? = some 0x2F) : rootOf (a ++ b) = rootOf a := by
  match a, h with
  | [_], h =>
    simp at h; subst h
    cases b with
    | nil => rfl
    | cons y b =>
      have : y ≠ 0x2F := by simpa using hb
      simp [rootOf, this]
  | [_, y], h =>
    simp at h; subst h
    simp at ha; subst ha
    simp [rootOf, hb]
  | _ :: y :: z :: s, h =>
    simp at h; subst h
    by_cases hy : y = 0x2F
    · subst hy; simp [rootOf]
    · simp [rootOf, hy]

theorem rootOf_slash (a b : Str) (h : a.head? = some 0x2F) (ha : a.getLast? ≠ some 0x2F) : rootOf (a ++ 0x2F :: b) = rootOf a := by
  match a, h with
  | [_], h => simp at h; subst h; simp at ha
  | [_, y], h =>
    simp at h; subst h
    simp at ha
    simp [rootOf, ha]
  | _ :: y :: z :: s, h =>
    simp at h; subst h
    by_cases hy : y = 0x2F
    · subst hy; simp [rootOf]
    · simp [rootOf, hy]

/-- What an absolute normalised path says about itself. -/
theorem abs_form (r : Str) (hr : r = [0x2F] ∨ r = [0x2F, 0x2F]) (ns : List Str) (hn : ∀ c ∈ ns, PlainName c) :
    (r ++ [0x2F].intercalate ns).head? = some 0x2F ∧ rootOf (r ++ [0x2F].intercalate ns) = r ∧
      walk [] (splitOn1 0x2F (r ++ [0x2F].intercalate ns)) = ns := by
  have hw : walk [] (splitOn1 0x2F ([0x2F].intercalate ns)) = ns := by
    cases ns with
    | nil => rfl
    | cons n ns =>
      rw [(fieldsOf_iff 0x2F _ (n :: ns)).mp ⟨by simp, fun f hf => (hn f hf).2.2.2, rfl⟩, walk_plain _ _ hn]
      rfl
  have hh : ([0x2F].intercalate ns).head? ≠ some 0x2F := by
    cases ns with
    | nil => simp
    | cons n ns =>
      obtain ⟨h1, -, -, h4⟩ := hn n (by simp)
      cases n with
      | nil => exact absurd rfl h1
      | cons x n =>
        have hx : x ≠ 0x2F := fun e => h4 (by simp [e])
        cases ns <;> simp [List.intercalate, hx]
  have hsp : ∀ b, walk [] (splitOn1 0x2F (0x2F :: b)) = walk [] (splitOn1 0x2F b) := fun b => by
    have := splitOn1_append 0x2F b []
    rw [List.nil_append] at this
    rw [this]
    simp [splitOn1, walk]
  rcases hr with rfl | rfl
  · refine ⟨rfl, ?_, ?_⟩
    · rw [rootOf_append _ _ rfl hh rfl]; rfl
    · rw [List.singleton_append, hsp, hw]
  · refine ⟨rfl, ?_, ?_⟩
    · rw [rootOf_append _ _ rfl hh rfl]; rfl
    · rw [List.cons_append, List.singleton_append, hsp, hsp, hw]

/-- Where `_get_abs_path` ends up. -/
theorem getAbsPath_eq (cwd p : Str) (h : cwd.head? = some 0x2F) :
    getAbsPath cwd p = if p.head? = some 0x2F then rootOf p ++ [0x2F].intercalate (walk [] (splitOn1 0x2F p))
      else rootOf cwd ++ [0x2F].intercalate (walk (walk [] (splitOn1 0x2F cwd)) (splitOn1 0x2F p)) := by
  unfold getAbsPath pathJoin
  split
  · rename_i hp; rw [normPath_abs p hp]
  · rename_i hp
    split
    · rename_i hc
      have hc : cwd.getLast? = some 0x2F := by
        rcases hc with rfl | hc
        · simp at h
        · exact hc
      obtain ⟨a, rfl⟩ := List.getLast?_eq_some_iff.mp hc
      rw [normPath_abs _ (by rw [List.head?_append, h]; rfl), rootOf_append _ _ h hp hc, List.append_assoc, List.singleton_append, splitOn1_append, splitOn1_append, walk_append,
        walk_append]
      simp [splitOn1, walk]
    · rename_i hc
      rw [not_or] at hc
      rw [List.append_assoc, List.singleton_append, normPath_abs _ (by rw [List.head?_append, h]; rfl), rootOf_slash _ _ h hc.2, splitOn1_append, walk_append]

theorem names_ok (s : Str) : ∀ c ∈ splitOn1 0x2F s, 0x2F ∉ c := (splitOn1_fields 0x2F s).2.1

end Jieba
