import Verif.Proofs.PathNames
/-!
# C138: which file a relative path means

`_get_abs_path` (jieba/__init__.py:22) turns every path given for a dictionary, an IDF file or a list of stop words into an absolute one. The
statements use `Spec.walk` (going through directories, without symbolic links), `Spec.PlainName` and `Spec.rootOf`.
-/

namespace Jieba.Props
open Jieba Jieba.Spec

theorem leads_iff (cwd p root : Str) (names : List Str) : Leads cwd p root names ↔
    (if p.head? = some 0x2F then root = rootOf p ∧ names = walk [] (splitOn1 0x2F p)
      else root = rootOf cwd ∧ names = walk (walk [] (splitOn1 0x2F cwd)) (splitOn1 0x2F p)) := by
  constructor
  · rintro ⟨cs, ps, h1, h2, h⟩
    rw [(fieldsOf_iff _ _ _).mp h1, (fieldsOf_iff _ _ _).mp h2]
    exact h
  · exact fun h => ⟨_, _, splitOn1_fields _ _, splitOn1_fields _ _, h⟩

/-- The path: the root, then the names, each once, with one slash between them. -/
theorem C138_absolute (cwd p : Str) (h : cwd.head? = some 0x2F) :
    ∃ root names, Leads cwd p root names ∧ getAbsPath cwd p = root ++ [0x2F].intercalate names ∧ (root = [0x2F] ∨ root = [0x2F, 0x2F]) ∧
      ∀ c ∈ names, PlainName c := by
  rw [getAbsPath_eq cwd p h]
  by_cases hp : p.head? = some 0x2F
  · refine ⟨rootOf p, walk [] (splitOn1 0x2F p), (leads_iff _ _ _ _).mpr ?_, by rw [if_pos hp], rootOf_cases p, walk_names _ _ (names_ok p) (by simp)⟩
    rw [if_pos hp]; exact ⟨rfl, rfl⟩
  · refine ⟨rootOf cwd, walk (walk [] (splitOn1 0x2F cwd)) (splitOn1 0x2F p), (leads_iff _ _ _ _).mpr ?_, by rw [if_neg hp], rootOf_cases cwd,
      walk_names _ _ (names_ok p) (walk_names _ _ (names_ok cwd) (by simp))⟩
    rw [if_neg hp]; exact ⟨rfl, rfl⟩

/-- Where a path leads is determined. -/
theorem C138_one_place (cwd p r r' : Str) (ns ns' : List Str) (h : Leads cwd p r ns) (h' : Leads cwd p r' ns') : r = r' ∧ ns = ns' := by
  rw [leads_iff] at h h'
  split at h
  · rename_i hp; rw [if_pos hp] at h'; exact ⟨h.1.trans h'.1.symm, h.2.trans h'.2.symm⟩
  · rename_i hp; rw [if_neg hp] at h'; exact ⟨h.1.trans h'.1.symm, h.2.trans h'.2.symm⟩

/-- The result does not depend on the working directory any more: taking it again, anywhere, changes nothing. -/
theorem C138_again (cwd cwd' p : Str) (h : cwd.head? = some 0x2F) : getAbsPath cwd' (getAbsPath cwd p) = getAbsPath cwd p := by
  obtain ⟨r, ns, -, e, hr, hn⟩ := C138_absolute cwd p h
  obtain ⟨h1, h2, h3⟩ := abs_form r hr ns hn
  rw [e]
  conv_lhs => rw [getAbsPath, pathJoin, if_pos h1, normPath_abs _ h1, h2, h3]

/-- Two paths, maybe in two working directories, become the same exactly when they lead to the same place from the same root. -/
theorem C138_same (cwd cwd' p q : Str) (h : cwd.head? = some 0x2F) (h' : cwd'.head? = some 0x2F) :
    getAbsPath cwd p = getAbsPath cwd' q ↔ ∃ root names, Leads cwd p root names ∧ Leads cwd' q root names := by
  obtain ⟨r, ns, hl, e, hr, hn⟩ := C138_absolute cwd p h
  obtain ⟨r', ns', hl', e', hr', hn'⟩ := C138_absolute cwd' q h'
  rw [e, e']
  constructor
  · intro he
    obtain ⟨-, h2, h3⟩ := abs_form r hr ns hn
    obtain ⟨-, h2', h3'⟩ := abs_form r' hr' ns' hn'
    rw [he] at h2 h3
    obtain rfl := h2.symm.trans h2'
    obtain rfl := h3.symm.trans h3'
    exact ⟨_, _, hl, hl'⟩
  · rintro ⟨r0, n0, g, g'⟩
    obtain ⟨rfl, rfl⟩ := C138_one_place _ _ _ _ _ _ hl g
    obtain ⟨rfl, rfl⟩ := C138_one_place _ _ _ _ _ _ hl' g'
    rfl

/-- Spellings of a relative path that make no difference: `./p`, `d/../p`, `p/` and `p/.`. -/
theorem C138_spellings (cwd p d : Str) (h : cwd.head? = some 0x2F) (hp : p.head? ≠ some 0x2F) (hp0 : p ≠ []) (hd : PlainName d) :
    getAbsPath cwd ([0x2E, 0x2F] ++ p) = getAbsPath cwd p ∧
    getAbsPath cwd (d ++ [0x2F, 0x2E, 0x2E, 0x2F] ++ p) = getAbsPath cwd p ∧
    getAbsPath cwd (p ++ [0x2F]) = getAbsPath cwd p ∧
    getAbsPath cwd (p ++ [0x2F, 0x2E]) = getAbsPath cwd p := by
  obtain ⟨d1, d2, d3, d4⟩ := hd
  have hdot : splitOn1 0x2F [0x2E] = [[0x2E]] := rfl
  have hdd : splitOn1 0x2F [0x2E, 0x2E] = [[0x2E, 0x2E]] := rfl
  have hdn : splitOn1 0x2F d = [d] := (fieldsOf_iff _ _ _).mp ⟨by simp, by simpa using d4, by simp [List.intercalate]⟩
  have hdh : (d ++ [0x2F, 0x2E, 0x2E, 0x2F] ++ p).head? ≠ some 0x2F := by
    cases d with
    | nil => exact absurd rfl d1
    | cons x d =>
      have : x ≠ 0x2F := fun e => d4 (by simp [e])
      simpa using this
  have hph : ∀ s, (p ++ s).head? ≠ some 0x2F := fun s => by
    cases p with
    | nil => exact absurd rfl hp0
    | cons x p => simpa using hp
  refine ⟨?_, ?_, ?_, ?_⟩
  · rw [getAbsPath_eq _ _ h, getAbsPath_eq _ _ h, if_neg hp, if_neg (by simp)]
    have : [0x2E, 0x2F] ++ p = [0x2E] ++ 0x2F :: p := rfl
    rw [this, splitOn1_append, hdot]
    simp [walk]
  · rw [getAbsPath_eq _ _ h, getAbsPath_eq _ _ h, if_neg hp, if_neg hdh]
    have : d ++ [0x2F, 0x2E, 0x2E, 0x2F] ++ p = d ++ 0x2F :: ([0x2E, 0x2E] ++ 0x2F :: p) := by simp
    rw [this, splitOn1_append, splitOn1_append, hdd, hdn]
    simp [walk, d1, d2, d3]
  · rw [getAbsPath_eq _ _ h, getAbsPath_eq _ _ h, if_neg hp, if_neg (hph _), splitOn1_append, walk_append]
    simp [splitOn1, walk]
  · rw [getAbsPath_eq _ _ h, getAbsPath_eq _ _ h, if_neg hp, if_neg (hph _), splitOn1_append, walk_append, hdot]
    simp [walk]

/-- A dictionary stays the one it was when the program changes its directory: a tokenizer keeps the absolute path. Naming the dictionary by two
paths that lead to the same place is the same, for `Tokenizer(path)`, `set_dictionary(path)` and `initialize(path)`. -/
theorem C138_dictionaries {F : Type} [LinearOrder F] (S : Sys F) (w : World) (t : Nat) (cwd cwd' p q root : Str) (names : List Str) (io : Bool)
    (h : cwd.head? = some 0x2F) (h' : cwd'.head? = some 0x2F) (hp : Leads cwd p root names) (hq : Leads cwd' q root names) (hp0 : p ≠ []) (hq0 : q ≠ []) :
    (Op.new t (some p)).run { S with abspath := getAbsPath cwd } w = (Op.new t (some q)).run { S with abspath := getAbsPath cwd' } w ∧
    (setDictionary { S with abspath := getAbsPath cwd } w t p) = setDictionary { S with abspath := getAbsPath cwd' } w t q ∧
    initTok { S with abspath := getAbsPath cwd } w t (some p) io = initTok { S with abspath := getAbsPath cwd' } w t (some q) io := by
  have e : getAbsPath cwd p = getAbsPath cwd' q := (C138_same cwd cwd' p q h h').mpr ⟨root, names, hp, hq⟩
  have hl : ∀ w a, initLocked { S with abspath := getAbsPath cwd } w t a io = initLocked { S with abspath := getAbsPath cwd' } w t a io := fun w a => rfl
  have hi : initTok { S with abspath := getAbsPath cwd } w t (some p) io = initTok { S with abspath := getAbsPath cwd' } w t (some q) io := by
    cases p with
    | nil => exact absurd rfl hp0
    | cons x p => cases q with
      | nil => exact absurd rfl hq0
      | cons y q =>
        simp only [initTok, e, hl]
  refine ⟨?_, ?_, hi⟩
  · simp only [Op.run, Option.map, e]
  · simp only [setDictionary, e]

/-- Two slashes at the beginning are kept: `//a` is not made the same as `/a` (POSIX allows the two to differ; on Linux they are the same file). A
tokenizer set to the one is initialized again when it is asked for the other. -/
theorem C138_double_slash : ¬ ∀ cwd p : Str, cwd.head? = some 0x2F → p.head? = some 0x2F → getAbsPath cwd (0x2F :: p) = getAbsPath cwd p := by
  intro h
  exact absurd (h [0x2F] [0x2F, 0x61] rfl rfl) (by decide)

/-- From the third slash on they are one. -/
theorem C138_more_slashes (cwd p : Str) (n : Nat) :
    getAbsPath cwd (List.replicate (n + 3) 0x2F ++ p) = getAbsPath cwd (List.replicate 3 0x2F ++ p) := by
  have hh : ∀ m, (List.replicate (m + 3) 0x2F ++ p).head? = some 0x2F := fun m => by simp [List.replicate_succ]
  have hw : ∀ m, walk [] (splitOn1 0x2F (List.replicate m 0x2F ++ p)) = walk [] (splitOn1 0x2F p) := fun m => by
    induction m with
    | zero => rfl
    | succ m ih =>
      have := splitOn1_append 0x2F (List.replicate m 0x2F ++ p) []
      rw [List.nil_append] at this
      rw [List.replicate_succ, List.cons_append, this]
      simpa [splitOn1, walk] using ih
  have hr : ∀ m, rootOf (List.replicate (m + 3) 0x2F ++ p) = [0x2F] := fun m => by simp [List.replicate_succ, rootOf]
  have : ∀ m, getAbsPath cwd (List.replicate (m + 3) 0x2F ++ p) = [0x2F] ++ [0x2F].intercalate (walk [] (splitOn1 0x2F p)) := fun m => by
    rw [getAbsPath, pathJoin, if_pos (hh m), normPath_abs _ (hh m), hr, hw]
  rw [this n, ← this 0]

/-! ## Examples -/

/-- In `/h/u`, `a/./b//../d.txt` is `/h/u/a/d.txt`. -/
example : getAbsPath [0x2F, 0x68, 0x2F, 0x75] [0x61, 0x2F, 0x2E, 0x2F, 0x62, 0x2F, 0x2F, 0x2E, 0x2E, 0x2F, 0x64, 0x2E, 0x74, 0x78, 0x74] =
    [0x2F, 0x68, 0x2F, 0x75, 0x2F, 0x61, 0x2F, 0x64, 0x2E, 0x74, 0x78, 0x74] := by decide

/-- `../../../d` from `/h/u` is `/d`: there is nothing above the root. -/
example : getAbsPath [0x2F, 0x68, 0x2F, 0x75] [0x2E, 0x2E, 0x2F, 0x2E, 0x2E, 0x2F, 0x2E, 0x2E, 0x2F, 0x64] = [0x2F, 0x64] := by decide

/-- An absolute path does not care about the directory, and the root itself may be named. -/
example : getAbsPath [0x2F, 0x68] [0x2F, 0x64, 0x2F] = [0x2F, 0x64] ∧ getAbsPath [0x2F, 0x68] [0x2F] = [0x2F] ∧ getAbsPath [0x2F, 0x68] [] = [0x2F, 0x68] := by
  decide

/-- The hypotheses of `C138_dictionaries` are met: `d` in `/h`, and `../h/d` in `/u`. -/
example : Leads [0x2F, 0x68] [0x64] [0x2F] [[0x68], [0x64]] ∧ Leads [0x2F, 0x75] [0x2E, 0x2E, 0x2F, 0x68, 0x2F, 0x64] [0x2F] [[0x68], [0x64]] := by
  constructor <;> rw [leads_iff] <;> decide

end Jieba.Props
