import Verif.Spec.CacheFile
import Verif.Props.Cache
/-!
# C77: which files are written and read
-/

set_option linter.unusedSectionVars false

namespace Jieba.Props
open Jieba Jieba.Spec

variable {F : Type _} [LinearOrder F]

theorem pathIn_pathJoin (dir name p : Path) : PathIn dir name p ↔ p = pathJoin dir name := by
  unfold pathJoin
  cases name with
  | nil =>
    simp only [List.head?_nil, reduceCtorEq, if_false, List.append_nil]
    rcases List.eq_nil_or_concat dir with rfl | ⟨d, c, rfl⟩
    · constructor
      · intro h
        cases h with
        | absolute r h => cases h
        | here h h' => rfl
        | slash d' h h' => simp at h'
        | noSlash h h' h'' => exact absurd rfl h'
      · rintro rfl; exact .here (by simp) rfl
    · rw [List.concat_eq_append]
      by_cases hc : c = 0x2F
      · subst hc
        simp only [List.getLast?_append, List.getLast?_singleton, Option.some_or, or_true, if_true]
        constructor
        · intro h
          cases h with
          | absolute r h => cases h
          | here h h' => simp at h'
          | slash d' h h' => rw [h']
          | noSlash h h' h'' => exact absurd rfl (h'' d)
        · rintro rfl; exact .slash d (by simp) rfl
      · simp only [List.append_eq_nil_iff, List.cons_ne_self, and_false, List.getLast?_append, List.getLast?_singleton, Option.some_or,
          Option.some.injEq, hc, or_false, if_false]
        constructor
        · intro h
          cases h with
          | absolute r h => cases h
          | here h h' => simp at h'
          | slash d' h h' =>
            have := List.append_inj_right' h' rfl
            simp at this; exact absurd this hc
          | noSlash h h' h'' => rfl
        · rintro rfl
          refine .noSlash (by simp) (by simp) ?_
          intro d' h
          have := List.append_inj_right' h rfl
          simp at this; exact hc this
  | cons x name =>
    by_cases hx : x = 0x2F
    · subst hx
      simp only [List.head?_cons, if_true]
      constructor
      · intro h
        cases h with
        | absolute r h => rfl
        | here h h' => exact absurd rfl (h name)
        | slash d' h h' => exact absurd rfl (h name)
        | noSlash h h' h'' => exact absurd rfl (h name)
      · rintro rfl; exact .absolute name rfl
    · have hna : ∀ r, x :: name ≠ 0x2F :: r := by intro r h; injection h with h; exact hx h
      simp only [List.head?_cons, Option.some.injEq, hx, if_false]
      rcases List.eq_nil_or_concat dir with rfl | ⟨d, c, rfl⟩
      · simp only [true_or, if_true, List.nil_append]
        constructor
        · intro h
          cases h with
          | absolute r h => rfl
          | here h h' => rfl
          | slash d' h h' => simp at h'
          | noSlash h h' h'' => exact absurd rfl h'
        · rintro rfl; exact .here hna rfl
      · rw [List.concat_eq_append]
        by_cases hc : c = 0x2F
        · subst hc
          simp only [List.getLast?_append, List.getLast?_singleton, Option.some_or, or_true, if_true]
          constructor
          · intro h
            cases h with
            | absolute r h => exact absurd h (hna r)
            | here h h' => simp at h'
            | slash d' h h' =>
              have := List.append_inj_left' h' rfl
              simp [this]
            | noSlash h h' h'' => exact absurd rfl (h'' d)
          · rintro rfl
            have := PathIn.slash (dir := d ++ [0x2F]) d hna rfl
            simpa using this
        · simp only [List.append_eq_nil_iff, List.cons_ne_self, and_false, List.getLast?_append, List.getLast?_singleton, Option.some_or,
            Option.some.injEq, hc, or_false, if_false]
          constructor
          · intro h
            cases h with
            | absolute r h => exact absurd h (hna r)
            | here h h' => simp at h'
            | slash d' h h' =>
              have := List.append_inj_right' h' rfl
              simp at this; exact absurd this hc
            | noSlash h h' h'' => simp
          · rintro rfl
            have := PathIn.noSlash (dir := d ++ [c]) (name := x :: name) hna (by simp) (by
              intro d' h
              have := List.append_inj_right' h rfl
              simp at this; exact hc this)
            simpa using this

theorem setting_getD (s : Option Str) (default v : Str) : Setting s default v ↔ v = if truthyStr s then s.getD [] else default := by
  unfold Setting
  rcases s with _ | _ | ⟨c, s⟩ <;> simp [truthyStr]
  constructor
  · rintro ⟨h, -⟩; exact h.symm
  · rintro rfl; simp

theorem cacheAt_iff (S : Sys F) (x : Tok) (d : Option Path) (p : Path) :
    CacheAt S.tempdir S.md5 x.tmpDir x.cacheFile d p ↔ p = cachePath S x d := by
  have hn : ∀ name, Setting x.cacheFile (cacheName S.md5 d) name ↔ name = (if truthyStr x.cacheFile then x.cacheFile.getD []
      else match d with
        | none => lit ['j', 'i', 'e', 'b', 'a', '.', 'c', 'a', 'c', 'h', 'e']
        | some p => lit ['j', 'i', 'e', 'b', 'a', '.', 'u'] ++ S.md5 p ++ lit ['.', 'c', 'a', 'c', 'h', 'e']) := by
    intro name
    rw [setting_getD]
    cases d <;> rfl
  unfold CacheAt
  simp only [setting_getD x.tmpDir, hn, pathIn_pathJoin]
  constructor
  · rintro ⟨dir, name, rfl, rfl, rfl⟩; rfl
  · rintro rfl; exact ⟨_, _, rfl, rfl, rfl⟩

/-- C77: `initialize()` on a tokenizer that is not initialised, when there is no cache file, or one that cannot be loaded, or one
that is not newer than the dictionary file: if the dictionary file can be parsed and dumping succeeds, the cache file is written, and
no other file; if dumping fails, no file changes. -/
theorem C77_cache_is_written (S : Sys F) (w : World) (t : Nat) (hi : (w.tok t).initialized = false) (c : Path)
    (hc : CacheAt S.tempdir S.md5 (w.tok t).tmpDir (w.tok t).cacheFile (w.tok t).dictionary c)
    (hno : ∀ cf, w.files c = some cf → S.load cf.data = none ∨
      ∃ p df, (w.tok t).dictionary = some p ∧ w.files p = some df ∧ cf.mtime ≤ df.mtime)
    (data : Bytes) (hd : dictFile w (w.tok t).dictionary = .ok data) (x : Freq × Int) (hx : genPfdict data = .ok x) :
    (∃ w', initTok S w t none true = (w', .ok ()) ∧ w'.files c = some ⟨S.dump x, w.clock⟩ ∧ ∀ p, p ≠ c → w'.files p = w.files p) ∧
    ∃ w', initTok S w t none false = (w', .ok ()) ∧ w'.files = w.files := by
  rw [cacheAt_iff] at hc
  subst hc
  have hu : ∃ cf, cacheUsable w (w.tok t).dictionary (cachePath S (w.tok t) (w.tok t).dictionary) = .ok cf ∧
      cf.bind (fun f => S.load f.data) = none := by
    unfold cacheUsable
    cases hf : w.files (cachePath S (w.tok t) (w.tok t).dictionary) with
    | none => exact ⟨none, rfl, rfl⟩
    | some cf =>
      cases hdd : (w.tok t).dictionary with
      | none =>
        refine ⟨some cf, rfl, ?_⟩
        rcases hno cf hf with h | ⟨p, df, h, -⟩
        · simpa using h
        · rw [hdd] at h; cases h
      | some p =>
        rw [hdd] at hd
        unfold dictFile at hd
        cases hp : w.files p with
        | none => simp [hp] at hd
        | some df =>
          simp only [hp]
          by_cases hlt : df.mtime < cf.mtime
          · rw [if_pos hlt]
            refine ⟨_, rfl, ?_⟩
            rcases hno cf hf with h | ⟨q, dg, h, h', h''⟩
            · simpa using h
            · rw [hdd] at h
              cases h
              rw [hp] at h'
              cases h'
              exact absurd hlt (Nat.not_lt.mpr h'')
          · rw [if_neg hlt]; exact ⟨none, rfl, rfl⟩
  obtain ⟨cf, hu, hl⟩ := hu
  unfold initTok initLocked buildDict
  simp only [hi, Bool.false_eq_true, if_false, hu, hl, hd, hx, if_true]
  refine ⟨⟨_, rfl, ?_, ?_⟩, _, rfl, ?_⟩
  · simp [setFile_files]
  · intro p hp
    simp [setFile_files, hp]
  · simp

/-- C77: `initialize()` on a tokenizer that is not initialised, when there is a readable cache file newer than the dictionary file (if
that is not the one of the package): the dictionary is what the cache file holds, and no file changes. -/
theorem C77_cache_is_read (S : Sys F) (w : World) (t : Nat) (hi : (w.tok t).initialized = false) (c : Path)
    (hc : CacheAt S.tempdir S.md5 (w.tok t).tmpDir (w.tok t).cacheFile (w.tok t).dictionary c) (cf : File) (hf : w.files c = some cf)
    (hn : ∀ p, (w.tok t).dictionary = some p → ∃ df, w.files p = some df ∧ df.mtime < cf.mtime) (x : Freq × Int)
    (hx : S.load cf.data = some x) (io : Bool) :
    ∃ w', initTok S w t none io = (w', .ok ()) ∧ (w'.tok t).freq = x.1 ∧ (w'.tok t).total = x.2 ∧ (w'.tok t).initialized = true ∧
      w'.files = w.files := by
  rw [cacheAt_iff] at hc
  subst hc
  have hu : cacheUsable w (w.tok t).dictionary (cachePath S (w.tok t) (w.tok t).dictionary) = .ok (some cf) := by
    unfold cacheUsable
    simp only [hf]
    cases hd : (w.tok t).dictionary with
    | none => rfl
    | some p =>
      obtain ⟨df, h1, h2⟩ := hn p hd
      simp [h1, h2]
  unfold initTok initLocked
  simp only [hi, Bool.false_eq_true, if_false, hu, Option.bind_some, hx]
  refine ⟨_, rfl, ?_, ?_, ?_, rfl⟩ <;> simp [markInit_tok]

/-- The operations of the library (as opposed to changes of files by others). -/
def Library : Op → Prop
  | .write _ _ => False
  | .remove _ => False
  | _ => True

/-- C77: whatever is called, no file changes that is not the cache file of some dictionary with the settings of a tokenizer, or with
no settings (those of new tokenizers). -/
theorem C77_only_caches_change (S : Sys F) (w : World) (ops : List Op) (hops : ∀ op ∈ ops, Library op) (p : Path)
    (hp : ∀ t d, ¬ CacheAt S.tempdir S.md5 (w.tok t).tmpDir (w.tok t).cacheFile d p)
    (hp' : ∀ d, ¬ CacheAt S.tempdir S.md5 none none d p) : (runOps S w ops).files p = w.files p := by
  have key : (runOps S w ops).files p = w.files p ∧ ∀ t,
      ((runOps S w ops).tok t).tmpDir = (w.tok t).tmpDir ∧ ((runOps S w ops).tok t).cacheFile = (w.tok t).cacheFile ∨
      ((runOps S w ops).tok t).tmpDir = none ∧ ((runOps S w ops).tok t).cacheFile = none := by
    refine runOps_inv_prim S (fun v => v.files p = w.files p ∧ ∀ t,
      (v.tok t).tmpDir = (w.tok t).tmpDir ∧ (v.tok t).cacheFile = (w.tok t).cacheFile ∨
      (v.tok t).tmpDir = none ∧ (v.tok t).cacheFile = none) ops w ⟨rfl, fun t => Or.inl ⟨rfl, rfl⟩⟩ ?_
    intro op hop w0 a b hab ⟨ha, hs⟩
    have keep : ∀ (u : Nat) (y : Tok), y.tmpDir = (a.tok u).tmpDir → y.cacheFile = (a.tok u).cacheFile → ∀ t,
        (((a.setTok u y).tok t).tmpDir = (w.tok t).tmpDir ∧ ((a.setTok u y).tok t).cacheFile = (w.tok t).cacheFile ∨
        ((a.setTok u y).tok t).tmpDir = none ∧ ((a.setTok u y).tok t).cacheFile = none) := by
      intro u y h1 h2 t
      rw [setTok_tok]
      split
      · next e => subst e; rw [h1, h2]; exact hs t
      · exact hs t
    cases hab with
    | add t word f tag h1 h2 =>
      refine ⟨by rw [addFreq_files]; exact ha, fun u => ?_⟩
      by_cases hu : u = t
      · subst hu; rw [addFreq_tok_self]; exact hs u
      · rw [addFreq_tok_ne _ _ _ _ _ _ hu]; exact hs u
    | load t cf x h1 h2 h3 h4 =>
      refine ⟨ha, fun u => ?_⟩
      rw [markInit_tok]
      split
      · next e => subst e; simpa using hs u
      · exact keep t { a.tok t with freq := x.1, total := x.2 } rfl rfl u
    | build t data x h1 h2 h3 =>
      refine ⟨ha, fun u => ?_⟩
      rw [markInit_tok]
      split
      · next e => subst e; simpa using hs u
      · exact keep t { a.tok t with freq := x.1, total := x.2 } rfl rfl u
    | buildDump t data x h1 h2 h3 =>
      refine ⟨?_, fun u => ?_⟩
      · rw [markInit_files, setFile_files, setTok_files, if_neg]
        · exact ha
        · intro e
          have := (cacheAt_iff S (a.tok t) (a.tok t).dictionary p).mpr e
          rcases hs t with ⟨e1, e2⟩ | ⟨e1, e2⟩
          · rw [e1, e2] at this; exact hp t _ this
          · rw [e1, e2] at this; exact hp' _ this
      · rw [markInit_tok]
        split
        · next e => subst e; simpa using hs u
        · exact keep t { a.tok t with freq := x.1, total := x.2 } rfl rfl u
    | retarget t q h1 h2 => exact ⟨ha, keep t _ rfl rfl⟩
    | new t d h1 h2 =>
      refine ⟨ha, fun u => ?_⟩
      rw [setTok_tok]
      split
      · exact Or.inr ⟨rfl, rfl⟩
      · exact hs u
    | write q data h =>
      have := hops op hop
      cases op <;> simp [Op.allowed] at h
      exact absurd this (by simp [Library])
    | remove q h =>
      have := hops op hop
      cases op <;> simp [Op.allowed] at h
      exact absurd this (by simp [Library])
    | tick => exact ⟨ha, hs⟩
  exact key.1

/-- With the settings of `Tokenizer()`, the cache of the default dictionary; with `tmp_dir = '/x/'` and `cache_file = 'c'`; with an
absolute `cache_file`. -/
example : CacheAt (lit ['/', 't']) id none none none (lit ['/', 't', '/', 'j', 'i', 'e', 'b', 'a', '.', 'c', 'a', 'c', 'h', 'e']) ∧
    CacheAt (lit ['/', 't']) id (some (lit ['/', 'x', '/'])) (some (lit ['c'])) none (lit ['/', 'x', '/', 'c']) ∧
    CacheAt (lit ['/', 't']) id none (some (lit ['/', 'c'])) (some (lit ['d'])) (lit ['/', 'c']) := by
  refine ⟨⟨_, _, Or.inr ⟨Or.inl rfl, rfl⟩, Or.inr ⟨Or.inl rfl, rfl⟩, ?_⟩, ⟨_, _, Or.inl ⟨rfl, by decide⟩, Or.inl ⟨rfl, by decide⟩, ?_⟩,
    ⟨_, _, Or.inr ⟨Or.inl rfl, rfl⟩, Or.inl ⟨rfl, by decide⟩, ?_⟩⟩ <;> rw [pathIn_pathJoin] <;> decide

/-- The hypotheses of `C77_cache_is_written` are met by the sample world, those of `C77_cache_is_read` by the world after that. -/
example : (sampleWorld.tok 0).initialized = false ∧ sampleWorld.files (cachePath sampleSys (sampleWorld.tok 0) (sampleWorld.tok 0).dictionary) = none ∧
    (∃ data x, dictFile sampleWorld (sampleWorld.tok 0).dictionary = .ok data ∧ genPfdict data = .ok x) ∧
    ∃ cf, (initTok sampleSys sampleWorld 0 none true).1.files
      (cachePath sampleSys (sampleWorld.tok 0) (sampleWorld.tok 0).dictionary) = some cf := by
  refine ⟨rfl, rfl, ⟨_, _, rfl, rfl⟩, ⟨_, rfl⟩⟩

end Jieba.Props
