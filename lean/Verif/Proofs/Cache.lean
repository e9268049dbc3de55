import Verif.Proofs.World
/-!
# Caches of dictionaries: which file belongs to which dictionary
-/

set_option linter.unusedSectionVars false

namespace Jieba
open Jieba.Spec

variable {F : Type _} [LinearOrder F]

/-- The cache file of a dictionary for tokenizers without `tmp_dir` and `cache_file`. -/
def defaultCache (S : Sys F) (d : Option Path) : Path := cachePath S (Tok.new none) d

theorem pathJoin_inj (dir a b : Path) (ha : a.head? ≠ some 0x2F) (hb : b.head? ≠ some 0x2F) (h : pathJoin dir a = pathJoin dir b) :
    a = b := by
  unfold pathJoin at h
  rw [if_neg ha, if_neg hb] at h
  split at h
  · exact List.append_cancel_left h
  · exact List.append_cancel_left h

theorem defaultCache_inj (S : Sys F) (a b : Option Path) (hm : ∀ p q, a = some p → b = some q → S.md5 p = S.md5 q → p = q)
    (h : defaultCache S a = defaultCache S b) : a = b := by
  unfold defaultCache cachePath Tok.new at h
  simp only [truthyStr, Bool.false_eq_true, if_false] at h
  cases a with
  | none =>
    cases b with
    | none => rfl
    | some q =>
      simp only [] at h
      have := pathJoin_inj _ _ _ (by decide) (by simp [lit]) h
      simp [lit] at this
  | some p =>
    cases b with
    | none =>
      simp only [] at h
      have := pathJoin_inj _ _ _ (by simp [lit]) (by decide) h
      simp [lit] at this
    | some q =>
      simp only [] at h
      have := pathJoin_inj _ _ _ (by simp [lit]) (by simp [lit]) h
      rw [List.append_assoc, List.append_assoc] at this
      have := List.append_cancel_right (List.append_cancel_left this)
      rw [hm _ _ rfl rfl this]

theorem cachePath_default (S : Sys F) (x : Tok) (d : Option Path) (h1 : truthyStr x.tmpDir = false)
    (h2 : truthyStr x.cacheFile = false) : cachePath S x d = defaultCache S d := by
  unfold defaultCache cachePath Tok.new
  rw [h1, h2]; rfl

/-- The dictionaries in `D` have different cache files (no MD5 collision), and none of them is itself a cache file. -/
structure CacheNames (S : Sys F) (D : Path → Prop) : Prop where
  inj : ∀ p q, D p → D q → S.md5 p = S.md5 q → p = q
  apart : ∀ p, D p → ∀ d, (∀ q, d = some q → D q) → p ≠ defaultCache S d

/-- The condition under which caches can be trusted, for tokenizers that only use dictionaries in `D` (and the default
one). -/
structure CacheInv (S : Sys F) (D : Path → Prop) (w : World) : Prop where
  /-- tokenizers use dictionaries in `D` -/
  dict : ∀ t p, (w.tok t).dictionary = some p → D p
  /-- no tokenizer has its own `tmp_dir` or `cache_file` -/
  plain : ∀ t, truthyStr (w.tok t).tmpDir = false ∧ truthyStr (w.tok t).cacheFile = false
  /-- a cache newer than its dictionary is unreadable or holds what the dictionary file holds -/
  custom : ∀ p df cf x, D p → w.files p = some df → w.files (defaultCache S (some p)) = some cf →
    df.mtime < cf.mtime → S.load cf.data = some x → genPfdict df.data = .ok x
  /-- the cache of the default dictionary is unreadable or holds what it holds -/
  default : ∀ cf x, w.files (defaultCache S none) = some cf → S.load cf.data = some x → genPfdict w.defaultDict = .ok x
  /-- no file is from the future -/
  past : ∀ p f, w.files p = some f → f.mtime ≤ w.clock

theorem cacheInv_prim (S : Sys F) (D : Path → Prop) (hD : CacheNames S D) (P : Allowed) (hT : ∀ p, P.target p → D p)
    (hw : ∀ d data, (∀ q, d = some q → D q) → P.write (defaultCache S d) data → S.load data = none)
    (a b : World) (h : Prim S P a b) (hi : CacheInv S D a) : CacheInv S D b := by
  have keep : ∀ (c : World), (∀ t, (c.tok t).tmpDir = (a.tok t).tmpDir ∧ (c.tok t).cacheFile = (a.tok t).cacheFile ∧
        (c.tok t).dictionary = (a.tok t).dictionary) →
      c.files = a.files → c.clock = a.clock → c.defaultDict = a.defaultDict → CacheInv S D c := by
    intro c h1 h2 h3 h4
    exact ⟨fun t p => by rw [(h1 t).2.2]; exact hi.dict t p, fun t => by rw [(h1 t).1, (h1 t).2.1]; exact hi.plain t, by rw [h2]; exact hi.custom,
      by rw [h2, h4]; exact hi.default, by rw [h2, h3]; exact hi.past⟩
  cases h with
  | add t word f tag _ _ =>
    refine keep _ ?_ (addFreq_files ..) (addFreq_clock ..) (addFreq_defaultDict ..)
    intro u
    by_cases hu : u = t
    · subst hu; rw [addFreq_tok_self]; exact ⟨rfl, rfl, rfl⟩
    · rw [addFreq_tok_ne _ _ _ _ _ _ hu]; exact ⟨rfl, rfl, rfl⟩
  | load t cf x _ _ _ _ =>
    refine keep _ ?_ rfl rfl rfl
    intro u
    rw [markInit_tok]
    by_cases hu : u = t
    · subst hu; simp
    · rw [if_neg hu, setTok_tok_ne _ _ _ _ hu]; exact ⟨rfl, rfl, rfl⟩
  | build t data x _ _ _ =>
    refine keep _ ?_ rfl rfl rfl
    intro u
    rw [markInit_tok]
    by_cases hu : u = t
    · subst hu; simp
    · rw [if_neg hu, setTok_tok_ne _ _ _ _ hu]; exact ⟨rfl, rfl, rfl⟩
  | buildDump t data x hin hd hg =>
    have hc : cachePath S (a.tok t) (a.tok t).dictionary = defaultCache S (a.tok t).dictionary :=
      cachePath_default S _ _ (hi.plain t).1 (hi.plain t).2
    rw [hc]
    have hdict : ∀ q, (a.tok t).dictionary = some q → D q := hi.dict t
    refine ⟨?_, ?_, ?_, ?_, ?_⟩
    · intro u p
      rw [markInit_tok, setFile_tok]
      by_cases hu : u = t
      · subst hu; simpa using hi.dict u p
      · rw [if_neg hu, setTok_tok_ne _ _ _ _ hu]; exact hi.dict u p
    · intro u
      rw [markInit_tok, setFile_tok]
      by_cases hu : u = t
      · subst hu; simpa using hi.plain u
      · rw [if_neg hu, setTok_tok_ne _ _ _ _ hu]; exact hi.plain u
    · intro p df cf y hp hdf hcf hlt hy
      simp only [markInit_files, setFile_files, setTok_files] at hdf hcf
      rw [if_neg (hD.apart p hp _ hdict)] at hdf
      by_cases he : defaultCache S (some p) = defaultCache S (a.tok t).dictionary
      · rw [if_pos he] at hcf
        simp at hcf
        subst hcf
        have := defaultCache_inj S _ _ (by
          rintro a' q ⟨⟩ hq; exact hD.inj _ _ hp (hdict _ hq)) he
        rw [← this] at hd
        unfold dictFile at hd
        simp only [hdf] at hd
        simp only [S.load_dump] at hy
        simp at hd hy
        rw [hd, ← hy]; exact hg
      · rw [if_neg he] at hcf
        exact hi.custom p df cf y hp hdf hcf hlt hy
    · intro cf y hcf hy
      simp only [markInit_files, setFile_files, setTok_files, markInit_defaultDict, setFile_defaultDict,
        setTok_defaultDict] at hcf ⊢
      by_cases he : defaultCache S none = defaultCache S (a.tok t).dictionary
      · rw [if_pos he] at hcf
        simp at hcf
        subst hcf
        have := defaultCache_inj S _ _ (by simp) he
        rw [← this] at hd
        unfold dictFile at hd
        simp only [S.load_dump] at hy
        simp at hd hy
        rw [hd, ← hy]; exact hg
      · rw [if_neg he] at hcf
        exact hi.default cf y hcf hy
    · intro p f hf
      simp only [markInit_files, setFile_files, setTok_files, markInit_clock, setFile_clock, setTok_clock] at hf ⊢
      split at hf
      · simp at hf; subst hf; exact le_refl _
      · exact hi.past p f hf
  | retarget t p _ hp =>
    refine ⟨?_, ?_, hi.custom, hi.default, hi.past⟩
    · intro u q
      by_cases hu : u = t
      · subst hu; simp; rintro rfl; exact hT _ hp
      · rw [setTok_tok_ne _ _ _ _ hu]; exact hi.dict u q
    · intro u
      by_cases hu : u = t
      · subst hu; simpa using hi.plain u
      · rw [setTok_tok_ne _ _ _ _ hu]; exact hi.plain u
  | new t d _ hp =>
    refine ⟨?_, ?_, hi.custom, hi.default, hi.past⟩
    · intro u q
      by_cases hu : u = t
      · subst hu; simp [Tok.new]; intro h; exact hT _ (hp _ h)
      · rw [setTok_tok_ne _ _ _ _ hu]; exact hi.dict u q
    intro u
    by_cases hu : u = t
    · subst hu; simp [Tok.new, truthyStr]
    · rw [setTok_tok_ne _ _ _ _ hu]; exact hi.plain u
  | write q data hq =>
    refine ⟨hi.dict, hi.plain, ?_, ?_, ?_⟩
    · intro p df cf y hp hdf hcf hlt hy
      simp only [setFile_files] at hdf hcf
      by_cases h2 : defaultCache S (some p) = q
      · rw [if_pos h2] at hcf
        simp at hcf; subst hcf
        rw [← h2] at hq
        rw [hw _ _ (by rintro q ⟨⟩; exact hp) hq] at hy; simp at hy
      · rw [if_neg h2] at hcf
        by_cases h1 : p = q
        · rw [if_pos h1] at hdf
          simp at hdf; subst hdf
          have := hi.past _ _ hcf
          simp only at hlt; omega
        · rw [if_neg h1] at hdf
          exact hi.custom p df cf y hp hdf hcf hlt hy
    · intro cf y hcf hy
      simp only [setFile_files] at hcf
      by_cases h2 : defaultCache S none = q
      · rw [if_pos h2] at hcf
        simp at hcf; subst hcf
        rw [← h2] at hq
        rw [hw _ _ (by simp) hq] at hy; simp at hy
      · rw [if_neg h2] at hcf; exact hi.default cf y hcf hy
    · intro p f hf
      simp only [setFile_files, setFile_clock] at hf ⊢
      split at hf
      · simp at hf; subst hf; exact le_refl _
      · exact hi.past p f hf
  | remove q _ =>
    refine ⟨hi.dict, hi.plain, ?_, ?_, ?_⟩
    · intro p df cf y hp hdf hcf hlt hy
      simp only [setFile_files] at hdf hcf
      split at hdf
      · simp at hdf
      · split at hcf
        · simp at hcf
        · exact hi.custom p df cf y hp hdf hcf hlt hy
    · intro cf y hcf hy
      simp only [setFile_files] at hcf
      split at hcf
      · simp at hcf
      · exact hi.default cf y hcf hy
    · intro p f hf
      simp only [setFile_files] at hf
      split at hf
      · simp at hf
      · exact hi.past p f hf
  | tick =>
    exact ⟨hi.dict, hi.plain, hi.custom, hi.default, fun p f hf => Nat.le_succ_of_le (hi.past p f hf)⟩

/-- What a successful initialisation leaves in the tokenizer. -/
theorem initLocked_current (S : Sys F) (D : Path → Prop) (w w' : World) (t : Nat) (io : Bool) (hi : CacheInv S D w)
    (hn : (w.tok t).initialized = false)
    (h : initLocked S w t (w.tok t).dictionary io = (w', .ok ())) :
    ∃ data x, dictFile w (w.tok t).dictionary = .ok data ∧ genPfdict data = .ok x ∧
      w'.tok t = { w.tok t with freq := x.1, total := x.2, initialized := true } ∧ w'.force = w.force := by
  rcases initLocked_prim S ⟨fun _ _ _ _ _ => False, fun _ => False, fun _ _ => False, fun _ => False, fun _ => False⟩ w t io with
    ⟨e, h1, -⟩ | ⟨h1, -⟩ | ⟨w1, h1, h2, h3, -⟩
  · rw [h1] at h; simp at h
  · rw [hn] at h1; simp at h1
  · rw [h1] at h
    simp at h
    subst h
    have hc : cachePath S (w.tok t) (w.tok t).dictionary = defaultCache S (w.tok t).dictionary :=
      cachePath_default S _ _ (hi.plain t).1 (hi.plain t).2
    have other : ∀ u (b : World), u ≠ t → b.tok t = w.tok t → (b.tok t).initialized = true → False := by
      intro u b _ hb hb2; rw [hb, hn] at hb2; simp at hb2
    cases h2 with
    | add u word f tag hu hp => exact hp.elim
    | load u cf x hu g1 g2 g3 =>
      by_cases ht : t = u
      · subst ht
        rw [hc] at g1
        cases hdict : (w.tok t).dictionary with
        | none =>
          rw [hdict] at g1
          exact ⟨w.defaultDict, x, rfl, hi.default cf x g1 g3, by simp [markInit_tok], rfl⟩
        | some p =>
          rw [hdict] at g1
          obtain ⟨df, g4, g5⟩ := g2 p hdict
          refine ⟨df.data, x, by simp [dictFile, g4], hi.custom p df cf x (hi.dict t p hdict) g4 g1 g5 g3, by simp [markInit_tok, hdict], rfl⟩
      · exfalso
        rw [markInit_tok, if_neg ht, setTok_tok_ne _ _ _ _ ht, hn] at h3; simp at h3
    | build u data x hu g1 g2 =>
      by_cases ht : t = u
      · subst ht
        exact ⟨data, x, g1, g2, by simp [markInit_tok], rfl⟩
      · exfalso
        rw [markInit_tok, if_neg ht, setTok_tok_ne _ _ _ _ ht, hn] at h3; simp at h3
    | buildDump u data x hu g1 g2 =>
      by_cases ht : t = u
      · subst ht
        exact ⟨data, x, g1, g2, by simp [markInit_tok], rfl⟩
      · exfalso
        rw [markInit_tok, if_neg ht, setFile_tok, setTok_tok_ne _ _ _ _ ht, hn] at h3; simp at h3
    | retarget u p hp => exact hp.elim
    | new u d hp => exact hp.elim
    | write p data hp => exact hp.elim
    | remove p hp => exact hp.elim
    | tick => simp at h3; rw [hn] at h3; simp at h3

/-- Segmentation on a tokenizer that still has to be initialised: as if it had been initialised before. -/
theorem cutW_checkInit (S : Sys F) (w w1 : World) (t : Nat) (ca hm io : Bool) (s : PyText)
    (h : checkInit S w t io = (w1, .ok ())) :
    (cutW S w t ca hm s io).2 = cut (w1.env S t) ca hm (strdecode S.gbk s) := by
  have hi : (w1.tok t).initialized = true := by
    rcases checkInit_prim S ⟨fun _ _ _ _ _ => False, fun _ => False, fun _ _ => False, fun _ => False, fun _ => False⟩ w t io with
      ⟨e, h1, -⟩ | ⟨w', h1, h2, -⟩
    · rw [h1] at h; simp at h
    · rw [h1] at h; simp at h; rw [← h]; exact h2
  have h1 := fun blks => (fun w1 (hi : (w1.tok t).initialized = true) =>
    (show cutBlocksW S t ca hm io w1 blks = (w1, Gen.forEach blks fun blk =>
      if blk = [] then Gen.ok []
      else if reHanDefault.isMatch blk then cutBlock (w1.env S t) ca hm blk
      else Gen.ok (cutSkip ca blk)) from by
    induction blks with
    | nil => rfl
    | cons b blks ih =>
      unfold cutBlocksW
      rw [Gen.forEach_cons]
      by_cases hb : b = []
      · rw [if_pos hb, if_pos hb, ih]; simp
      · rw [if_neg hb, if_neg hb]
        by_cases hm' : reHanDefault.isMatch b = true
        · rw [if_pos hm', if_pos hm', checkInit_of_init S w1 t io hi]
          simp only []
          cases he : (cutBlock (w1.env S t) ca hm b).err with
          | some e => simp [Gen.andThen, he]
          | none => simp only []; rw [ih]
        · rw [if_neg hm', if_neg hm', ih])) w1 hi
  unfold cutW cut
  generalize reHanDefault.split (strdecode S.gbk s) = blks
  induction blks with
  | nil => rfl
  | cons b blks ih =>
    unfold cutBlocksW
    rw [Gen.forEach_cons]
    by_cases hb : b = []
    · rw [if_pos hb, if_pos hb, ih]; simp
    · rw [if_neg hb, if_neg hb]
      by_cases hm' : reHanDefault.isMatch b = true
      · rw [if_pos hm', if_pos hm', h]
        simp only []
        cases he : (cutBlock (w1.env S t) ca hm b).err with
        | some e => simp [Gen.andThen, he]
        | none => simp only []; rw [h1 blks]
      · rw [if_neg hm', if_neg hm', ← ih]

end Jieba
