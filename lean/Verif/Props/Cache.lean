import Verif.Proofs.Cache
import Verif.Proofs.Fields
import Verif.Props.Dictionary
/-!
# C32, C34, C35, C39: initialisation, caches and changing the dictionary (sequential)
-/

set_option linter.unusedSectionVars false

namespace Jieba.Props
open Jieba Jieba.Spec

variable {F : Type _} [LinearOrder F]

/-- The dictionary that `initialize(d)` is about. -/
def wanted (S : Sys F) (w : World) (t : Nat) : Option Path → Option Path
  | some (c :: p) => some (S.abspath (c :: p))
  | _ => (w.tok t).dictionary

/-- The tokenizer has to be (re)initialised for `initialize(d)`. -/
def Outdated (S : Sys F) (w : World) (t : Nat) (d : Option Path) : Prop :=
  ¬ ((w.tok t).initialized = true ∧ (w.tok t).dictionary = wanted S w t d)

theorem initTok_outdated (S : Sys F) (w : World) (t : Nat) (d : Option Path) (io : Bool) (h : Outdated S w t d) :
    initTok S w t d io =
      initLocked S (w.setTok t { w.tok t with dictionary := wanted S w t d, initialized := false }) t (wanted S w t d) io := by
  have none_case : wanted S w t d = (w.tok t).dictionary → Outdated S w t d →
      initLocked S w t (w.tok t).dictionary io =
      initLocked S (w.setTok t { w.tok t with dictionary := wanted S w t d, initialized := false }) t (wanted S w t d) io := by
    intro hw ho
    have hi : (w.tok t).initialized = false := by
      cases h : (w.tok t).initialized with
      | false => rfl
      | true => exact absurd ⟨h, hw.symm⟩ ho
    have e : w.setTok t { w.tok t with dictionary := wanted S w t d, initialized := false } = w := by
      unfold World.setTok
      cases w with
      | mk files clock dd force tok =>
        simp only [World.mk.injEq, true_and]
        funext u
        split
        · next hu =>
          subst hu
          simp only at hw hi
          rw [hw]
          cases hx : tok u with
          | mk a b c d e f g => rw [hx] at hi; simp at hi; simp [hi]
        · rfl
    rw [e, hw]
  cases d with
  | none => exact none_case rfl h
  | some p =>
    cases p with
    | nil => exact none_case rfl h
    | cons c p =>
      unfold initTok
      simp only [wanted]
      rw [if_neg]
      rintro ⟨h1, h2⟩
      exact h ⟨h2, h1⟩

/-! ## C32 -/

/-- C32: whenever `initialize` raises, for whatever reason, no file has changed (in particular no cache), the tokenizer is
not marked initialised, its frequencies, total and tags are as before, and other tokenizers are untouched. -/
theorem C32_failed_initialize (S : Sys F) (w w' : World) (t : Nat) (d : Option Path) (io : Bool) (e : PyErr)
    (h : initTok S w t d io = (w', .error e)) :
    w'.files = w.files ∧ w'.force = w.force ∧ (w'.tok t).initialized = false ∧ (w'.tok t).freq = (w.tok t).freq ∧
      (w'.tok t).total = (w.tok t).total ∧ (w'.tok t).tags = (w.tok t).tags ∧ ∀ u, u ≠ t → w'.tok u = w.tok u := by
  by_cases ho : Outdated S w t d
  · rw [initTok_outdated S w t d io ho] at h
    have hp := initLocked_prim S ⟨fun _ _ _ _ _ => False, fun _ => False, fun _ _ => False, fun _ => False, fun _ => False⟩
      (w.setTok t { w.tok t with dictionary := wanted S w t d, initialized := false }) t io
    rw [setTok_tok_self] at hp
    simp only at hp
    rcases hp with ⟨e', h1, -⟩ | ⟨h1, -⟩ | ⟨w1, h1, -⟩
    · rw [h1] at h
      simp at h
      obtain ⟨rfl, -⟩ := h
      refine ⟨rfl, rfl, by simp, by simp, by simp, by simp, fun u hu => setTok_tok_ne _ _ _ _ hu⟩
    · simp at h1
    · rw [h1] at h; simp at h
  · unfold Outdated at ho
    push Not at ho
    exfalso
    have hl : initLocked S w t (w.tok t).dictionary io = (w, .ok ()) := by
      unfold initLocked; rw [if_pos ho.1]
    cases d with
    | none => rw [initTok_none, hl] at h; simp at h
    | some p =>
      cases p with
      | nil =>
        have : initTok S w t (some []) io = initLocked S w t (w.tok t).dictionary io := rfl
        rw [this, hl] at h; simp at h
      | cons c p =>
        unfold initTok at h
        simp only at h
        rw [if_pos ⟨ho.2, ho.1⟩] at h
        simp at h

/-- C32: a malformed line anywhere in the dictionary file makes `initialize` raise ValueError, unless a newer readable
cache is used instead. -/
theorem C32_malformed_raises (S : Sys F) (w : World) (t : Nat) (d : Option Path) (io : Bool) (ho : Outdated S w t d)
    (hc : ∀ cf, w.files (cachePath S (w.tok t) (wanted S w t d)) = some cf →
      S.load cf.data = none ∨ ∃ p df, wanted S w t d = some p ∧ w.files p = some df ∧ ¬ df.mtime < cf.mtime)
    (data : Bytes) (hd : dictFile w (wanted S w t d) = .ok data) (ls : List Bytes) (hls : FileLines data ls) (l : Bytes) (hl : l ∈ ls)
    (hb : ∀ word freq, ¬ DictEntry l word freq) : ∃ w', initTok S w t d io = (w', .error .valueError) := by
  rw [← (fileLines_iff _ _).mp hls] at hl
  have hb : dictLine l = none := by
    cases h : dictLine l with
    | none => rfl
    | some e => exact absurd ((dictEntry_iff l e.1 e.2).mpr h) (hb _ _)
  rw [initTok_outdated S w t d io ho]
  generalize hp : wanted S w t d = p at *
  have hg : genPfdict data = .error .valueError := by
    rcases genPfdict_cases data with ⟨es, h1, -⟩ | ⟨-, h⟩
    · exfalso
      have : dictLine l ∈ es.map some := by rw [← h1]; exact List.mem_map_of_mem hl
      rw [hb] at this; simp at this
    · exact h
  unfold initLocked
  simp only [setTok_tok_self, Bool.false_eq_true, if_false]
  have hcp : cachePath S { w.tok t with dictionary := p, initialized := false } p = cachePath S (w.tok t) p := rfl
  rw [hcp]
  have hu : ∃ cf, cacheUsable (w.setTok t { w.tok t with dictionary := p, initialized := false }) p
      (cachePath S (w.tok t) p) = .ok cf ∧ cf.bind (fun f => S.load f.data) = none := by
    unfold cacheUsable
    rw [setTok_files]
    cases hcf : w.files (cachePath S (w.tok t) p) with
    | none => exact ⟨none, rfl, rfl⟩
    | some cf =>
      simp only []
      rcases hc cf hcf with h | ⟨q, df, rfl, h1, h2⟩
      · cases p with
        | none => exact ⟨some cf, rfl, h⟩
        | some q =>
          unfold dictFile at hd
          simp only at hd ⊢
          cases hq : w.files q with
          | none => rw [hq] at hd; simp at hd
          | some df =>
            simp only []
            by_cases hlt : df.mtime < cf.mtime
            · rw [if_pos hlt]; exact ⟨some cf, rfl, h⟩
            · rw [if_neg hlt]; exact ⟨none, rfl, rfl⟩
      · simp only [h1]
        rw [if_neg h2]; exact ⟨none, rfl, rfl⟩
  obtain ⟨cf, h1, h2⟩ := hu
  rw [h1]
  simp only []
  rw [h2]
  simp only []
  unfold buildDict
  have hd' : dictFile (w.setTok t { w.tok t with dictionary := p, initialized := false }) p = .ok data := by
    rw [← hd]; unfold dictFile; rfl
  simp only [setTok_tok_self, hd', hg]
  exact ⟨_, rfl⟩

/-- A fresh tokenizer pointed to a file whose second line has no frequency; an old cache (same time) is there. -/
def brokenWorld : World :=
  { sampleWorld with
    files := fun p =>
      if p = lit ['/', 'd'] then some ⟨[97, 32, 51, 10, 98, 10], 3⟩
      else if p = cachePath sampleSys (Tok.new none) (some (lit ['/', 'd'])) then some ⟨sampleDump ([], 0), 3⟩ else none }

example : Outdated sampleSys brokenWorld 0 (some (lit ['/', 'd'])) ∧
    dictFile brokenWorld (wanted sampleSys brokenWorld 0 (some (lit ['/', 'd']))) = .ok [97, 32, 51, 10, 98, 10] ∧
    FileLines [97, 32, 51, 10, 98, 10] [[97, 32, 51, 10], [98, 10]] ∧ (∀ w f, ¬ DictEntry [98, 10] w f) ∧
    (initTok sampleSys brokenWorld 0 (some (lit ['/', 'd'])) true).2 = .error .valueError := by
  refine ⟨?_, by decide +kernel, (fileLines_iff _ _).mpr (by decide +kernel), fun w f h => ?_, by decide +kernel⟩
  · rintro ⟨h, -⟩
    exact absurd h (by decide +kernel)
  · rw [dictEntry_iff, show dictLine [98, 10] = none by decide +kernel] at h
    simp at h

/-! ## C34 -/

/-- What may happen: tokenizers use dictionaries in `D`, and whatever is written to a cache file from outside is not
readable as a cache. -/
def KeepsCaches (S : Sys F) (D : Path → Prop) : Op → Prop
  | .init _ d _ => ∀ p, d = some p → D (S.abspath p)
  | .setDictionary _ p => D (S.abspath p)
  | .new _ d => ∀ p, d = some p → D (S.abspath p)
  | .write p data => (∃ d, (∀ q, d = some q → D q) ∧ p = defaultCache S d) → S.load data = none
  | _ => True

theorem cacheInv_runOps (S : Sys F) (D : Path → Prop) (hD : CacheNames S D) (w : World) (hw : CacheInv S D w) (ops : List Op)
    (hops : ∀ op ∈ ops, KeepsCaches S D op) : CacheInv S D (runOps S w ops) := by
  refine runOps_inv_prim S (CacheInv S D) ops w hw ?_
  intro op hop w0 a b hab ha
  refine cacheInv_prim S D hD _ ?_ ?_ a b hab ha
  · intro p hp
    have hk := hops op hop
    cases op <;> simp only [Op.allowed] at hp
    · obtain ⟨q, h1, rfl⟩ := hp; exact hk q h1
    · rw [hp]; exact hk
    · obtain ⟨q, h1, rfl⟩ := hp; exact hk q h1
  · intro d data hd hp
    have hk := hops op hop
    cases op <;> simp only [Op.allowed] at hp
    obtain ⟨h1, rfl⟩ := hp
    exact hk ⟨d, hd, h1.symm⟩

/-- C34: start from a state where caches are coherent and let anything happen that does not forge caches (dictionary files
edited, removed, replaced at any time between operations; caches removed or corrupted; tokenizers created, retargeted,
user words added; time passing).  Then every `initialize` that succeeds on an outdated tokenizer leaves in it exactly what the
dictionary file holds now, no matter whether it was read from the file or from the cache. -/
theorem C34_initialize_current (S : Sys F) (D : Path → Prop) (hD : CacheNames S D) (w : World) (hw : CacheInv S D w)
    (ops : List Op) (hops : ∀ op ∈ ops, KeepsCaches S D op) (t : Nat) (d : Option Path) (hd : ∀ p, d = some p → D (S.abspath p))
    (ho : Outdated S (runOps S w ops) t d) (io : Bool) (w' : World) (h : initTok S (runOps S w ops) t d io = (w', .ok ())) :
    ∃ data x, dictFile (runOps S w ops) (wanted S (runOps S w ops) t d) = .ok data ∧ genPfdict data = .ok x ∧
      (w'.tok t).freq = x.1 ∧ (w'.tok t).total = x.2 ∧ (w'.tok t).initialized = true := by
  have hi := cacheInv_runOps S D hD w hw ops hops
  generalize runOps S w ops = v at *
  rw [initTok_outdated S v t d io ho] at h
  have hwD : ∀ p, wanted S v t d = some p → D p := by
    intro p hp
    match d, hp, hd with
    | none, hp, _ => exact hi.dict t p hp
    | some [], hp, _ => exact hi.dict t p hp
    | some (c :: q), hp, hd => simp only [wanted, Option.some.injEq] at hp; rw [← hp]; exact hd _ rfl
  have hi' : CacheInv S D (v.setTok t { v.tok t with dictionary := wanted S v t d, initialized := false }) := by
    refine ⟨?_, ?_, hi.custom, hi.default, hi.past⟩
    · intro u p
      by_cases hu : u = t
      · subst hu; simp only [setTok_tok_self]; exact hwD p
      · rw [setTok_tok_ne _ _ _ _ hu]; exact hi.dict u p
    · intro u
      by_cases hu : u = t
      · subst hu; simp only [setTok_tok_self]; exact hi.plain u
      · rw [setTok_tok_ne _ _ _ _ hu]; exact hi.plain u
  obtain ⟨data, x, h1, h2, h3, -⟩ := initLocked_current S D _ w' t io hi' (by simp) (by
    rw [setTok_tok_self]; exact h)
  refine ⟨data, x, ?_, h2, by rw [h3], by rw [h3], by rw [h3]⟩
  rw [← h1, setTok_tok_self]
  unfold dictFile; rfl

/-- A fresh process without cache files is coherent, and a history in which the dictionary is edited after a cache was
written, a cache is corrupted and tokenizers switch dictionaries is allowed. -/
example : CacheNames sampleSys (fun p => p = lit ['/', 'd'] ∨ p = lit ['/', 'e']) ∧
    CacheInv sampleSys (fun p => p = lit ['/', 'd'] ∨ p = lit ['/', 'e']) sampleWorld ∧
    ∀ op ∈ [Op.write (lit ['/', 'd']) sampleData, Op.new 1 (some (lit ['/', 'd'])), Op.tick, Op.init 1 none true, Op.tick,
      Op.write (lit ['/', 'd']) [97, 32, 51, 10], Op.write (defaultCache sampleSys none) [1, 2, 3], Op.init 2 (some (lit ['/', 'd'])) true],
      KeepsCaches sampleSys (fun p => p = lit ['/', 'd'] ∨ p = lit ['/', 'e']) op := by
  refine ⟨⟨fun p q _ _ h => h, ?_⟩, ⟨?_, ?_, ?_, ?_, ?_⟩, ?_⟩
  · rintro p hp d hd rfl
    have hlen : ∀ d, 2 < (defaultCache sampleSys d).length := by
      intro d
      cases d <;> simp [defaultCache, cachePath, Tok.new, truthyStr, pathJoin, sampleSys, lit]
    have := hlen d
    rcases hp with hp | hp <;> rw [hp] at this <;> simp [lit] at this
  · intro t p h; simp [sampleWorld, Tok.new] at h
  · intro t; simp [sampleWorld, Tok.new, truthyStr]
  · intro p df cf x _ h; simp [sampleWorld] at h
  · intro cf x h; simp [sampleWorld] at h
  · intro p f h; simp [sampleWorld] at h
  · intro op hop
    simp only [List.mem_cons, List.not_mem_nil, or_false] at hop
    rcases hop with rfl | rfl | rfl | rfl | rfl | rfl | rfl | rfl
    · rintro -; decide +kernel
    · rintro p ⟨⟩; left; rfl
    · trivial
    · rintro p ⟨⟩
    · trivial
    · rintro -; decide +kernel
    · rintro -; decide +kernel
    · rintro p ⟨⟩; left; rfl

/-- C34, negative part: for the default dictionary the age of the cache is not looked at, so a cache left behind by an
older dictionary is used for ever, even though the dictionary is newer (cache written at time 0, now is 5). -/
theorem C34_default_cache_never_expires :
    let w : World := { sampleWorld with
      files := fun p => if p = defaultCache sampleSys none then some ⟨sampleDump ([(lit ['旧'], 7)], 7), 0⟩ else none }
    (initTok sampleSys w 0 none true).2 = .ok () ∧ ((initTok sampleSys w 0 none true).1.tok 0).freq = [(lit ['旧'], 7)] ∧
      genPfdict w.defaultDict ≠ .ok ([(lit ['旧'], 7)], 7) := by
  refine ⟨by rfl, by decide +kernel, by decide +kernel⟩

/-- C34, negative part: with a shared `cache_file` attribute a tokenizer reads the other dictionary's cache. -/
theorem C34_shared_cache_file_mixes :
    let x : Tok := { Tok.new none with cacheFile := some (lit ['c']) }
    let w : World := { sampleWorld with
      files := fun p => if p = lit ['/', 'd'] then some ⟨[97, 32, 51, 10], 3⟩ else none, tok := fun _ => x }
    let w1 := (initTok sampleSys w 0 none true).1
    (initTok sampleSys w1 1 (some (lit ['/', 'd'])) true).2 = .ok () ∧
      ((initTok sampleSys w1 1 (some (lit ['/', 'd'])) true).1.tok 1).total = 72 ∧
      (genPfdict [97, 32, 51, 10]).map Prod.snd = .ok 3 := by
  refine ⟨by rfl, by decide +kernel, by decide +kernel⟩

/-! ## C35 -/

/-- C35: if the cache file is unreadable or holds what the dictionary file holds, `initialize` gives the same result and
leaves the same tokenizer as if the cache file did not exist. -/
theorem C35_cache_irrelevant (S : Sys F) (w : World) (t : Nat) (d : Option Path) (io : Bool) (ho : Outdated S w t d)
    (hne : ∀ p, wanted S w t d = some p → p ≠ cachePath S (w.tok t) (wanted S w t d))
    (hc : ∀ cf x, w.files (cachePath S (w.tok t) (wanted S w t d)) = some cf → S.load cf.data = some x →
      ∀ data, dictFile w (wanted S w t d) = .ok data → genPfdict data = .ok x) :
    let w0 := w.setFile (cachePath S (w.tok t) (wanted S w t d)) none
    (initTok S w t d io).2 = (initTok S w0 t d io).2 ∧ (initTok S w t d io).1.tok t = (initTok S w0 t d io).1.tok t := by
  intro w0
  have hw0 : wanted S w0 t d = wanted S w t d := by
    cases d with
    | none => rfl
    | some p => cases p <;> rfl
  have ho0 : Outdated S w0 t d := by unfold Outdated; rw [hw0]; exact ho
  rw [initTok_outdated S w t d io ho, initTok_outdated S w0 t d io ho0, hw0]
  generalize hp : wanted S w t d = p at *
  have htok : w0.tok t = w.tok t := rfl
  rw [htok]
  generalize hx : ({ w.tok t with dictionary := p, initialized := false } : Tok) = x
  have hx1 : x.initialized = false := by rw [← hx]
  have hx2 : x.dictionary = p := by rw [← hx]
  have hx3 : cachePath S x p = cachePath S (w.tok t) p := by rw [← hx]; rfl
  have hdf : dictFile (w0.setTok t x) p = dictFile w p := by
    unfold dictFile
    cases p with
    | none => rfl
    | some q =>
      simp only [setTok_files]
      show (match (if q = _ then none else w.files q) with | none => _ | some f => _) = _
      rw [hp, if_neg (hne q rfl)]
      cases w.files q <;> rfl
  have hdf' : dictFile (w.setTok t x) p = dictFile w p := by unfold dictFile; rfl
  have hfiles : w0.files (cachePath S (w.tok t) p) = none := by
    show (if _ = _ then none else _) = _
    rw [if_pos (by rw [hp])]
  -- initialising without a cache
  have h0 : initLocked S (w0.setTok t x) t p io = match buildDict S (w0.setTok t x) t (cachePath S (w.tok t) p) io with
      | (w, .error e) => (w, .error e)
      | (w, .ok ()) => (markInit w t, .ok ()) := by
    unfold initLocked cacheUsable
    simp [hx1, hx3, hfiles]
    rcases buildDict S (w0.setTok t x) t (cachePath S (w.tok t) p) io with ⟨a, _ | _⟩ <;> rfl
  -- building does not depend on the cache
  have hbuild : ∀ a : World, a.tok t = x → dictFile a p = dictFile w p →
      (match buildDict S a t (cachePath S (w.tok t) p) io with
        | (w, .error e) => ((w, .error e) : Res Unit)
        | (w, .ok ()) => (markInit w t, .ok ())).2 =
        (match dictFile w p with
          | .error e => .error e
          | .ok data => match genPfdict data with
            | .error e => .error e
            | .ok _ => .ok ()) ∧
      (match buildDict S a t (cachePath S (w.tok t) p) io with
        | (w, .error e) => ((w, .error e) : Res Unit)
        | (w, .ok ()) => (markInit w t, .ok ())).1.tok t =
        (match dictFile w p with
          | .error _ => x
          | .ok data => match genPfdict data with
            | .error _ => x
            | .ok y => { x with freq := y.1, total := y.2, initialized := true }) := by
    intro a ha hd
    unfold buildDict
    rw [ha, hx2, hd]
    cases dictFile w p with
    | error e => exact ⟨rfl, ha⟩
    | ok data =>
      simp only []
      cases genPfdict data with
      | error e => exact ⟨rfl, ha⟩
      | ok y => cases io <;> simp [markInit_tok, hx2]
  have hb0 := hbuild (w0.setTok t x) (by simp) hdf
  rw [← h0] at hb0
  rw [hb0.1, hb0.2]
  -- initialising with the cache
  unfold initLocked
  simp only [setTok_tok_self, hx1, Bool.false_eq_true, if_false, hx3]
  cases hu : cacheUsable (w.setTok t x) p (cachePath S (w.tok t) p) with
  | error e =>
    simp only []
    unfold cacheUsable at hu
    rw [setTok_files] at hu
    cases hcf : w.files (cachePath S (w.tok t) p) with
    | none => rw [hcf] at hu; simp at hu
    | some cf =>
      rw [hcf] at hu
      cases p with
      | none => simp at hu
      | some q =>
        simp only at hu
        cases hq : w.files q with
        | some df => rw [hq] at hu; simp at hu
        | none =>
          rw [hq] at hu
          simp at hu
          subst hu
          simp [dictFile, hq]
  | ok cf =>
    simp only []
    cases hl : cf.bind (fun f => S.load f.data) with
    | none =>
      simp only []
      exact hbuild (w.setTok t x) (by simp) hdf'
    | some y =>
      cases cf with
      | none => simp at hl
      | some cf =>
        simp at hl
        obtain ⟨g1, g2⟩ := cacheUsable_some _ _ _ _ hu
        rw [setTok_files] at g1 g2
        have hdata : ∃ data, dictFile w p = .ok data := by
          cases p with
          | none => exact ⟨_, rfl⟩
          | some q =>
            obtain ⟨df, h1, -⟩ := g2 q rfl
            exact ⟨df.data, by simp [dictFile, h1]⟩
        obtain ⟨data, hdata⟩ := hdata
        have := hc cf y g1 hl data hdata
        simp [hdata, this, markInit_tok]

/-- C35: hence segmentation does not depend on the cache either. -/
theorem C35_same_tokens (S : Sys F) (w : World) (t : Nat) (hn : (w.tok t).initialized = false)
    (hne : ∀ p, (w.tok t).dictionary = some p → p ≠ cachePath S (w.tok t) (w.tok t).dictionary)
    (hc : ∀ cf x, w.files (cachePath S (w.tok t) (w.tok t).dictionary) = some cf → S.load cf.data = some x →
      ∀ data, dictFile w (w.tok t).dictionary = .ok data → genPfdict data = .ok x)
    (w1 : World) (io : Bool) (h1 : checkInit S w t io = (w1, .ok ())) (ca hm : Bool) (text : PyText) :
    (cutW S w t ca hm text io).2 =
      (cutW S (w.setFile (cachePath S (w.tok t) (w.tok t).dictionary) none) t ca hm text io).2 := by
  have ho : Outdated S w t none := by rintro ⟨h, -⟩; rw [hn] at h; simp at h
  have hci : ∀ a : World, (a.tok t).initialized = false → checkInit S a t io = initTok S a t none io := by
    intro a ha; unfold checkInit; rw [ha]; simp
  obtain ⟨e1, e2⟩ := C35_cache_irrelevant S w t none io ho hne hc
  rw [← hci w hn, ← hci (w.setFile _ none) hn] at e1 e2
  simp only [wanted] at e1 e2
  rw [cutW_checkInit S w w1 t ca hm io text h1]
  cases h2 : checkInit S (w.setFile (cachePath S (w.tok t) (w.tok t).dictionary) none) t io with
  | mk w2 r =>
    rw [h1, h2] at e1 e2
    simp only at e1 e2
    subst e1
    rw [cutW_checkInit S _ w2 t ca hm io text h2]
    have hforce : ∀ a b : World, checkInit S a t io = (b, .ok ()) → b.force = a.force := by
      intro a b hab
      rcases checkInit_prim S ⟨fun _ _ _ _ _ => False, fun _ => False, fun _ _ => False, fun _ => False, fun _ => False⟩ a t io with
        ⟨e, g, -⟩ | ⟨w', g, -, rfl | ⟨hp, -⟩⟩
      · rw [g] at hab; simp at hab
      · rw [g] at hab; simp at hab; rw [← hab]
      · rw [g] at hab; simp at hab; subst hab
        cases hp with
        | add _ _ _ _ _ hp => exact hp.elim
        | load => rfl
        | build => rfl
        | buildDump => rfl
        | retarget _ _ hp => exact hp.elim
        | new _ _ hp => exact hp.elim
        | write _ _ hp => exact hp.elim
        | remove _ hp => exact hp.elim
        | tick => rfl
    have f1 := hforce _ _ h1
    have f2 := hforce _ _ h2
    unfold World.env
    rw [e2, f1, f2]
    rfl

/-- The sample world after a first initialisation has a coherent cache; a new tokenizer reads it. -/
example : let w := (initTok sampleSys sampleWorld 0 none true).1
    (w.tok 1).initialized = false ∧ (w.files (defaultCache sampleSys none)).isSome = true ∧
    (∀ cf x, w.files (defaultCache sampleSys none) = some cf → sampleSys.load cf.data = some x →
      genPfdict w.defaultDict = .ok x) := by
  refine ⟨by decide +kernel, by decide +kernel, ?_⟩
  intro cf x h1 h2
  have : ∀ cf, (initTok sampleSys sampleWorld 0 none true).1.files (defaultCache sampleSys none) = some cf →
      (sampleSys.load cf.data).map Except.ok = some (genPfdict sampleWorld.defaultDict) := by
    intro cf h
    have e : (initTok sampleSys sampleWorld 0 none true).1.files (defaultCache sampleSys none) =
        some ⟨sampleDump ([(lit ['北', '京'], 40), (lit ['北'], 0), (lit ['大', '学'], 32), (lit ['大'], 0)], 72), 5⟩ := by
      decide +kernel
    rw [e] at h
    injection h with h
    subst h
    decide +kernel
  have h := this cf h1
  rw [h2] at h
  simp at h
  exact h.symm

/-! ## C39 -/

/-- C39: after any history, `set_dictionary(p)` on an existing file succeeds, and the next segmentation with that
tokenizer (whatever was added or deleted before) uses exactly the words of the file; only the force-split set of `finalseg`
is kept.  If the file is malformed, the next use raises. -/
theorem C39_set_dictionary (S : Sys F) (D : Path → Prop) (hD : CacheNames S D) (w : World) (hw : CacheInv S D w)
    (ops : List Op) (hops : ∀ op ∈ ops, KeepsCaches S D op) (t : Nat) (p : Path) (hp : D (S.abspath p)) (f : File)
    (hf : (runOps S w ops).files (S.abspath p) = some f) :
    ∃ w1, setDictionary S (runOps S w ops) t p = (w1, .ok ()) ∧
      (∀ x, genPfdict f.data = .ok x → ∀ ca hm text io, (cutW S w1 t ca hm text io).2 =
        cut ⟨S.A, x.1, x.2, S.tables, (runOps S w ops).force⟩ ca hm (strdecode S.gbk text)) ∧
      (∀ e, genPfdict f.data = .error e → ∀ io, ∃ w2 e', checkInit S w1 t io = (w2, .error e')) := by
  have hi := cacheInv_runOps S D hD w hw ops hops
  generalize runOps S w ops = v at *
  refine ⟨v.setTok t { v.tok t with dictionary := some (S.abspath p), initialized := false }, ?_, ?_⟩
  · unfold setDictionary; rw [hf]
  generalize hv1 : v.setTok t { v.tok t with dictionary := some (S.abspath p), initialized := false } = v1
  have htok : v1.tok t = { v.tok t with dictionary := some (S.abspath p), initialized := false } := by rw [← hv1]; simp
  have hfiles : v1.files = v.files := by rw [← hv1]; rfl
  have hforce : v1.force = v.force := by rw [← hv1]; rfl
  have hi' : CacheInv S D v1 := by
    rw [← hv1]
    refine ⟨?_, ?_, hi.custom, hi.default, hi.past⟩
    · intro u q
      by_cases hu : u = t
      · subst hu; simp only [setTok_tok_self, Option.some.injEq]; rintro rfl; exact hp
      · rw [setTok_tok_ne _ _ _ _ hu]; exact hi.dict u q
    · intro u
      by_cases hu : u = t
      · subst hu; simp only [setTok_tok_self]; exact hi.plain u
      · rw [setTok_tok_ne _ _ _ _ hu]; exact hi.plain u
  have hci : ∀ io, checkInit S v1 t io = initLocked S v1 t (v1.tok t).dictionary io := by
    intro io; unfold checkInit; rw [htok]; simp [initTok, htok]
  have hdata : dictFile v1 (v1.tok t).dictionary = .ok f.data := by
    rw [htok]; simp [dictFile, hfiles, hf]
  have hcurrent : ∀ io w2, checkInit S v1 t io = (w2, .ok ()) → ∃ x, genPfdict f.data = .ok x ∧
      (w2.tok t).freq = x.1 ∧ (w2.tok t).total = x.2 ∧ w2.force = v.force := by
    intro io w2 h
    rw [hci] at h
    obtain ⟨data, x, h1, h2, h3, h4⟩ := initLocked_current S D v1 w2 t io hi' (by rw [htok]) h
    rw [hdata] at h1
    injection h1 with h1
    subst h1
    exact ⟨x, h2, by rw [h3], by rw [h3], by rw [h4, hforce]⟩
  constructor
  · intro x hx ca hm text io
    have hok : ∃ w2, checkInit S v1 t io = (w2, .ok ()) := by
      rw [hci]
      unfold initLocked
      rw [htok]
      simp only [Bool.false_eq_true, if_false]
      have hu : ∀ c, ∃ cf, cacheUsable v1 (some (S.abspath p)) c = .ok cf := by
        intro c
        unfold cacheUsable
        cases v1.files c with
        | none => exact ⟨_, rfl⟩
        | some cf => simp only [hfiles, hf]; exact ⟨_, rfl⟩
      obtain ⟨cf, hcf⟩ := hu (cachePath S { v.tok t with dictionary := some (S.abspath p), initialized := false } (some (S.abspath p)))
      rw [hcf]
      simp only []
      cases cf.bind (fun f => S.load f.data) with
      | some y => exact ⟨_, rfl⟩
      | none =>
        unfold buildDict
        simp only [hdata, hx]
        exact ⟨_, rfl⟩
    obtain ⟨w2, h2⟩ := hok
    rw [cutW_checkInit S v1 w2 t ca hm io text h2]
    obtain ⟨y, hy, h3, h4, h5⟩ := hcurrent io w2 h2
    rw [hx] at hy
    injection hy with hy
    subst hy
    unfold World.env
    rw [h3, h4, h5]
  · intro e he io
    cases h : checkInit S v1 t io with
    | mk w2 r =>
      cases r with
      | error e' => exact ⟨w2, e', rfl⟩
      | ok u =>
        obtain ⟨x, hx, -⟩ := hcurrent io w2 h
        rw [he] at hx; simp at hx

/-- C39: a path that does not exist raises and changes nothing. -/
theorem C39_missing_path (S : Sys F) (w : World) (t : Nat) (p : Path) (h : w.files (S.abspath p) = none) :
    setDictionary S w t p = (w, .error .exception) := by
  unfold setDictionary; rw [h]

/-- The words added before are gone, those of the file are there. -/
example : let w := runOps sampleSys sampleWorld [.addWord 0 (.str (lit ['我', '来'])) (.int 9) none true,
      .write (lit ['/', 'd']) [97, 32, 51, 10]]
    PyDict.get? (w.tok 0).freq (lit ['我', '来']) = some 9 ∧
    PyDict.get? ((checkInit sampleSys (setDictionary sampleSys w 0 (lit ['/', 'd'])).1 0 true).1.tok 0).freq (lit ['我', '来']) = none ∧
    PyDict.get? ((checkInit sampleSys (setDictionary sampleSys w 0 (lit ['/', 'd'])).1 0 true).1.tok 0).freq (lit ['a']) = some 3 := by
  decide +kernel

end Jieba.Props
