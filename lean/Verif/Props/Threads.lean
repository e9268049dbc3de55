import Verif.Proofs.ThreadsFiles
import Verif.Proofs.ThreadsOnce
import Verif.Props.SampleWorld
/-!
# C33, C36, C37, C38, C62, C63: crashes and threads
-/

set_option linter.unusedSectionVars false

namespace Jieba.Props
open Jieba Jieba.Spec Jieba.Threads

variable {F : Type _} [LinearOrder F]

/-! ## C33 -/

/-- Events of a run in which nobody else touches `c0` or temporary files, and all dictionaries that can be read parse to values
allowed by `P`. -/
def leavesAlone (tmp : Path → Prop) (c0 : Path) (P : Freq × Int → Prop) (s : St) (e : Ev) : Prop :=
  (∀ d data x, dictFile s.w d = .ok data → genPfdict data = .ok x → P x) ∧
  match e with
  | .step _ (.name q _) => tmp q
  | .write p _ => ¬ tmp p ∧ p ≠ c0
  | .remove p => ¬ tmp p ∧ p ≠ c0
  | _ => True

/-- C33: wherever an execution stops, with any number of threads and tokenizers and whatever I/O errors occurred, a cache file is
what it was or a complete dump of a complete dictionary. -/
theorem C33_crash (S : Sys F) (w0 : World) (tmp : Path → Prop) (c0 : Path) (P : Freq × Int → Prop) (hc : ¬ tmp c0)
    (hcache : ∀ t a x, x.tmpDir = (w0.tok t).tmpDir → x.cacheFile = (w0.tok t).cacheFile → ¬ tmp (cachePath S x a)) (s : St)
    (h : Run S (leavesAlone tmp c0 P) (St.init w0) s) :
    s.w.files c0 = w0.files c0 ∨ ∃ x m, P x ∧ s.w.files c0 = some ⟨S.dump x, m⟩ := by
  let C : Ctx := ⟨fun _ _ => True, fun _ c => ¬ tmp c, fun _ => P, fun p f => p = c0 → f = w0.files c0, tmp⟩
  have hrun : Run S (C.allows S) (St.init w0) s := by
    refine h.mono ?_
    rintro s e ⟨h1, h2⟩
    refine ⟨fun t d data x _ => h1 d data x, ?_⟩
    cases e with
    | start i c => cases c with
      | check t => trivial
      | init t d => cases d with
        | none => trivial
        | some p => cases p <;> trivial
      | setDict t p => trivial
    | step i ch => cases ch <;> first | trivial | exact h2
    | write p data => exact ⟨h2.1, fun hp => absurd hp h2.2⟩
    | remove p => exact ⟨h2.1, fun hp => absurd hp h2.2⟩
    | tick => trivial
  have hG := finv_run C S w0 (fun t a x _ => hcache t a x) (fun t c h => h) (fun _ => trivial)
    (fun c _ hcc => by rw [hcc]) s hrun
  rcases hG.files c0 hc with h | ⟨t, x, m, -, h1, h2⟩
  · exact Or.inl (h rfl)
  · exact Or.inr ⟨x, m, h1, h2⟩

/-! ## C37 -/

/-- C37: as long as some call has not returned, some thread in a call can make a step. -/
theorem C37_no_deadlock (S : Sys F) (w0 : World) (s : St) (h : Run S (fun _ _ => True) (St.init w0) s) (i : Nat)
    (hi : (s.th i).active = true) : ∃ j ch s', (s.th j).active = true ∧ (Ev.step j ch).run S s = some s' := by
  obtain ⟨j, h1, ch, s', h2⟩ := progress S s (lockInv_run S _ w0 s h) i hi
  exact ⟨j, ch, s', h1, h2⟩

/-- C37: without new calls, executions of threads `0 .. n-1` have bounded length. -/
theorem C37_no_livelock (S : Sys F) (n : Nat) (es : List (Nat × Choice)) (s s' : St) (hn : ∀ e ∈ es, e.1 < n)
    (h : runEvs S s (es.map (fun e => .step e.1 e.2)) = some s') : es.length + work n s' ≤ work n s := by
  induction es generalizing s with
  | nil => simp [runEvs] at h; subst h; simp
  | cons e es ih =>
    simp only [List.map_cons, runEvs] at h
    split at h
    · simp at h
    · next s1 h1 =>
      have h2 := work_step S n e.1 e.2 s s1 h1 (hn e List.mem_cons_self)
      have h3 := ih s1 (fun e he => hn e (List.mem_cons_of_mem _ he)) h
      simp only [List.length_cons]; omega

theorem work_zero (n : Nat) (s : St) (h : work n s = 0) (i : Nat) (hi : i < n) : (s.th i).active = false := by
  have : ∀ l : List Nat, (l.map (fun i => (s.th i).rank)).sum = 0 → ∀ i ∈ l, (s.th i).rank = 0 := by
    intro l
    induction l with
    | nil => simp
    | cons a l ih =>
      intro h i hi
      simp only [List.map_cons, List.sum_cons] at h
      rcases List.mem_cons.mp hi with rfl | hi
      · omega
      · exact ih (by omega) i hi
  have h0 := this _ h i (List.mem_range.mpr hi)
  generalize s.th i = pc at h0
  cases pc with
  | idle r => rfl
  | cs t k => exfalso; cases k with
    | bld L b => cases b <;> simp [PC.rank, CS.rank, Bld.rank] at h0
    | _ => simp [PC.rank, CS.rank] at h0
  | _ => simp [PC.rank] at h0

/-- C37: every state that threads `0 .. n-1` can get into can be continued, by their steps alone, until all calls have returned. -/
theorem C37_all_calls_return (S : Sys F) (w0 : World) (s : St) (n : Nat) (h : Run S (fun _ _ => True) (St.init w0) s)
    (hn : ∀ i, (s.th i).active = true → i < n) :
    ∃ (es : List (Nat × Choice)) (s' : St), runEvs S s (es.map (fun e => Ev.step e.1 e.2)) = some s' ∧ ∀ i, (s'.th i).active = false := by
  induction hw : work n s using Nat.strongRecOn generalizing s with
  | _ m ih =>
    by_cases hex : ∃ i, (s.th i).active = true
    · obtain ⟨i, hi⟩ := hex
      obtain ⟨j, ch, s1, h1, h2⟩ := C37_no_deadlock S w0 s h i hi
      have hlt := work_step S n j ch s s1 h2 (hn j h1)
      have hn1 : ∀ i, (s1.th i).active = true → i < n := by
        intro i hi
        by_cases hij : i = j
        · subst hij; exact hn i h1
        · rw [(step_rank S j ch s s1 h2).2 i hij] at hi; exact hn i hi
      obtain ⟨es, s', h3, h4⟩ := ih (work n s1) (hw ▸ hlt) s1 (.step _ h trivial h2) hn1 rfl
      refine ⟨(j, ch) :: es, s', ?_, h4⟩
      simp only [List.map_cons, runEvs, h2]
      exact h3
    · refine ⟨[], s, rfl, fun i => ?_⟩
      cases hi : (s.th i).active with
      | false => rfl
      | true => exact absurd ⟨i, hi⟩ hex

/-! ## C36 -/

/-- C36: with any number of threads calling `initialize()` / `check_initialized()` on tokenizer `t` (and doing anything on other
tokenizers), `FREQ` is assigned at most once, and whenever `initialized` is seen, both `FREQ` and `total` are complete. -/
theorem C36_built_once (S : Sys F) (w0 : World) (t : Nat) (P : Freq × Int → Prop) (hi : (w0.tok t).initialized = false) (s : St)
    (h : Run S (onlyInit S t (w0.tok t).dictionary (cachePath S (w0.tok t) (w0.tok t).dictionary) P) (St.init w0) s) :
    s.built t ≤ 1 ∧ ((s.w.tok t).initialized = true → s.built t = 1 ∧ P ((s.w.tok t).freq, (s.w.tok t).total)) := by
  have hG := oinv_run t _ _ P S w0 rfl hi (fun x h1 h2 => by unfold cachePath; rw [h1, h2]) s h
  rcases oinv_cases t _ _ P w0 s hG with ⟨h1, h2⟩ | ⟨h1, h2, h3⟩
  · exact ⟨h2, fun h => by rw [h1] at h; exact Bool.noConfusion h⟩
  · exact ⟨by omega, fun _ => ⟨h2, h3⟩⟩

/-- C36: a call on `t` that returns without exception leaves `t` initialised. -/
theorem C36_return (S : Sys F) (w0 : World) (t : Nat) (P : Freq × Int → Prop) (hi : (w0.tok t).initialized = false) (s s' : St)
    (h : Run S (onlyInit S t (w0.tok t).dictionary (cachePath S (w0.tok t) (w0.tok t).dictionary) P) (St.init w0) s)
    (i : Nat) (ch : Choice) (hs : (Ev.step i ch).run S s = some s') (ht : (s.th i).tok = some t)
    (hr : s'.th i = .idle (some none)) : (s'.w.tok t).initialized = true :=
  oinv_return t _ _ P S w0 i ch s s' (oinv_run t _ _ P S w0 rfl hi (fun x h1 h2 => by unfold cachePath; rw [h1, h2]) s h) hs ht hr

/-- C36: once `t` is initialised, nothing changes it any more. -/
theorem C36_published (S : Sys F) (w0 : World) (t : Nat) (P : Freq × Int → Prop) (hi : (w0.tok t).initialized = false) (s s' : St)
    (h : Run S (onlyInit S t (w0.tok t).dictionary (cachePath S (w0.tok t) (w0.tok t).dictionary) P) (St.init w0) s)
    (hinit : (s.w.tok t).initialized = true)
    (h' : Run S (onlyInit S t (w0.tok t).dictionary (cachePath S (w0.tok t) (w0.tok t).dictionary) P) s s') :
    s'.w.tok t = s.w.tok t := by
  have hc0 : ∀ x : Tok, x.tmpDir = (w0.tok t).tmpDir → x.cacheFile = (w0.tok t).cacheFile →
      cachePath S x (w0.tok t).dictionary = cachePath S (w0.tok t) (w0.tok t).dictionary :=
    fun x h1 h2 => by unfold cachePath; rw [h1, h2]
  have hG := oinv_run t _ _ P S w0 rfl hi hc0 s h
  have := run_inv S _ (fun s1 => OInv t (w0.tok t).dictionary (cachePath S (w0.tok t) (w0.tok t).dictionary) P w0 s1 ∧
    s1.w.tok t = s.w.tok t) s s' h' ⟨hG, rfl⟩ (by
      rintro s1 s2 e ⟨g1, g2⟩ hq he
      refine ⟨oinv_ev t _ _ P S w0 hc0 e s1 s2 g1 hq he, ?_⟩
      rw [oinv_stable t _ _ P S w0 e s1 s2 g1 he (by rw [g2]; exact hinit), g2])
  exact this.2

/-! ## C38 -/

/-- The contents of dictionary `d` in world `w0`. -/
def Parsed (w0 : World) (d : Option Path) (x : Freq × Int) : Prop := ∃ data, dictFile w0 d = .ok data ∧ genPfdict data = .ok x

/-- The cache file of tokenizer `t`. -/
def cacheOf (S : Sys F) (w0 : World) (t : Nat) : Path := cachePath S (w0.tok t) (w0.tok t).dictionary

/-- Events of a run in which no tokenizer changes its dictionary and nobody else writes to caches, dictionaries or temporary
files (removing caches is allowed). -/
def keepsPaths (S : Sys F) (w0 : World) (tmp : Path → Prop) (_ : St) (e : Ev) : Prop :=
  match e with
  | .start _ (.init t (some (c :: p))) => (w0.tok t).dictionary = some (S.abspath (c :: p))
  | .start _ (.setDict t p) => (w0.tok t).dictionary = some (S.abspath p)
  | .step _ (.name q _) => tmp q
  | .write p _ => ¬ tmp p ∧ ∀ t, p ≠ cacheOf S w0 t ∧ (w0.tok t).dictionary ≠ some p
  | .remove p => ¬ tmp p ∧ ∀ t, (w0.tok t).dictionary ≠ some p
  | _ => True

theorem csStep_default (S : Sys F) (u : Nat) (w : World) (ch : Choice) (k : CS) (r : World × CS) (h : csStep S u w ch k = some r) :
    r.1.defaultDict = w.defaultDict := by
  cases k with
  | bld L b =>
    simp only [csStep, Option.map_eq_some_iff] at h
    obtain ⟨x, hx, rfl⟩ := h
    cases b <;> simp only [bldStep] at hx <;> (repeat' split at hx) <;> simp only [Option.some.injEq, reduceCtorEq] at hx <;>
      subst hx <;> rfl
  | _ =>
    simp only [csStep] at h
    repeat' split at h
    all_goals first
      | (simp only [reduceCtorEq] at h; done)
      | (simp only [Option.some.injEq] at h; subst h; rfl)

theorem ev_default (S : Sys F) (e : Ev) (s s' : St) (h : e.run S s = some s') : s'.w.defaultDict = s.w.defaultDict := by
  cases e with
  | start i c =>
    simp only [Ev.run] at h
    split at h
    · simp only [Option.some.injEq] at h; subst h; rfl
    · simp at h
  | step i ch =>
    have sh := step_shape S i ch s s' h
    generalize s.th i = pc at sh
    cases sh with
    | loc t k w' k' hk h1 => exact csStep_default S t s.w ch k _ h1
    | _ => rfl
  | write p data => simp only [Ev.run, Option.some.injEq] at h; subst h; rfl
  | remove p => simp only [Ev.run, Option.some.injEq] at h; subst h; rfl
  | tick => simp only [Ev.run, Option.some.injEq] at h; subst h; rfl

/-- The assumptions on names: caches of different dictionaries differ, and temporary names, dictionaries and caches are different
from each other; and what a cache holds at the beginning is right, if it can be read at all. -/
structure Names (S : Sys F) (w0 : World) (tmp : Path → Prop) : Prop where
  cache_tmp : ∀ t, ¬ tmp (cacheOf S w0 t)
  dict_tmp : ∀ t p, (w0.tok t).dictionary = some p → ¬ tmp p
  cache_dict : ∀ t u p, (w0.tok t).dictionary = some p → cacheOf S w0 u ≠ p
  cache_inj : ∀ t u, cacheOf S w0 t = cacheOf S w0 u → (w0.tok t).dictionary = (w0.tok u).dictionary
  good : ∀ t f x, w0.files (cacheOf S w0 t) = some f → S.load f.data = some x → Parsed w0 (w0.tok t).dictionary x

def keepCtx (S : Sys F) (w0 : World) (tmp : Path → Prop) : Ctx :=
  ⟨fun t d => d = (w0.tok t).dictionary, fun t c => c = cacheOf S w0 t, fun t x => Parsed w0 (w0.tok t).dictionary x,
    fun p f => (∀ t, p = cacheOf S w0 t → ∀ f' x, f = some f' → S.load f'.data = some x → Parsed w0 (w0.tok t).dictionary x) ∧
      (∀ t, (w0.tok t).dictionary = some p → f = w0.files p), tmp⟩

theorem keep_inv (S : Sys F) (w0 : World) (tmp : Path → Prop) (hN : Names S w0 tmp) (s : St)
    (h : Run S (keepsPaths S w0 tmp) (St.init w0) s) :
    FInv (keepCtx S w0 tmp) S w0 s ∧ ∀ t, dictFile s.w (w0.tok t).dictionary = dictFile w0 (w0.tok t).dictionary := by
  have key : ∀ s, FInv (keepCtx S w0 tmp) S w0 s → s.w.defaultDict = w0.defaultDict →
      ∀ t, dictFile s.w (w0.tok t).dictionary = dictFile w0 (w0.tok t).dictionary := by
    intro s hG hd t
    cases hD : (w0.tok t).dictionary with
    | none => simp [dictFile, hd]
    | some p =>
      have hf : s.w.files p = w0.files p := by
        rcases hG.files p (hN.dict_tmp t p hD) with h | ⟨u, x, m, h1, -⟩
        · exact h.2 t hD
        · exact absurd h1.symm (hN.cache_dict t u p hD)
      simp [dictFile, hf]
  have := run_inv S _ (fun s => FInv (keepCtx S w0 tmp) S w0 s ∧ s.w.defaultDict = w0.defaultDict) _ s h ?_ ?_
  · exact ⟨this.1, key s this.1 this.2⟩
  · refine ⟨⟨lockInv_init w0, fun _ => ⟨rfl, rfl⟩, fun _ => rfl, fun _ => trivial, ?_, fun c hc => Or.inl ?_⟩, rfl⟩
    · intro i j q h; simp [St.init, tempOf] at h
    · refine ⟨?_, fun _ _ => rfl⟩
      rintro t rfl f x hf hx
      exact hN.good t f x hf hx
  · rintro s s' e ⟨hG, hd⟩ hq he
    refine ⟨finv_ev _ S w0 ?_ ?_ e s s' hG ?_ he, by rw [ev_default S e s s' he, hd]⟩
    · rintro t a x rfl h1 h2
      change cachePath S x _ = cachePath S (w0.tok t) _
      unfold cachePath; rw [h1, h2]
    · rintro t c rfl; exact hN.cache_tmp t
    · refine ⟨?_, ?_⟩
      · rintro t d data x rfl h1 h2
        rw [key s hG hd t] at h1
        exact ⟨data, h1, h2⟩
      · cases e with
        | start i c => cases c with
          | check t => trivial
          | init t d => cases d with
            | none => trivial
            | some p => cases p with
              | nil => trivial
              | cons c p => exact Eq.symm hq
          | setDict t p => exact Eq.symm hq
        | step i ch => cases ch <;> first | trivial | exact hq
        | write p data => exact ⟨hq.1, fun t ht => absurd ht (hq.2 t).1, fun t ht => absurd ht (hq.2 t).2⟩
        | remove p => exact ⟨hq.1, fun t _ f x hf => by simp at hf, fun t ht => absurd ht (hq.2 t)⟩
        | tick => trivial

/-- C38, positive part: if no tokenizer changes its dictionary, then under every interleaving every cache holds the contents of its
dictionary, if it can be read at all. -/
theorem C38_cache_holds_dictionary (S : Sys F) (w0 : World) (tmp : Path → Prop) (hN : Names S w0 tmp) (s : St)
    (h : Run S (keepsPaths S w0 tmp) (St.init w0) s) (t : Nat) (f : File) (x : Freq × Int)
    (hf : s.w.files (cacheOf S w0 t) = some f) (hx : S.load f.data = some x) : Parsed w0 (w0.tok t).dictionary x := by
  obtain ⟨hG, -⟩ := keep_inv S w0 tmp hN s h
  rcases hG.files _ (hN.cache_tmp t) with h | ⟨u, y, m, h1, h2, h3⟩
  · exact h.1 t rfl f x hf hx
  · rw [hf] at h3
    simp only [Option.some.injEq] at h3
    subst h3
    rw [S.load_dump] at hx
    simp only [Option.some.injEq] at hx
    subst hx
    have h1' : cacheOf S w0 t = cacheOf S w0 u := h1
    rw [hN.cache_inj t u h1']
    exact h2

/-- C36 and C38 together: an initialised tokenizer has the words of its dictionary, under every interleaving of threads that
initialise tokenizers (`initialize()`, `check_initialized()`). -/
theorem C36_words_of_the_dictionary (S : Sys F) (w0 : World) (tmp : Path → Prop) (hN : Names S w0 tmp) (t : Nat)
    (hi : (w0.tok t).initialized = false) (s : St)
    (h : Run S (fun s e => keepsPaths S w0 tmp s e ∧ match e with
      | .start _ (.init u (some (_ :: _))) => u ≠ t
      | .start _ (.setDict u _) => u ≠ t
      | _ => True) (St.init w0) s) (hinit : (s.w.tok t).initialized = true) :
    Parsed w0 (w0.tok t).dictionary ((s.w.tok t).freq, (s.w.tok t).total) := by
  have hrun : Run S (onlyInit S t (w0.tok t).dictionary (cachePath S (w0.tok t) (w0.tok t).dictionary)
      (Parsed w0 (w0.tok t).dictionary)) (St.init w0) s := by
    clear hinit
    induction h with
    | refl => exact .refl
    | @step s1 s2 e h1 h2 h3 ih =>
      refine .step e ih ?_ h3
      have hk : Run S (keepsPaths S w0 tmp) (St.init w0) s1 := h1.mono (fun _ _ h => h.1)
      refine ⟨⟨?_, ?_⟩, h2.2⟩
      · intro data x g1 g2
        rw [(keep_inv S w0 tmp hN s1 hk).2 t] at g1
        exact ⟨data, g1, g2⟩
      · intro f x g1 g2
        exact C38_cache_holds_dictionary S w0 tmp hN s1 hk t f x g1 g2
  exact ((C36_built_once S w0 t _ hi s hrun).2 hinit).2

/-! Concrete processes: `/d` contains `北京 3`, `/e` contains `大学 5`. -/

def dataD : Bytes := [229, 140, 151, 228, 186, 172, 32, 51, 10]
def dataE : Bytes := [229, 164, 167, 229, 173, 166, 32, 53, 10]

/-- Tokenizers 0 and 1 use `/d`, the others `/e`. -/
def threadWorld : World :=
  { sampleWorld with
    files := fun p => if p = lit ['/', 'd'] then some ⟨dataD, 1⟩ else if p = lit ['/', 'e'] then some ⟨dataE, 2⟩ else none
    tok := fun t => Tok.new (some (if t < 2 then lit ['/', 'd'] else lit ['/', 'e'])) }

def steps (i n : Nat) : List Ev := List.replicate n (.step i .go)

def named (i n : Nat) : List Ev := List.replicate n (.step i (.name (lit ['/', 't', '/', 'q']) 3))

/-- Names ending in `q` are temporary. -/
def isTmp (p : Path) : Prop := p.getLast? = some 'q'.toNat

instance (p : Path) : Decidable (isTmp p) := inferInstanceAs (Decidable (_ = _))

example : Names sampleSys threadWorld isTmp := by
  have hd : ∀ t, (threadWorld.tok t).dictionary = some (if t < 2 then lit ['/', 'd'] else lit ['/', 'e']) := fun t => rfl
  have hc : ∀ t, cacheOf sampleSys threadWorld t = if t < 2 then
      lit ['/', 't', '/', 'j', 'i', 'e', 'b', 'a', '.', 'u', '/', 'd', '.', 'c', 'a', 'c', 'h', 'e'] else
      lit ['/', 't', '/', 'j', 'i', 'e', 'b', 'a', '.', 'u', '/', 'e', '.', 'c', 'a', 'c', 'h', 'e'] := by
    intro t
    unfold cacheOf
    by_cases h : t < 2
    · rw [if_pos h]
      have : threadWorld.tok t = Tok.new (some (lit ['/', 'd'])) := by simp [threadWorld, h]
      rw [this]; decide
    · rw [if_neg h]
      have : threadWorld.tok t = Tok.new (some (lit ['/', 'e'])) := by simp [threadWorld, h]
      rw [this]; decide
  refine ⟨?_, ?_, ?_, ?_, ?_⟩
  · intro t; rw [hc]; split <;> decide
  · intro t p h; rw [hd] at h; simp only [Option.some.injEq] at h; subst h; split <;> decide
  · intro t u p h; rw [hd] at h; simp only [Option.some.injEq] at h; subst h; rw [hc]; split <;> split <;> decide
  · intro t u h
    rw [hc, hc] at h; rw [hd, hd]
    by_cases h1 : t < 2 <;> by_cases h2 : u < 2 <;> simp [h1, h2, lit] at h ⊢
  · intro t f x h
    rw [hc] at h
    exfalso
    split at h <;> simp [threadWorld, lit] at h

end Jieba.Props
