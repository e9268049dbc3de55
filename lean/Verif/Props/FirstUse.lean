import Verif.Proofs.FirstUse
import Verif.Props.CacheFile
import Verif.Props.DictOrder
import Verif.Props.PosCalls
/-!
# C107: the first use of a tokenizer by several threads at the same time

As C106, but when the calls begin nobody has initialised the tokenizer.
-/

namespace Jieba.Props
open Jieba Jieba.Spec Jieba.Lazy Jieba.Pos Jieba.Pos.Steps Jieba.PosData

variable {F : Type} [LinearOrder F]

/-- The table and total that belong to the entries `es`: the last entry for a word counts, and the other beginnings of entries are
there with frequency 0. -/
def TableOf (es : List (Str × Int)) (x : Freq × Int) : Prop :=
  x.2 = (es.map Prod.snd).sum ∧ ∀ v, x.1.get? v = match lastFreq es v with
    | some f => some f
    | none => if StartsEntry es v then some 0 else none

/-- The process can start: the tables of the tagger are those shipped; the tokenizer is not initialised, `c` is the path of its cache
file; a cache file that can be loaded is either too old or holds the table of the dictionary file; the lines of the dictionary file are
the entries `es`, with frequencies that are not negative and not all zero; the arguments of the calls are as they should be, and no user
dictionary is the cache file. -/
structure FirstUse (P : PSys F) (t : Nat) (p : PWorld) (calls : List PCall) (c : Path) (es : List (Str × Int)) : Prop where
  sign : SignOk P.sys.A
  tables : Shipped P.tables
  order : ∀ s t l, (P.σ s t l).Perm l
  init : (p.w.tok t).initialized = false
  cache : CacheAt P.sys.tempdir P.sys.md5 (p.w.tok t).tmpDir (p.w.tok t).cacheFile (p.w.tok t).dictionary c
  cached : ∀ cf, p.w.files c = some cf → P.sys.load cf.data = none ∨
    (∃ q df, (p.w.tok t).dictionary = some q ∧ p.w.files q = some df ∧ cf.mtime ≤ df.mtime) ∨
    ∃ x, P.sys.load cf.data = some x ∧ TableOf es x
  file : ∃ data ls, dictFile p.w (p.w.tok t).dictionary = .ok data ∧ FileLines data ls ∧ List.Forall₂ (fun l e => DictEntry l e.1 e.2) ls es
  nonneg : ∀ e ∈ es, 0 ≤ e.2
  positive : ∃ e ∈ es, 0 < e.2
  args : ∀ c ∈ calls, PCallOk t p c
  paths : ∀ q, .tok (.loadUserdict (.path q)) ∈ calls → q ≠ c

theorem dictFile_table (data : Bytes) (ls : List Bytes) (es : List (Str × Int)) (hl : FileLines data ls)
    (he : List.Forall₂ (fun l e => DictEntry l e.1 e.2) ls es) :
    ∃ d, genPfdict data = .ok (d, (es.map Prod.snd).sum) ∧ ∀ v, d.get? v = match lastFreq es v with
      | some f => some f
      | none => if StartsEntry es v then some 0 else none := by
  have h0 : (fileLines data).map dictLine = es.map some := by
    rw [(fileLines_iff _ _).mp hl]
    exact (map_some_iff _ _ _).mpr (he.imp (fun l e h => (dictEntry_iff l e.1 e.2).mp h))
  rcases gen_load data with ⟨es1, h1, h2⟩ | ⟨⟨l, h1, h2⟩, -⟩
  · rw [h0] at h1
    have : es = es1 := List.map_injective_iff.mpr (Option.some_injective _) h1
    rw [this]; exact h2
  · exfalso
    have : none ∈ (fileLines data).map dictLine := List.mem_map.mpr ⟨l, h1, h2⟩
    rw [h0] at this
    simp at this

theorem lastFreq_mem (es : List (Str × Int)) (v : Str) (f : Int) (h : lastFreq es v = some f) : (v, f) ∈ es := by
  unfold lastFreq at h
  obtain ⟨a, ha, rfl⟩ := Option.map_eq_some_iff.mp h
  have h1 := List.mem_of_find?_eq_some ha
  have h2 : a.1 = v := by simpa using List.find?_some ha
  rw [List.mem_reverse] at h1
  rw [← h2]
  exact h1

theorem sum_positive (es : List (Str × Int)) (h0 : ∀ e ∈ es, 0 ≤ e.2) (h1 : ∃ e ∈ es, 0 < e.2) : 0 < (es.map Prod.snd).sum := by
  induction es with
  | nil => obtain ⟨e, he, -⟩ := h1; simp at he
  | cons a es ih =>
    simp only [List.map_cons, List.sum_cons]
    have ha := h0 a (by simp)
    have hs : 0 ≤ (es.map Prod.snd).sum := List.sum_nonneg (by
      intro x hx
      obtain ⟨e, he, rfl⟩ := List.mem_map.mp hx
      exact h0 e (by simp [he]))
    obtain ⟨e, he, hp⟩ := h1
    rcases List.mem_cons.mp he with rfl | he
    · omega
    · have := ih (fun e he => h0 e (by simp [he])) ⟨e, he, hp⟩
      omega

/-- What initialising a tokenizer does when the cache file, if it is used, is right. -/
theorem init_builds (S : Sys F) (w : World) (t : Nat) (io : Bool) (hi : (w.tok t).initialized = false) (c : Path)
    (hc : CacheAt S.tempdir S.md5 (w.tok t).tmpDir (w.tok t).cacheFile (w.tok t).dictionary c) (es : List (Str × Int))
    (hno : ∀ cf, w.files c = some cf → S.load cf.data = none ∨
      (∃ p df, (w.tok t).dictionary = some p ∧ w.files p = some df ∧ cf.mtime ≤ df.mtime) ∨
      ∃ x, S.load cf.data = some x ∧ TableOf es x)
    (data : Bytes) (hd : dictFile w (w.tok t).dictionary = .ok data) (y : Freq × Int) (hy : genPfdict data = .ok y) (hty : TableOf es y) :
    ∃ x, TableOf es x ∧
    (checkInit S w t io).2 = .ok () ∧ ((checkInit S w t io).1.tok t).initialized = true ∧ ((checkInit S w t io).1.tok t).freq = x.1 ∧
    ((checkInit S w t io).1.tok t).total = x.2 ∧ ∀ p, p ≠ c → (checkInit S w t io).1.files p = w.files p := by
  rw [cacheAt_iff] at hc
  subst hc
  have hu : ∃ cf, cacheUsable w (w.tok t).dictionary (cachePath S (w.tok t) (w.tok t).dictionary) = .ok cf ∧
      (cf.bind (fun f => S.load f.data) = none ∨ ∃ x, cf.bind (fun f => S.load f.data) = some x ∧ TableOf es x) := by
    unfold cacheUsable
    cases hf : w.files (cachePath S (w.tok t) (w.tok t).dictionary) with
    | none => exact ⟨none, rfl, Or.inl rfl⟩
    | some cf =>
      cases hdd : (w.tok t).dictionary with
      | none =>
        refine ⟨some cf, rfl, ?_⟩
        rcases hno cf hf with h | ⟨p, df, h, -⟩ | h
        · exact Or.inl (by simpa using h)
        · rw [hdd] at h; cases h
        · exact Or.inr h
      | some p =>
        rw [hdd] at hd
        unfold dictFile at hd
        cases hp : w.files p with
        | none => simp [hp] at hd
        | some df =>
          simp only [hp]
          by_cases hlt : df.mtime < cf.mtime
          · rw [if_pos hlt]
            refine ⟨_, rfl, ?_⟩
            rcases hno cf hf with h | ⟨q, dg, h, h', h''⟩ | h
            · exact Or.inl (by simpa using h)
            · rw [hdd] at h
              cases h
              rw [hp] at h'
              cases h'
              exact absurd hlt (Nat.not_lt.mpr h'')
            · exact Or.inr h
          · rw [if_neg hlt]; exact ⟨none, rfl, Or.inl rfl⟩
  obtain ⟨cf, hu, hl | ⟨x, hl, hx⟩⟩ := hu
  · refine ⟨y, hty, ?_⟩
    unfold checkInit initTok initLocked buildDict
    simp only [hi, Bool.false_eq_true, if_false, hu, hl, hd, hy]
    cases io
    · refine ⟨trivial, ?_, ?_, ?_, ?_⟩ <;> simp [markInit_tok]
    · refine ⟨trivial, ?_, ?_, ?_, ?_⟩
      · simp [markInit, World.setTok]
      · simp [markInit, World.setTok, World.setFile]
      · simp [markInit, World.setTok, World.setFile]
      · intro p hp
        simp [setFile_files, hp]
  · refine ⟨x, hx, ?_⟩
    unfold checkInit initTok initLocked
    simp only [hi, Bool.false_eq_true, if_false, hu, hl]
    refine ⟨trivial, ?_, ?_, ?_, ?_⟩ <;> simp [markInit_tok]

theorem tableOf_prefixClosed (es : List (Str × Int)) (x : Freq × Int) (h : TableOf es x) : PrefixClosed x.1 := by
  have key : ∀ v, StartsEntry es v → x.1.has v = true := by
    intro v hv
    rw [PyDict.has_iff, h.2 v]
    cases lastFreq es v with
    | some f => exact ⟨f, rfl⟩
    | none => exact ⟨0, if_pos hv⟩
  intro w hw p hp hpw
  apply key
  rw [PyDict.has_iff] at hw
  obtain ⟨f, hf⟩ := hw
  rw [h.2 w] at hf
  cases hl : lastFreq es w with
  | some g => exact ⟨hp, _, lastFreq_mem es w g hl, hpw⟩
  | none =>
    rw [hl] at hf
    simp only [] at hf
    split at hf
    · next hs => obtain ⟨-, e, he, hwe⟩ := hs; exact ⟨hp, e, he, hpw.trans hwe⟩
    · cases hf

/-- The user dictionaries of the calls. -/
def UsedDict (calls : List PCall) (f : UserDict) : Prop := .tok (.loadUserdict f) ∈ calls

theorem firstUse_startable (P : PSys F) (t : Nat) (io : Bool) (p : PWorld) (calls : List PCall) (c : Path) (es : List (Str × Int))
    (h : FirstUse P t p calls c es) : Startable P.sys t io p (UsedDict calls) ∧
      PrefixClosed ((checkInit P.sys p.w t io).1.tok t).freq ∧ ∀ e ∈ es, ((checkInit P.sys p.w t io).1.tok t).freq.has e.1 = true := by
  obtain ⟨data, ls, h1, h2, h3⟩ := h.file
  obtain ⟨d, h4, h5⟩ := dictFile_table data ls es h2 h3
  obtain ⟨x, hx, g1, g2, g3, g4, g5⟩ := init_builds P.sys p.w t io h.init c h.cache es h.cached data h1 _ h4 ⟨rfl, h5⟩
  replace h5 := hx.2
  refine ⟨⟨h.init, g1, ⟨g2, ?_, ?_⟩, fun f hf => ?_⟩, ?_, fun e he => ?_⟩
  · show NonNeg ((checkInit P.sys p.w t io).1.tok t).freq
    rw [g3]
    intro v y hy
    rw [h5 v] at hy
    cases hv : lastFreq es v with
    | some f =>
      rw [hv] at hy
      cases hy
      exact h.nonneg _ (lastFreq_mem es v _ hv)
    | none =>
      rw [hv] at hy
      simp only [] at hy
      split at hy
      · cases hy; exact le_refl _
      · cases hy
  · show 0 < ((checkInit P.sys p.w t io).1.tok t).total
    rw [g4, hx.1]
    exact sum_positive es h.nonneg h.positive
  · cases f with
    | path q => exact congrArg (Option.map _) (g5 q (h.paths q hf))
    | file d => rfl
    | lines l => rfl
  · rw [g3]; exact tableOf_prefixClosed es x hx
  · rw [g3]
    have := h5 e.1
    rw [PyDict.has_iff]
    cases hv : lastFreq es e.1 with
    | some f => rw [hv] at this; exact ⟨f, this⟩
    | none =>
      exfalso
      unfold lastFreq at hv
      rw [Option.map_eq_none_iff, List.find?_eq_none] at hv
      exact hv e (List.mem_reverse.mpr he) (by simp)

/-- What holds when call number `i` has returned. -/
def IPost (gbk : Bytes → Str) (t : Nat) (p : PWorld) (calls : List PCall) (i : Nat) (r : Option Int) (p' : PWorld) : Prop :=
  ∀ c, calls[i]? = some c → PPost gbk t p.w c r p'.w

theorem firstUse_start (P : PSys F) (t : Nat) (io : Bool) (p : PWorld) (calls : List PCall) (c : Path) (es : List (Str × Int))
    (h : FirstUse P t p calls c es) :
    FirstInv P.sys t io p (UsedDict calls) (IPost P.sys.gbk t p calls) (PPool.start P t io p calls) := by
  have hs := (firstUse_startable P t io p calls c es h).1
  refine Or.inl ⟨FreshP.start, fun i => ?_⟩
  unfold PPool.start IPost
  simp only []
  cases hci : calls[i]? with
  | none => exact fun _ _ c hc => by simp at hc
  | some c =>
    have hmem := List.mem_of_getElem? hci
    have hok := h.args c hmem
    have hQ : ∀ {α : Type} {d : Co PWorld α (Option Int)}, GoodF P.sys t io p (UsedDict calls) (fun r p' => PPost P.sys.gbk t p.w c r p'.w) d →
        GoodF P.sys t io p (UsedDict calls) (fun r p' => ∀ c', some c = some c' → PPost P.sys.gbk t p.w c' r p'.w) d := by
      intro α d hd
      have : (fun (r : Option Int) (p' : PWorld) => ∀ c', some c = some c' → PPost P.sys.gbk t p.w c' r p'.w) =
          fun r p' => PPost P.sys.gbk t p.w c r p'.w := by
        funext r p'
        exact propext ⟨fun h => h c rfl, fun h c' hc' => by cases hc'; exact h⟩
      rw [this]
      exact hd
    refine hQ ?_
    cases c with
    | tok d => exact (call_goodF h.sign hs d hok (fun f hf => by subst hf; exact hmem)).mapOut _
    | tag k hm s =>
      exact GoodF.bind ((pcutL_fine P hs k hok hm (fun _ => detail_ok P h.tables h.order) s).mapOut _) (fun _ _ _ _ _ => rfl)

/-- C107: no call raises. -/
theorem C107_no_exception (P : PSys F) (t : Nat) (io : Bool) (p : PWorld) (calls : List PCall) (c : Path) (es : List (Str × Int))
    (h : FirstUse P t p calls c es) (sched : List Nat) (i : Nat) (e : PyErr) :
    ((PPool.start P t io p calls).run sched).th i ≠ .raise e := by
  intro he
  rcases firstInv_run _ sched (firstUse_start P t io p calls c es h) with ⟨-, h2⟩ | ⟨-, -, v, D, h2, -⟩
  · have := h2 i
    rw [he] at this
    exact this
  · have := (h2 i).1
    rw [he] at this
    exact this

/-- C107: when a call of a method of the tokenizer has returned, its result is as it should be and the words it registers are in the
table. -/
theorem C107_returned (P : PSys F) (t : Nat) (io : Bool) (p : PWorld) (calls : List PCall) (c : Path) (es : List (Str × Int))
    (h : FirstUse P t p calls c es) (sched : List Nat) (i : Nat) (d : Call) (hd : calls[i]? = some (.tok d)) (r : Option Int)
    (hr : ((PPool.start P t io p calls).run sched).th i = .ret r) :
    ResultOk d r ∧ Registered P.sys.gbk p.w (((PPool.start P t io p calls).run sched).p.w.tok t).freq d := by
  rcases firstInv_run _ sched (firstUse_start P t io p calls c es h) with ⟨h1, h2⟩ | ⟨-, -, v, D, h2, -⟩
  · have := h2 i
    rw [hr] at this
    exact this _ (Or.inl h1) _ hd
  · obtain ⟨h2, h3⟩ := h2 i
    rw [hr] at h2
    exact Post.stable (h2.1 _ hd) (h3.1.1 h3.2).2.1

/-- C107: at every moment, either nobody has initialised the tokenizer and nothing of it has changed but the tags of user words, and no
file has changed; or it is initialised, no frequency is negative, the total is positive, and every word of the dictionary file is in the
table. -/
theorem C107_table (P : PSys F) (t : Nat) (io : Bool) (p : PWorld) (calls : List PCall) (c : Path) (es : List (Str × Int))
    (h : FirstUse P t p calls c es) (sched : List Nat) :
    let q := ((PPool.start P t io p calls).run sched).p
    ((∃ x, q.w.tok t = { p.w.tok t with tags := x }) ∧ q.w.files = p.w.files) ∨
    ((q.w.tok t).initialized = true ∧ NonNeg (q.w.tok t).freq ∧ 0 < (q.w.tok t).total ∧ ∀ e ∈ es, (q.w.tok t).freq.has e.1 = true) := by
  intro q
  rcases firstInv_run _ sched (firstUse_start P t io p calls c es h) with ⟨⟨⟨x, h1⟩, -⟩, -⟩ | ⟨⟨h1, -, -, h4⟩, -⟩
  · refine Or.inl ⟨⟨x, ?_⟩, ?_⟩
    · show ((PPool.start P t io p calls).run sched).p.w.tok t = _
      rw [h1, retag_tok]
    · show ((PPool.start P t io p calls).run sched).p.w.files = _
      rw [h1]; rfl
  · exact Or.inr ⟨h1.init, h1.nonneg, h1.total, fun e he => h4 _ ((firstUse_startable P t io p calls c es h).2.2 e he)⟩

/-- C107: once the tokenizer is initialised it stays so, and no word leaves the table: the dictionary is not loaded a second time. -/
theorem C107_once (P : PSys F) (t : Nat) (io : Bool) (p : PWorld) (calls : List PCall) (c : Path) (es : List (Str × Int))
    (h : FirstUse P t p calls c es) (sched more : List Nat)
    (hi : (((PPool.start P t io p calls).run sched).p.w.tok t).initialized = true) :
    (((PPool.start P t io p calls).run (sched ++ more)).p.w.tok t).initialized = true ∧
    (∀ u, (((PPool.start P t io p calls).run sched).p.w.tok t).freq.has u = true →
      (((PPool.start P t io p calls).run (sched ++ more)).p.w.tok t).freq.has u = true) ∧
    ((PPool.start P t io p calls).run (sched ++ more)).p.w.files = ((PPool.start P t io p calls).run sched).p.w.files := by
  have hrun : (PPool.start P t io p calls).run (sched ++ more) = ((PPool.start P t io p calls).run sched).run more := by
    simp [PPool.run]
  rw [hrun]
  rcases firstInv_run _ sched (firstUse_start P t io p calls c es h) with ⟨⟨⟨x, h1⟩, -⟩, -⟩ | ⟨⟨h1, -⟩, h2⟩
  · rw [h1, retag_tok] at hi
    simp [h.init] at hi
  · obtain ⟨-, h3⟩ := ppoolInv_run t _ _ _ more h2
    obtain ⟨g1, g2, g3⟩ := h3.1 h1
    exact ⟨g1.init, g2, g3.1⟩

/-- C107: when all calls have returned and one of them has initialised the tokenizer, every prefix of a word in the table is in the
table. -/
theorem C107_prefix_closed (P : PSys F) (t : Nat) (io : Bool) (p : PWorld) (calls : List PCall) (c : Path) (es : List (Str × Int))
    (h : FirstUse P t p calls c es) (sched : List Nat)
    (hr : ∀ i, i < calls.length → ∃ r, ((PPool.start P t io p calls).run sched).th i = .ret r)
    (hi : (((PPool.start P t io p calls).run sched).p.w.tok t).initialized = true) :
    PrefixClosed (((PPool.start P t io p calls).run sched).p.w.tok t).freq := by
  have hret : ∀ i, ∃ r, ((PPool.start P t io p calls).run sched).th i = .ret r := by
    intro i
    rcases Nat.lt_or_ge i calls.length with hlt | hge
    · exact hr i hlt
    · have hidle : ∀ sched (p : PPool), p.th i = .ret none → (p.run sched).th i = .ret none := by
        intro sched
        induction sched with
        | nil => exact fun p h => h
        | cons j sched ih =>
          intro p hpi
          refine ih (p.step j) ?_
          by_cases hj : j = i
          · subst hj; unfold PPool.step; rw [hpi]; exact hpi
          · unfold PPool.step
            split <;> simp [Ne.symm hj, hpi]
      refine ⟨none, hidle sched _ ?_⟩
      unfold PPool.start
      simp only [List.getElem?_eq_none hge]
  rcases firstInv_run _ sched (firstUse_start P t io p calls c es h) with ⟨⟨⟨x, h1⟩, -⟩, -⟩ | ⟨-, -, v, D, h1, h2⟩
  · rw [h1, retag_tok] at hi
    simp [h.init] at hi
  · intro u hu q hq hqu
    rcases h2 (firstUse_startable P t io p calls c es h).2.1 u hu q hq hqu with g | ⟨i, hi⟩
    · exact g
    · obtain ⟨r, hri⟩ := hret i
      have := (h1 i).1
      rw [hri] at this
      exact absurd hi (this.2 q)

/-- C107: in an execution without end, a call that moves again and again returns. -/
theorem C107_returns (P : PSys F) (t : Nat) (io : Bool) (p : PWorld) (calls : List PCall) (c : Path) (es : List (Str × Int))
    (h : FirstUse P t p calls c es) (σ : Nat → Nat) (i : Nat) (hi : ∀ n, ∃ m, n ≤ m ∧ σ m = i) :
    ∃ n r, ((PPool.start P t io p calls).run ((List.range n).map σ)).th i = .ret r := by
  obtain ⟨m, -, h1⟩ := pends (fun n => (PPool.start P t io p calls).run ((List.range n).map σ)) σ
    (fun n => by simp [PPool.run, List.range_succ]) i hi 0
  rcases h1 with ⟨r, hr⟩ | ⟨e, he⟩
  · exact ⟨m, r, hr⟩
  · exact absurd he (C107_no_exception P t io p calls c es h _ i e)

/-! ## The hypotheses can be met -/

/-- A process that has just started: no cache file, and the dictionary of the package has 北京 with frequency 40 and 大学 with 32. -/
def firstPWorld : PWorld := ⟨sampleWorld, fun _ => ⟨0, []⟩⟩

/-- The cache file that an earlier process has written for the same dictionary file holds its table. -/
theorem written_cache (S : Sys F) (data : Bytes) (ls : List Bytes) (es : List (Str × Int)) (hl : FileLines data ls)
    (he : List.Forall₂ (fun l e => DictEntry l e.1 e.2) ls es) (x : Freq × Int) (hx : genPfdict data = .ok x) :
    S.load (S.dump x) = some x ∧ TableOf es x := by
  obtain ⟨d, h1, h2⟩ := dictFile_table data ls es hl he
  rw [hx] at h1
  cases h1
  exact ⟨S.load_dump _, rfl, h2⟩

theorem sample_entries : FileLines sampleData (fileLines sampleData) ∧
    List.Forall₂ (fun l e => DictEntry l e.1 e.2) (fileLines sampleData) [(lit ['北', '京'], (40 : Int)), (lit ['大', '学'], 32)] := by
  refine ⟨(fileLines_iff _ _).mpr rfl, ?_⟩
  have h1 : (fileLines sampleData).map dictLine = [(lit ['北', '京'], 40), (lit ['大', '学'], 32)].map some := by decide +kernel
  exact ((map_some_iff _ _ _).mp h1).imp (fun l e h => (dictEntry_iff l e.1 e.2).mpr h)

/-- A process that finds the cache file of an earlier one. -/
def cachedPWorld : PWorld :=
  ⟨{ sampleWorld with
      files := fun q => if q = lit ['/', 't', '/', 'j', 'i', 'e', 'b', 'a', '.', 'c', 'a', 'c', 'h', 'e'] then
        some ⟨sampleDump ([(lit ['北', '京'], 40), (lit ['北'], 0), (lit ['大', '学'], 32), (lit ['大'], 0)], 72), 3⟩ else none },
    fun _ => ⟨0, []⟩⟩

example (b : Bool) : FirstUse busyPSys 0 (if b then cachedPWorld else firstPWorld) busyPCalls
    (lit ['/', 't', '/', 'j', 'i', 'e', 'b', 'a', '.', 'c', 'a', 'c', 'h', 'e'])
    [(lit ['北', '京'], 40), (lit ['大', '学'], 32)] := by
  refine ⟨dbl_signOk _, constTables_shipped _, fun _ _ _ => List.Perm.refl _, by cases b <;> rfl,
    by cases b <;> exact (cacheAt_iff busyPSys.sys _ _ _).mpr (by decide), ?_,
    ⟨sampleData, fileLines sampleData, by cases b <;> rfl, sample_entries.1, sample_entries.2⟩, by decide,
    ⟨_, List.mem_cons_self, by decide⟩, ?_, ?_⟩
  · cases b with
    | false => exact fun cf hcf => by simp [firstPWorld, sampleWorld] at hcf
    | true =>
      intro cf hcf
      simp [cachedPWorld] at hcf
      subst hcf
      refine Or.inr (Or.inr ⟨_, written_cache busyPSys.sys sampleData _ _ sample_entries.1 sample_entries.2 _ ?_⟩)
      decide +kernel
  · intro c hc
    simp only [busyPCalls, List.mem_cons, List.not_mem_nil, or_false] at hc
    rcases hc with rfl | rfl | rfl | rfl | rfl
    · trivial
    · refine ⟨_, by cases b <;> rfl, ?_⟩
      intro ln hln
      simp only [List.mem_singleton] at hln
      subst hln
      exact ⟨lit ['京', '人', ' ', '7', ' ', 'n', 's'], (userLine_iff _ _).mp (by decide), by decide⟩
    · trivial
    · cases b <;> rfl
    · cases b <;> rfl
  · intro q hq
    simp [busyPCalls] at hq

end Jieba.Props
