import Verif.Proofs.World
import Verif.Proofs.Provenance
import Verif.Proofs.CutAll
import Verif.Props.SampleWorld
/-!
# C20-C26, C29, C31: the dictionary under all histories of operations
-/

set_option linter.unusedSectionVars false

namespace Jieba.Props
open Jieba Jieba.Spec Relation

variable {F : Type _} [LinearOrder F]

/-! ## C20 -/

/-- C20: after any history, in every tokenizer every non-empty prefix of a registered word is registered.  Nothing is
assumed about dictionary files; cache files (also those written from outside) are assumed to be dumps of tables with that
property. -/
theorem C20_prefixes_registered (S : Sys F) (w : World) (ops : List Op)
    (h0 : ∀ t, PrefixClosed (w.tok t).freq)
    (hc : ∀ p f x, w.files p = some f → S.load f.data = some x → PrefixClosed x.1)
    (hw : ∀ p data x, Op.write p data ∈ ops → S.load data = some x → PrefixClosed x.1) :
    ∀ t, PrefixClosed ((runOps S w ops).tok t).freq := by
  suffices h : (∀ t, PrefixClosed ((runOps S w ops).tok t).freq) ∧
      (∀ p f x, (runOps S w ops).files p = some f → S.load f.data = some x → PrefixClosed x.1) from h.1
  refine runOps_inv_prim S (fun w => (∀ t, PrefixClosed (w.tok t).freq) ∧
    (∀ p f x, w.files p = some f → S.load f.data = some x → PrefixClosed x.1)) ops w ⟨h0, hc⟩ ?_
  intro op hop w0 a b hab ⟨i1, i2⟩
  cases hab with
  | add t word f tag hi hp =>
    refine ⟨fun u => ?_, by simpa using i2⟩
    by_cases hu : u = t
    · subst hu; rw [addFreq_tok_self]; exact prefixClosed_register _ _ _ (i1 u)
    · rw [addFreq_tok_ne _ _ _ _ _ _ hu]; exact i1 u
  | load t cf x hi h1 h2 h3 =>
    refine ⟨fun u => ?_, by simpa using i2⟩
    rw [markInit_tok]
    split
    · simp; exact i2 _ _ _ h1 h3
    · next hu => rw [setTok_tok_ne _ _ _ _ hu]; exact i1 u
  | build t data x hi h1 h2 =>
    refine ⟨fun u => ?_, by simpa using i2⟩
    rw [markInit_tok]
    split
    · simp; exact genPfdict_prefixClosed _ _ h2
    · next hu => rw [setTok_tok_ne _ _ _ _ hu]; exact i1 u
  | buildDump t data x hi h1 h2 =>
    refine ⟨fun u => ?_, ?_⟩
    · rw [markInit_tok]
      split
      · simp; exact genPfdict_prefixClosed _ _ h2
      · next hu => simp only [setFile_tok]; rw [setTok_tok_ne _ _ _ _ hu]; exact i1 u
    · intro p f y hf hy
      simp only [markInit_files, setFile_files] at hf
      split at hf
      · simp at hf; subst hf; simp only [S.load_dump] at hy; simp at hy; subst hy
        exact genPfdict_prefixClosed _ _ h2
      · exact i2 p f y hf hy
  | retarget t p hr =>
    refine ⟨fun u => ?_, by simpa using i2⟩
    rw [setTok_tok]; split
    · next hu => subst hu; exact i1 u
    · exact i1 u
  | new t d hr =>
    refine ⟨fun u => ?_, by simpa using i2⟩
    rw [setTok_tok]; split
    · exact prefixClosed_nil
    · exact i1 u
  | write p data hp =>
    refine ⟨by simpa using i1, ?_⟩
    intro q f y hf hy
    rw [setFile_files] at hf
    split at hf
    · simp at hf; subst hf
      have : op = Op.write p data := by
        cases op <;> simp [Op.allowed] at hp
        obtain ⟨rfl, rfl⟩ := hp; rfl
      subst this
      exact hw p data y hop hy
    · exact i2 q f y hf hy
  | remove p hp =>
    refine ⟨by simpa using i1, ?_⟩
    intro q f y hf hy
    rw [setFile_files] at hf
    split at hf
    · simp at hf
    · exact i2 q f y hf hy
  | tick => exact ⟨i1, i2⟩

/-- The hypotheses hold in a fresh process without files. -/
example : (∀ t, PrefixClosed (sampleWorld.tok t).freq) ∧
    (∀ p f x, sampleWorld.files p = some f → sampleSys.load f.data = some x → PrefixClosed x.1) :=
  ⟨fun _ => prefixClosed_nil, fun _ _ _ h => by simp [sampleWorld] at h⟩

/-! ## C21 -/

/-- C21: with a prefix-complete dictionary `get_DAG(text)[k]` lists, in increasing order, exactly the ends `i` such that
`text[k..i]` is a dictionary word; if there are none, it is `[k]`. -/
theorem C21_dag_exact (freq : Freq) (hp : PrefixClosed freq) (s : Str) :
    (getDAG freq s).length = s.length ∧
    ∀ k, k < s.length → ∃ L, (getDAG freq s)[k]? = some L ∧ L.Pairwise (· < ·) ∧
      ((∃ i, k ≤ i ∧ i < s.length ∧ DictWord freq (slice s k (i + 1))) →
        ∀ i, i ∈ L ↔ k ≤ i ∧ i < s.length ∧ DictWord freq (slice s k (i + 1))) ∧
      ((¬ ∃ i, k ≤ i ∧ i < s.length ∧ DictWord freq (slice s k (i + 1))) → L = [k]) := by
  refine ⟨by simp [getDAG], fun k hk => ⟨_, getDAG_get freq s k hk, dagRow_sorted freq s k hk, ?_, ?_⟩⟩
  · rintro ⟨i0, h1, h2, h3⟩ i
    rw [dagRow_exact freq hp s k hk]
    have hne : (List.range' k (s.length - k)).filter (fun j => freq.truthy (slice s k (j + 1))) ≠ [] := by
      intro h
      have : i0 ∈ (List.range' k (s.length - k)).filter (fun j => freq.truthy (slice s k (j + 1))) := by
        rw [List.mem_filter, List.mem_range'_1]
        exact ⟨by omega, (truthy_iff _ _).mpr h3⟩
      rw [h] at this; simp at this
    rw [if_neg hne, List.mem_filter, List.mem_range'_1, truthy_iff]
    constructor
    · rintro ⟨⟨a, b⟩, c⟩; exact ⟨a, by omega, c⟩
    · rintro ⟨a, b, c⟩; exact ⟨⟨a, by omega⟩, c⟩
  · intro h
    rw [dagRow_exact freq hp s k hk, if_pos]
    rw [List.filter_eq_nil_iff]
    intro i hi ht
    rw [List.mem_range'_1] at hi
    exact h ⟨i, hi.1, by omega, (truthy_iff _ _).mp ht⟩

/-- Three words start at 北: an example with more than one end. -/
example : PrefixClosed sampleFreq ∧ getDAG sampleFreq (lit ['北', '京', '大', '学']) = [[0, 1, 3], [1], [2, 3], [3]] :=
  ⟨sample_prefixClosed, by decide +kernel⟩

/-! ## C24 -/

/-- C24: `add_word(word, f)` on an initialised tokenizer sets the frequency of `word` to `f`; every other word keeps its
non-zero frequency, and no other word gets a non-zero frequency. -/
theorem C24_add_word_map (S : Sys F) (w : World) (t : Nat) (word : PyText) (f : Int) (tag : Option Str) (io : Bool)
    (hi : (w.tok t).initialized = true) :
    ∃ w', addWord S w t word (.int f) tag io = (w', .ok ()) ∧
      (w'.tok t).freq.get? (strdecode S.gbk word) = some f ∧
      (∀ v, v ≠ strdecode S.gbk word → ∀ n, n ≠ 0 →
        ((w'.tok t).freq.get? v = some n ↔ (w.tok t).freq.get? v = some n)) ∧
      (w'.tok t).total = (w.tok t).total + f := by
  unfold addWord
  rw [checkInit_of_init S w t io hi]
  refine ⟨_, rfl, ?_, ?_, ?_⟩
  · simp only [addFreq_tok_self, register_get?, if_true]
  · intro v hv n hn
    simp only [addFreq_tok_self, register_get?]
    rw [if_neg hv]
    cases PyDict.get? (w.tok t).freq v with
    | some x => rfl
    | none =>
      simp only []
      split
      · simp; exact fun h => hn h.symm
      · rfl
  · simp only [addFreq_tok_self]

/-- C24: what else `add_word(word, f, tag)` changes.  The word and those of its non-empty prefixes that had no entry get one; entries
stay; with `f = 0`, and only then, the word is added to the words that the HMM segmenter must split; a non-empty tag is recorded for
the word and for no other; no other tokenizer, no file and no setting of the tokenizer changes. -/
theorem C24_add_word_rest (S : Sys F) (w : World) (t : Nat) (word : PyText) (f : Int) (tag : Option Str) (io : Bool)
    (hi : (w.tok t).initialized = true) :
    ∃ w', addWord S w t word (.int f) tag io = (w', .ok ()) ∧
      (∀ v, (w'.tok t).freq.get? v ≠ none ↔
        (w.tok t).freq.get? v ≠ none ∨ v = strdecode S.gbk word ∨ v ≠ [] ∧ v <+: strdecode S.gbk word) ∧
      (∀ v, v ∈ w'.force ↔ v ∈ w.force ∨ v = strdecode S.gbk word ∧ f = 0) ∧
      (∀ v g, (w'.tok t).tags.get? v = some g ↔
        if v = strdecode S.gbk word ∧ tag ≠ none ∧ tag ≠ some [] then tag = some g else (w.tok t).tags.get? v = some g) ∧
      (∀ u, u ≠ t → w'.tok u = w.tok u) ∧ w'.files = w.files ∧
      (w'.tok t).initialized = true ∧ (w'.tok t).dictionary = (w.tok t).dictionary ∧
      (w'.tok t).tmpDir = (w.tok t).tmpDir ∧ (w'.tok t).cacheFile = (w.tok t).cacheFile := by
  unfold addWord
  rw [checkInit_of_init S w t io hi]
  refine ⟨_, rfl, ?_, ?_, ?_, fun u hu => addFreq_tok_ne _ _ _ _ _ _ hu, addFreq_files _ _ _ _ _, ?_, ?_, ?_, ?_⟩
  · intro v
    simp only [addFreq_tok_self, register_get?]
    by_cases hv : v = strdecode S.gbk word
    · simp [hv]
    · rw [if_neg hv]
      cases PyDict.get? (w.tok t).freq v with
      | some x => simp
      | none => simp [hv]
  · intro v
    simp only [mem_addFreq_force, and_comm]
  · intro v g
    simp only [addFreq_tok_self]
    cases tag with
    | none => simp [truthyStr]
    | some x =>
      cases x with
      | nil => simp [truthyStr]
      | cons c x =>
        simp only [truthyStr, if_true, Option.getD_some, PyDict.get?_set]
        by_cases hv : v = strdecode S.gbk word
        · simp [hv]
        · simp [hv, Ne.symm hv]
  all_goals simp only [addFreq_tok_self]
  exact hi

/-- An initialised tokenizer. -/
def sampleReady : World := (checkInit sampleSys sampleWorld 0 true).1

example : (sampleReady.tok 0).initialized = true ∧ (sampleReady.tok 0).total = 72 := by decide +kernel

/-! ## C22 -/

/-- C22, calls with explicit frequencies: the total grows by exactly the sum of the frequencies. -/
theorem C22_total_of_add_words (S : Sys F) (w : World) (t : Nat) (calls : List (PyText × Int × Option Str))
    (hi : (w.tok t).initialized = true) :
    ((runOps S w (calls.map (fun c => Op.addWord t c.1 (.int c.2.1) c.2.2 true))).tok t).total =
      (w.tok t).total + (calls.map (fun c => c.2.1)).sum := by
  induction calls generalizing w with
  | nil => simp [runOps]
  | cons c calls ih =>
    obtain ⟨w', h1, -, -, h4⟩ := C24_add_word_map S w t c.1 c.2.1 c.2.2 true hi
    have hi' : (w'.tok t).initialized = true := by
      have : w' = (addWord S w t c.1 (.int c.2.1) c.2.2 true).1 := by rw [h1]
      rw [this]; unfold addWord; rw [checkInit_of_init S w t true hi]
      simp only [addWordFreq, addFreq_tok_self]; exact hi
    have e : Op.run S w (Op.addWord t c.1 (.int c.2.1) c.2.2 true) = w' := by simp only [Op.run]; rw [h1]
    simp only [List.map_cons, runOps, List.foldl_cons, e]
    have := ih w' hi'
    unfold runOps at this
    rw [this, h4]; simp; omega

/-- C22, all histories: as long as tokenizer `t` is not pointed to another dictionary, there is a list of entries (each of
them asked for by one of the operations) such that the total has grown by the sum of their frequencies and lookups are
those of the old table with the entries put in one after the other. -/
theorem C22_total_ledger (S : Sys F) (w : World) (t : Nat) (ops : List Op) (hi : (w.tok t).initialized = true)
    (hr : ∀ op ∈ ops, ∀ w0, ¬ (op.allowed S w0).retarget t) :
    ∃ es : List (Str × Int), ((runOps S w ops).tok t).total = (w.tok t).total + (es.map Prod.snd).sum ∧
      (∀ v, ((runOps S w ops).tok t).freq.get? v = lookupAfter (w.tok t).freq es v) ∧
      (∀ e ∈ es, ∃ op ∈ ops, ∃ w0 x tag, (op.allowed S w0).add x t e.1 e.2 tag) := by
  suffices h : ((runOps S w ops).tok t).initialized = true ∧
      ∃ es : List (Str × Int), ((runOps S w ops).tok t).total = (w.tok t).total + (es.map Prod.snd).sum ∧
      ((runOps S w ops).tok t).freq = registerAll (w.tok t).freq es ∧
      (∀ e ∈ es, ∃ op ∈ ops, ∃ w0 x tag, (op.allowed S w0).add x t e.1 e.2 tag) by
    obtain ⟨-, es, h1, h2, h3⟩ := h
    exact ⟨es, h1, fun v => by rw [h2, registerAll_get?], h3⟩
  refine runOps_inv_prim S (fun w' => (w'.tok t).initialized = true ∧
    ∃ es : List (Str × Int), (w'.tok t).total = (w.tok t).total + (es.map Prod.snd).sum ∧
      (w'.tok t).freq = registerAll (w.tok t).freq es ∧
      (∀ e ∈ es, ∃ op ∈ ops, ∃ w0 x tag, (op.allowed S w0).add x t e.1 e.2 tag)) ops w
    ⟨hi, [], by simp, rfl, by simp⟩ ?_
  intro op hop w0 a b hab ⟨i1, es, i2, i3, i4⟩
  have keep : ∀ b : World, b.tok t = a.tok t → (b.tok t).initialized = true ∧
      ∃ es : List (Str × Int), (b.tok t).total = (w.tok t).total + (es.map Prod.snd).sum ∧
      (b.tok t).freq = registerAll (w.tok t).freq es ∧
      (∀ e ∈ es, ∃ op ∈ ops, ∃ w0 x tag, (op.allowed S w0).add x t e.1 e.2 tag) := by
    intro b hb; rw [hb]; exact ⟨i1, es, i2, i3, i4⟩
  have other : ∀ u (b : World), (a.tok u).initialized = false → (∀ v, v ≠ u → b.tok v = a.tok v) → b.tok t = a.tok t := by
    intro u b hu hb
    apply hb
    rintro rfl
    rw [i1] at hu; exact Bool.noConfusion hu
  cases hab with
  | add u word f tag hi hp =>
    by_cases hu : t = u
    · subst hu
      rw [addFreq_tok_self]
      refine ⟨i1, es ++ [(word, f)], by simp [i2]; omega, by rw [registerAll_append, ← i3]; rfl, ?_⟩
      intro e he
      rcases List.mem_append.mp he with he | he
      · exact i4 e he
      · simp at he; subst he; exact ⟨op, hop, w0, a, tag, hp⟩
    · exact keep _ (addFreq_tok_ne _ _ _ _ _ _ hu)
  | load u cf x hi h1 h2 h3 =>
    exact keep _ (other u _ hi (fun v hv => by rw [markInit_tok, if_neg hv, setTok_tok_ne _ _ _ _ hv]))
  | build u data x hi h1 h2 =>
    exact keep _ (other u _ hi (fun v hv => by rw [markInit_tok, if_neg hv, setTok_tok_ne _ _ _ _ hv]))
  | buildDump u data x hi h1 h2 =>
    exact keep _ (other u _ hi (fun v hv => by rw [markInit_tok, if_neg hv, setFile_tok, setTok_tok_ne _ _ _ _ hv]))
  | retarget u p h =>
    refine keep _ (setTok_tok_ne _ _ _ _ ?_)
    rintro rfl; exact hr op hop w0 h
  | new u d h =>
    refine keep _ (setTok_tok_ne _ _ _ _ ?_)
    rintro rfl; exact hr op hop w0 h
  | write p data h => exact keep _ rfl
  | remove p h => exact keep _ rfl
  | tick => exact keep _ rfl

/-- A history meeting the hypotheses: adding, deleting and cutting. -/
example : ∀ op ∈ [Op.addWord 0 (.str (lit ['中'])) (.int 3) none true, Op.delWord 0 (.str (lit ['北', '京'])) true,
    Op.cut 0 false true (.str (lit ['北', '京'])) true], ∀ w0, ¬ (op.allowed sampleSys w0).retarget 0 := by
  intro op hop w0
  simp at hop
  rcases hop with rfl | rfl | rfl <;> simp [Op.allowed]

/-- C22, negative part: the total is not always the sum of the frequencies (deleting a word does not give its frequency
back). -/
theorem C22_total_is_not_the_sum :
    ((Op.delWord 0 (.str (lit ['北', '京'])) true).run sampleSys sampleReady |>.tok 0).total = 72 ∧
    sumFreq ((Op.delWord 0 (.str (lit ['北', '京'])) true).run sampleSys sampleReady |>.tok 0).freq = 32 := by
  decide +kernel

/-! ## C25 -/

/-- The operation cannot bring `v` into tokenizer `t`: it does not call `add_word`, `load_userdict` or
`suggest_freq(tune=True)` for `v` with another frequency than 0, and does not make `t` load another dictionary. -/
def KeepsDeleted (S : Sys F) (t : Nat) (v : Str) (op : Op) : Prop :=
  ∀ w0, ¬ (op.allowed S w0).retarget t ∧ ∀ x f tag, (op.allowed S w0).add x t v f tag → f = 0

/-- C25: after `del_word(v)`, for `v` with at least two characters one of which is Han, no cut in accurate mode (HMM on or
off) yields `v`, as long as only operations happen that do not register `v` again. -/
theorem C25_deleted_word_not_output (S : Sys F) (w : World) (t : Nat) (v : Str) (io : Bool) (ops : List Op)
    (hi : (w.tok t).initialized = true) (hops : ∀ op ∈ ops, KeepsDeleted S t v op)
    (hl : 2 ≤ v.length) (hh : ∃ c ∈ v, isHan c = true) (hm : Bool) (text : PyText) (io' : Bool) :
    v ∉ (cutW S (runOps S w (Op.delWord t (.str v) io :: ops)) t false hm text io').2.out := by
  have hinit : ∀ w, (w.tok t).initialized = true ∧ ¬ DictWord (w.tok t).freq v ∧ v ∈ w.force →
      ((runOps S w ops).tok t).initialized = true ∧ ¬ DictWord ((runOps S w ops).tok t).freq v ∧
        v ∈ (runOps S w ops).force := by
    intro w hw
    refine runOps_inv_prim S (fun w => (w.tok t).initialized = true ∧ ¬ DictWord (w.tok t).freq v ∧ v ∈ w.force) ops w hw ?_
    intro op hop w0 a b hab ⟨i1, i2, i3⟩
    have keep : ∀ b : World, b.tok t = a.tok t → b.force = a.force →
        (b.tok t).initialized = true ∧ ¬ DictWord (b.tok t).freq v ∧ v ∈ b.force := by
      intro b hb hf; rw [hb, hf]; exact ⟨i1, i2, i3⟩
    have other : ∀ u (b : World), (a.tok u).initialized = false → (∀ v, v ≠ u → b.tok v = a.tok v) →
        b.tok t = a.tok t := by
      intro u b hu hb
      apply hb
      rintro rfl
      rw [i1] at hu; exact Bool.noConfusion hu
    cases hab with
    | add u word f tag hi hp =>
      have hf : v ∈ (addFreq a u word f tag).force := (mem_addFreq_force _ _ _ _ _ _).mpr (Or.inl i3)
      by_cases hu : t = u
      · subst hu
        refine ⟨by rw [addFreq_tok_self]; exact i1, ?_, hf⟩
        rw [addFreq_tok_self]
        simp only [register_dictWord]
        split
        · next he =>
          subst he
          have := (hops op hop w0).2 a f tag hp
          simp [this]
        · exact i2
      · rw [addFreq_tok_ne _ _ _ _ _ _ hu]
        exact ⟨i1, i2, hf⟩
    | load u cf x hi h1 h2 h3 =>
      exact keep _ (other u _ hi (fun v hv => by rw [markInit_tok, if_neg hv, setTok_tok_ne _ _ _ _ hv])) rfl
    | build u data x hi h1 h2 =>
      exact keep _ (other u _ hi (fun v hv => by rw [markInit_tok, if_neg hv, setTok_tok_ne _ _ _ _ hv])) rfl
    | buildDump u data x hi h1 h2 =>
      exact keep _ (other u _ hi (fun v hv => by rw [markInit_tok, if_neg hv, setFile_tok, setTok_tok_ne _ _ _ _ hv])) rfl
    | retarget u p h =>
      refine keep _ (setTok_tok_ne _ _ _ _ ?_) rfl
      rintro rfl; exact (hops op hop w0).1 h
    | new u d h =>
      refine keep _ (setTok_tok_ne _ _ _ _ ?_) rfl
      rintro rfl; exact (hops op hop w0).1 h
    | write p data h => exact keep _ rfl rfl
    | remove p h => exact keep _ rfl rfl
    | tick => exact keep _ rfl rfl
  have hdel : Op.run S w (Op.delWord t (.str v) io) = addFreq w t v 0 none := by
    simp only [Op.run]
    unfold delWord addWord
    rw [checkInit_of_init S w t io hi]; rfl
  obtain ⟨j1, j2, j3⟩ := hinit (addFreq w t v 0 none) ⟨by rw [addFreq_tok_self]; exact hi,
    by rw [addFreq_tok_self]; simp [register_dictWord], (mem_addFreq_force _ _ _ _ _ _).mpr (Or.inr ⟨rfl, rfl⟩)⟩
  have e : runOps S w (Op.delWord t (.str v) io :: ops) = runOps S (addFreq w t v 0 none) ops := by
    unfold runOps; rw [List.foldl_cons, hdel]
  rw [e, cutW_of_init S _ t _ _ _ _ j1]
  exact not_output _ hm _ v j2 j3 hl hh

/-- Adding other words and deleting further words keeps 北京 deleted; and it was a word before. -/
example : (∀ op ∈ [Op.addWord 0 (.str (lit ['北', '京', '市'])) (.int 3) none true, Op.delWord 1 (.str (lit ['京'])) true],
      KeepsDeleted sampleSys 0 (lit ['北', '京']) op) ∧
    lit ['北', '京'] ∈ (cutW sampleSys sampleReady 0 false true (.str (lit ['北', '京', '人'])) true).2.out := by
  refine ⟨?_, by decide +kernel⟩
  intro op hop w0
  simp at hop
  rcases hop with rfl | rfl
  · refine ⟨by simp [Op.allowed], ?_⟩
    rintro x f tag ⟨-, h, -⟩
    simp [strdecode, lit] at h
  · refine ⟨by simp [Op.allowed], ?_⟩
    rintro x f tag ⟨h, -⟩
    simp at h

/-! ## C26 -/

/-- The operation is not addressed to tokenizer `t`. -/
def NotOn (t : Nat) : Op → Prop
  | .addWord u .. | .delWord u .. | .suggestFreq u .. | .loadUserdict u .. | .cut u .. | .init u .. | .setDictionary u _
  | .new u _ => u ≠ t
  | .write .. | .remove .. | .tick => True

/-- C26: operations on other tokenizers do not change an initialised tokenizer `t`: its table, total and tags stay the
same, and so does every result of `cut` with `HMM=False` and of full mode. -/
theorem C26_isolation (S : Sys F) (w : World) (t : Nat) (ops : List Op) (hi : (w.tok t).initialized = true)
    (hops : ∀ op ∈ ops, NotOn t op) :
    (runOps S w ops).tok t = w.tok t ∧
    ∀ ca hm text io, (ca = true ∨ hm = false) →
      (cutW S (runOps S w ops) t ca hm text io).2 = (cutW S w t ca hm text io).2 := by
  have htok : (runOps S w ops).tok t = w.tok t := by
    refine runOps_inv_prim S (fun w' => w'.tok t = w.tok t) ops w rfl ?_
    intro op hop w0 a b hab i1
    have hn := hops op hop
    have ia : (a.tok t).initialized = true := by rw [i1]; exact hi
    have other : ∀ u (b : World), (a.tok u).initialized = false → (∀ v, v ≠ u → b.tok v = a.tok v) →
        b.tok t = w.tok t := by
      intro u b hu hb
      rw [← i1]
      apply hb
      rintro rfl
      rw [ia] at hu; exact Bool.noConfusion hu
    cases hab with
    | add u word f tag hi hp =>
      rw [addFreq_tok_ne]
      · exact i1
      · rintro rfl
        cases op <;> simp only [Op.allowed, NotOn] at hp hn
        · exact hn hp.1.symm
        · exact hn hp.1.symm
        · exact hn hp.1.symm
        · exact hn hp.1.symm
    | load u cf x hi h1 h2 h3 =>
      exact other u _ hi (fun v hv => by rw [markInit_tok, if_neg hv, setTok_tok_ne _ _ _ _ hv])
    | build u data x hi h1 h2 =>
      exact other u _ hi (fun v hv => by rw [markInit_tok, if_neg hv, setTok_tok_ne _ _ _ _ hv])
    | buildDump u data x hi h1 h2 =>
      exact other u _ hi (fun v hv => by rw [markInit_tok, if_neg hv, setFile_tok, setTok_tok_ne _ _ _ _ hv])
    | retarget u p h =>
      rw [setTok_tok_ne]
      · exact i1
      · rintro rfl
        cases op <;> simp only [Op.allowed, NotOn] at h hn
        · exact hn h.1.symm
        · exact hn h.symm
        · exact hn h.symm
    | new u d h =>
      rw [setTok_tok_ne]
      · exact i1
      · rintro rfl
        cases op <;> simp only [Op.allowed, NotOn] at h hn
        · exact hn h.1.symm
        · exact hn h.symm
        · exact hn h.symm
    | write p data h => exact i1
    | remove p h => exact i1
    | tick => exact i1
  refine ⟨htok, ?_⟩
  intro ca hm text io hch
  rw [cutW_of_init S _ t _ _ _ _ (by rw [htok]; exact hi), cutW_of_init S _ t _ _ _ _ hi]
  simp only []
  rw [cut_eq_scan, cut_eq_scan]
  unfold World.env
  rw [htok]
  congr 1
  funext b
  unfold cutBlock
  rcases hch with rfl | rfl
  · rfl
  · cases ca <;> rfl

/-- C26, negative part: with `HMM=True` it is false.  Deleting 京人 on tokenizer 1 changes what tokenizer 0 outputs. -/
theorem C26_fails_with_hmm :
    NotOn 0 (Op.delWord 1 (.str (lit ['我', '人'])) true) ∧
    (cutW sampleSys sampleReady 0 false true (.str (lit ['我', '人'])) true).2 = Gen.ok [lit ['我', '人']] ∧
    (cutW sampleSys (runOps sampleSys sampleReady [Op.delWord 1 (.str (lit ['我', '人'])) true]) 0 false true
      (.str (lit ['我', '人'])) true).2 = Gen.ok [lit ['我'], lit ['人']] :=
  ⟨by simp [NotOn], by decide +kernel, by decide +kernel⟩

/-! ## C29 -/

/-- C29: on an initialised tokenizer, `suggest_freq(x, tune=False)` and `cut` in every mode change nothing at all. -/
theorem C29_reading_changes_nothing (S : Sys F) (w : World) (t : Nat) (hi : (w.tok t).initialized = true) :
    (∀ seg io, (suggestFreq S w t seg false io).1 = w) ∧ (∀ ca hm text io, (cutW S w t ca hm text io).1 = w) := by
  constructor
  · intro seg io
    unfold suggestFreq
    rw [checkInit_of_init S w t io hi]
    simp only []
    cases suggestCore S w t seg <;> rfl
  · intro ca hm text io
    rw [cutW_of_init S w t _ _ _ _ hi]

/-- C29 for a tokenizer that is not initialised: these calls initialise it and do nothing else. -/
theorem C29_reading_only_initialises (S : Sys F) (w : World) (t : Nat) (seg : Segment) (io : Bool) :
    (suggestFreq S w t seg false io).1 = (checkInit S w t io).1 ∧
    ∀ ca hm text, (cutW S w t ca hm text io).1 = w ∨ (cutW S w t ca hm text io).1 = (checkInit S w t io).1 := by
  constructor
  · unfold suggestFreq
    generalize checkInit S w t io = r
    obtain ⟨w', r⟩ := r
    cases r with
    | error e => rfl
    | ok u =>
      simp only []
      cases suggestCore S w' t seg <;> rfl
  · intro ca hm text
    unfold cutW
    generalize reHanDefault.split (strdecode S.gbk text) = blks
    induction blks with
    | nil => left; rfl
    | cons b blks ih =>
      unfold cutBlocksW
      split
      · exact ih
      · split
        · right
          rcases checkInit_prim S ⟨fun _ _ _ _ _ => False, fun _ => False, fun _ _ => False, fun _ => False, fun _ => False⟩ w t io with
            ⟨e, h, -⟩ | ⟨w', h, hi, -⟩
          · rw [h]
          · rw [h]
            simp only []
            split
            · rfl
            · have : ∀ l : List Str, (cutBlocksW S t ca hm io w' l).1 = w' := by
                intro l
                induction l with
                | nil => rfl
                | cons c l ihl =>
                  unfold cutBlocksW
                  split
                  · exact ihl
                  · split
                    · rw [checkInit_of_init S w' t io hi]
                      simp only []
                      split
                      · rfl
                      · exact ihl
                    · exact ihl
              exact this blks
        · exact ih

/-! ## C31 -/

/-- The `add_word` calls for the lines of a user dictionary (nothing for blank lines). -/
def lineCalls (t : Nat) (lns : List PyText) : List Op :=
  lns.filterMap (fun ln => match userLine ln with
    | some line => if line = [] then none else match userFields line with
      | some (word, freq, tag) => some (Op.addWord t (.str word) (fieldArg freq) tag true)
      | none => none
    | none => none)

/-- C31: loading a user dictionary whose lines are all processed without exception is the same as the `add_word` calls for
its non-blank lines, in order. -/
theorem C31_load_userdict_is_add_words (S : Sys F) (w w' : World) (t : Nat) (lns : List PyText)
    (h : userdictLoop S t w lns = (w', .ok ())) : w' = runOps S w (lineCalls t lns) := by
  induction lns generalizing w with
  | nil => simp [userdictLoop] at h; simp [lineCalls, runOps, h]
  | cons ln lns ih =>
    unfold userdictLoop at h
    have key : ∀ w1, userdictLine S w t ln = (w1, .ok ()) → w1 = runOps S w (lineCalls t [ln]) := by
      intro w1 h1
      unfold userdictLine at h1
      unfold lineCalls
      simp only [List.filterMap_cons, List.filterMap_nil]
      cases hl : userLine ln with
      | none => rw [hl] at h1; simp at h1
      | some line =>
        rw [hl] at h1
        simp only at h1 ⊢
        by_cases hb : line = []
        · rw [if_pos hb] at h1; simp [hb]; simp at h1; simp [runOps, h1]
        · rw [if_neg hb] at h1; rw [if_neg hb]
          cases hf : userFields line with
          | none => rw [hf] at h1; simp at h1
          | some x =>
            obtain ⟨word, freq, tag⟩ := x
            rw [hf] at h1
            simp only at h1 ⊢
            simp [runOps, Op.run, h1]
    generalize hr : userdictLine S w t ln = r at h
    obtain ⟨w1, r⟩ := r
    cases r with
    | error e => simp at h
    | ok u =>
      simp only at h
      have h1 := key w1 hr
      have h2 := ih w1 h
      have : lineCalls t (ln :: lns) = lineCalls t [ln] ++ lineCalls t lns := by
        rw [show ln :: lns = [ln] ++ lns from rfl]; unfold lineCalls; rw [List.filterMap_append]
      rw [this, h2, h1]
      simp [runOps]

/-- C31, failing line: if the lines before `bad` are processed and `bad` raises (in the state reached by then), the call
raises the same exception, and exactly the lines before it have been applied; the later lines are not looked at. -/
theorem C31_failing_line (S : Sys F) (w w1 w2 : World) (t : Nat) (pre : List PyText) (bad : PyText) (post : List PyText)
    (e : PyErr) (hi : (w.tok t).initialized = true)
    (h1 : userdictLoop S t w pre = (w1, .ok ())) (h2 : userdictLine S w1 t bad = (w2, .error e)) :
    userdictLoop S t w (pre ++ bad :: post) = (runOps S w (lineCalls t pre), .error e) := by
  rw [← C31_load_userdict_is_add_words S w w1 t pre h1]
  have hi1 : ∀ (lns : List PyText) (w w1 : World), (w.tok t).initialized = true → userdictLoop S t w lns = (w1, .ok ()) →
      (w1.tok t).initialized = true := by
    intro lns
    induction lns with
    | nil => intro w w1 hi h; simp [userdictLoop] at h; rw [← h]; exact hi
    | cons ln lns ih =>
      intro w w1 hi h
      unfold userdictLoop at h
      have hi' := userdictLine_init S w t ln hi
      generalize userdictLine S w t ln = r at h hi'
      obtain ⟨w', r⟩ := r
      cases r with
      | error e => simp at h
      | ok u => exact ih w' w1 hi' h
  have hw1 := hi1 pre w w1 hi h1
  have hbad : w2 = w1 := by
    rcases userdictLine_cases S w1 t bad hw1 with h | ⟨line, word, freq, tag, f, -, -, -, h⟩
    · rw [h2] at h; exact h
    · rw [h2] at h; simp at h
  subst hbad
  clear hi hi1 hw1
  induction pre generalizing w with
  | nil =>
    simp [userdictLoop] at h1
    subst h1
    simp only [List.nil_append]
    unfold userdictLoop
    rw [h2]
  | cons ln pre ih =>
    unfold userdictLoop at h1
    rw [List.cons_append]
    unfold userdictLoop
    generalize userdictLine S w t ln = r at h1 ⊢
    obtain ⟨w', r⟩ := r
    cases r with
    | error e => simp at h1
    | ok u => exact ih w' h1

/-- C31 for the call itself: on an initialised tokenizer `load_userdict` of a binary file is the loop over its lines. -/
theorem C31_load_userdict_file (S : Sys F) (w : World) (t : Nat) (data : Bytes) (io : Bool)
    (hi : (w.tok t).initialized = true) :
    loadUserdict S w t (.file data) io = userdictLoop S t w ((fileLines data).map .bytes) := by
  unfold loadUserdict
  rw [checkInit_of_init S w t io hi]

/-- `云 5\n` succeeds, an undecodable line then fails: the word has been added. -/
example : userdictLoop sampleSys 0 sampleReady [.bytes [228, 186, 145, 32, 53, 10]] =
      ((userdictLoop sampleSys 0 sampleReady [.bytes [228, 186, 145, 32, 53, 10]]).1, .ok ()) ∧
    (userdictLine sampleSys (userdictLoop sampleSys 0 sampleReady [.bytes [228, 186, 145, 32, 53, 10]]).1 0 (.bytes [255])).2 =
      .error .valueError ∧
    ((userdictLoop sampleSys 0 sampleReady [.bytes [228, 186, 145, 32, 53, 10], .bytes [255]]).1.tok 0).freq.get? (lit ['云']) = some 5 := by
  refine ⟨?_, rfl, by decide +kernel⟩
  have : (userdictLoop sampleSys 0 sampleReady [.bytes [228, 186, 145, 32, 53, 10]]).2 = .ok () := by decide +kernel
  rw [← this]

end Jieba.Props
