import Verif.Proofs.PosLazy
import Verif.Proofs.PosData
import Verif.Props.PosWorld
/-!
# C82, C83: `posseg.cut` while the state is being changed

`drive μ c 0 p` runs the generator `c` from state `p`; when its `n`-th value has been yielded the caller changes the state to
`μ n` of it.  `Runs c l r` says that `c` can yield `l` and end with `r` if other threads may change the state in any way before
each access.
-/

namespace Jieba.Props
open Jieba Jieba.Spec Jieba.Co Jieba.Pos Jieba.PosData Jieba.Lazy

variable {F : Type} [LinearOrder F]

/-! ## C82 -/

/-- C82: whatever other threads do to dictionaries and tags at any point, the words of `posseg.cut` are non-empty and join to a
beginning of the text, and to the text if nothing is raised. -/
theorem C82_any_interleaving (P : PSys F) (hT : Shipped P.tables) (hσ : ∀ s t l, (P.σ s t l).Perm l) (k : Nat) (hmm : Bool)
    (s : PyText) (io : Bool) (l : List Pair) (r : Except PyErr Unit) (hr : Runs (Steps.cutL P k hmm s io) l r) :
    Lossless ⟨l.map Prod.fst, errOf r⟩ (strdecode P.sys.gbk s) :=
  (Steps.cutL_takes P k hmm s io (fun _ b => cutDetail_spec (Steps.detailEnv P) (shipped_ok _ hT) (shipped_bmes _ hT) hσ b)).lossless hr

/-- C82 without HMM needs nothing about the tables. -/
theorem C82_any_interleaving_no_hmm (P : PSys F) (k : Nat) (s : PyText) (io : Bool) (l : List Pair) (r : Except PyErr Unit)
    (hr : Runs (Steps.cutL P k false s io) l r) : Lossless ⟨l.map Prod.fst, errOf r⟩ (strdecode P.sys.gbk s) :=
  (Steps.cutL_takes P k false s io (by simp)).lossless hr

/-- C82: the same if the caller changes the state between two `next()` calls. -/
theorem C82_interrupted (P : PSys F) (hT : Shipped P.tables) (hσ : ∀ s t l, (P.σ s t l).Perm l) (k : Nat) (hmm : Bool)
    (s : PyText) (io : Bool) (μ : Nat → PWorld → PWorld) (p : PWorld) :
    Lossless ⟨(drive μ (Steps.cutL P k hmm s io) 0 p).2.1.map Prod.fst, errOf (drive μ (Steps.cutL P k hmm s io) 0 p).2.2⟩
      (strdecode P.sys.gbk s) :=
  C82_any_interleaving P hT hσ k hmm s io _ _ (drive_runs μ _ 0 p)

/-- The generator is the function of the sequential model when nobody interferes. -/
theorem C82_alone (P : PSys F) (k : Nat) (hmm : Bool) (s : PyText) (io : Bool) (p : PWorld) :
    (drive (fun _ p => p) (Steps.cutL P k hmm s io) 0 p).1 = (cutPW P p k hmm s io).1 ∧
    (drive (fun _ p => p) (Steps.cutL P k hmm s io) 0 p).2.1 = (cutPW P p k hmm s io).2.out ∧
    errOf (drive (fun _ p => p) (Steps.cutL P k hmm s io) 0 p).2.2 = (cutPW P p k hmm s io).2.err := by
  rw [← Steps.sem_cutL]
  unfold sem
  exact ⟨rfl, rfl, by cases h : (drive (fun _ p => p) (Steps.cutL P k hmm s io) 0 p).2.2 <;> simp [errOf, h]⟩

/-- After the first word the caller gives 大学 another tag and cuts another text, which moves the tag to the table. -/
def retag (n : Nat) (p : PWorld) : PWorld :=
  if n = 0 then (cutPW samplePSys { p with w := addFreq p.w 0 (lit ['大', '学']) 50 (some (lit ['z', 'z'])) } 0 true (.str []) true).1
  else p

/-- The change is noticed within a block, and nothing is lost. -/
example : (drive retag (Steps.cutL samplePSys 0 false (.str (lit ['北', '京', '大', '学'])) true) 0 samplePWorld).2.1 =
      [(lit ['北', '京'], lit ['n', 's']), (lit ['大', '学'], lit ['z', 'z'])] ∧
    (drive (fun _ p => p) (Steps.cutL samplePSys 0 false (.str (lit ['北', '京', '大', '学'])) true) 0 samplePWorld).2.1 =
      [(lit ['北', '京'], lit ['n', 's']), (lit ['大', '学'], lit ['n'])] := by
  decide +kernel

/-! ## C83 -/

/-- The state after `c`, if the others do `μ n` just before its `n`-th access. -/
def between {W α β : Type} (μ : Nat → W → W) : Co W α β → Nat → W → W
  | .ret _, _, w => w
  | .raise _, _, w => w
  | .yield _ k, n, w => between μ k n w
  | .act f k, n, w => between μ (k (μ n w)) (n + 1) (f (μ n w))

/-- Other threads call `add_word(word, freq, tag)` on tokenizer `t`. -/
def addAll (t : Nat) (adds : List (Str × Int × Str)) (p : PWorld) : PWorld :=
  adds.foldl (fun p a => { p with w := addFreq p.w t a.1 a.2.1 (some a.2.2) }) p

/-- The tag that POS tokenizer `k` on tokenizer `t` is going to use for `word`: the one pending in the tokenizer, or else the one in the
table. -/
def tagNow (p : PWorld) (k t : Nat) (word : Str) : Option Str :=
  match (p.w.tok t).tags.get? word with
  | some tag => some tag
  | none => (p.pos k).tab.get? word

theorem addAll_spec (t : Nat) (adds : List (Str × Int × Str)) (p : PWorld) :
    (addAll t adds p).pos = p.pos ∧
    ((PyDict.keys (p.w.tok t).tags).Nodup → (PyDict.keys ((addAll t adds p).w.tok t).tags).Nodup) ∧
    ∀ word, (∀ a ∈ adds, a.1 ≠ word) → ((addAll t adds p).w.tok t).tags.get? word = (p.w.tok t).tags.get? word := by
  unfold addAll
  induction adds generalizing p with
  | nil => exact ⟨rfl, id, fun _ _ => rfl⟩
  | cons a adds ih =>
    rw [List.foldl_cons]
    obtain ⟨h1, h2, h3⟩ := ih { p with w := addFreq p.w t a.1 a.2.1 (some a.2.2) }
    refine ⟨h1, fun hn => h2 ?_, fun word hw => ?_⟩
    · simp only [addFreq_tok_self]
      split
      · exact PyDict.nodup_keys_set _ _ _ hn
      · exact hn
    · rw [h3 word (fun b hb => hw b (List.mem_cons_of_mem _ hb))]
      simp only [addFreq_tok_self]
      split
      · rw [PyDict.get?_set_of_ne _ _ _ _ (hw a List.mem_cons_self)]
      · rfl

/-- C83: `makesure_userdict_loaded` while other threads add words with tags: it makes no difference to the tag of a word to which
none is given just between the update of the table and the replacement of the pending tags: the tag is the one given last.  (If
no tags are pending at first, there is only one access.) -/
theorem C83_tag_kept (p : PWorld) (k t : Nat) (hk : (p.pos k).tok = t) (hn : (PyDict.keys (p.w.tok t).tags).Nodup)
    (adds : Nat → List (Str × Int × Str)) (word : Str) (hw : ∀ a ∈ adds 2, a.1 ≠ word) :
    tagNow (between (fun n => addAll t (adds n)) (Steps.moveTagsL k : Co PWorld Pair Unit) 0 p) k t word =
      if ((addAll t (adds 0) p).w.tok t).tags = [] then tagNow (addAll t (adds 0) p) k t word
      else tagNow (addAll t (adds 2) (addAll t (adds 1) (addAll t (adds 0) p))) k t word := by
  obtain ⟨hp0, hn0, -⟩ := addAll_spec t (adds 0) p
  obtain ⟨hp1, hn1, -⟩ := addAll_spec t (adds 1) (addAll t (adds 0) p)
  unfold Steps.moveTagsL
  simp only [bind_def, Co.get, Co.bind, between, id]
  have hk0 : ((addAll t (adds 0) p).pos k).tok = t := by rw [hp0]; exact hk
  rw [hk0]
  by_cases hpend : ((addAll t (adds 0) p).w.tok t).tags = []
  · rw [if_pos hpend]
    simp only [hpend]
    rfl
  · rw [if_neg hpend]
    simp only [hpend, ne_eq, not_false_eq_true, decide_true, if_true, between]
    generalize hq : addAll t (adds 1) (addAll t (adds 0) p) = q at *
    have hkq : (q.pos k).tok = t := by rw [hp1]; exact hk0
    have hnq := hn1 (hn0 hn)
    rw [hkq]
    have hq2 := addAll_spec t (adds 2) q
    have hp2 := (addAll_spec t (adds 2) (q.setPos k ⟨t, PyDict.update (q.pos k).tab (q.w.tok t).tags⟩)).1
    simp only [hp2, setPos_self]
    unfold tagNow
    simp only [setTok_tok, if_true, setPos_self]
    have hnil : PyDict.get? ([] : PyDict Str Str) word = none := rfl
    rw [hnil, get?_update _ _ hnq, hq2.1, hq2.2.2 word hw]
    cases (q.w.tok t).tags.get? word <;> rfl

/-- C83, negative part: a tag given between the update of the table and the replacement of the pending tags is lost: the word
is in the dictionary but will be tagged 'x'. -/
theorem C83_tag_lost : ∃ (p : PWorld) (adds : Nat → List (Str × Int × Str)) (word tag : Str),
    (p.pos 0).tok = 0 ∧ (PyDict.keys (p.w.tok 0).tags).Nodup ∧ tag ≠ [] ∧
    (∀ n, adds n = if n = 2 then [(word, 90, tag)] else []) ∧
    (let q := between (fun n => addAll 0 (adds n)) (Steps.moveTagsL 0 : Co PWorld Pair Unit) 0 p;
      (q.w.tok 0).freq.get? word = some 90 ∧ tagNow q 0 0 word = none ∧
      (cutPW samplePSys q 0 false (.str word) true).2 = Gen.ok [(word, lit ['x'])]) :=
  ⟨addAll 0 [(lit ['大', '厦'], 3, lit ['n'])] samplePWorld,
    fun n => if n = 2 then [(lit ['北', '京', '城'], 90, lit ['z', 'z'])] else [],
    lit ['北', '京', '城'], lit ['z', 'z'], by decide +kernel, by decide +kernel, by decide, fun _ => rfl, by decide +kernel⟩

/-- The hypotheses of `C83_tag_kept` with a word added at the other points; it keeps its tag and 大厦 too. -/
example : let p := addAll 0 [(lit ['大', '厦'], 3, lit ['n'])] samplePWorld
    let q := between (fun n => addAll 0 (if n = 1 then [(lit ['北', '京', '城'], 90, lit ['z', 'z'])] else []))
      (Steps.moveTagsL 0 : Co PWorld Pair Unit) 0 p
    (p.pos 0).tok = 0 ∧ (PyDict.keys (p.w.tok 0).tags).Nodup ∧ ((addAll 0 [] p).w.tok 0).tags ≠ [] ∧
    tagNow q 0 0 (lit ['北', '京', '城']) = some (lit ['z', 'z']) ∧ tagNow q 0 0 (lit ['大', '厦']) = some (lit ['n']) := by
  decide +kernel

end Jieba.Props
