import Verif.Model.PosModule
import Verif.Proofs.PosWorld
import Verif.Proofs.LazySearch
import Verif.Props.PosWorld
import Verif.Props.ParallelHistory
import Verif.Props.Analyse
/-!
# C94: the module-level functions in parallel mode, with workers that keep state
-/

set_option linter.unusedSectionVars false

namespace Jieba.Props
open Jieba Jieba.Spec Jieba.Pos

variable {F : Type _} [LinearOrder F]

theorem runCo_eq_sem {W α : Type _} (c : Co W α Unit) (w : W) : runCo c w = Co.sem c w := by
  unfold runCo Co.sem
  rcases h : Co.drive (fun _ w => w) c 0 w with ⟨w', l, r⟩
  cases r <;> rfl

/-- The operation leaves parallel mode alone: any operation on tokenizers, POS tokenizers or files. -/
def PlainM : MOp → Prop
  | .op _ => True
  | _ => False

theorem runMOps_plain (P : PSys F) (m : PModule) (ops : List MOp) (h : ∀ op ∈ ops, PlainM op) :
    (runMOps P m ops).pool = m.pool ∧ (runMOps P m ops).parallel = m.parallel := by
  induction ops generalizing m with
  | nil => exact ⟨rfl, rfl⟩
  | cons op ops ih =>
    have := ih (op.run P m) (fun o ho => h o (List.mem_cons_of_mem _ ho))
    cases op with
    | op o => exact this
    | enable io => exact (h (.enable io) (by simp)).elim
    | disable => exact (h .disable (by simp)).elim

theorem moveTags_freq (p : PWorld) (k t : Nat) :
    ((moveTags p k).w.tok t).freq = (p.w.tok t).freq ∧ ((moveTags p k).w.tok t).total = (p.w.tok t).total ∧
    (moveTags p k).w.force = p.w.force := by
  rw [(moveTags_spec p k).2.2.2, setTok_tok]
  refine ⟨?_, ?_, rfl⟩ <;> (split <;> [(next h => rw [h]); rfl])

theorem moveTags_env (P : PSys F) (p : PWorld) (k t : Nat) : (moveTags p k).w.env P.sys t = p.w.env P.sys t := by
  obtain ⟨h1, h2, h3⟩ := moveTags_freq p k t
  unfold World.env
  rw [h1, h2, h3]

/-- What a task does to an initialised worker. -/
theorem task_after (P : PSys F) (p : PWorld) (ht : (p.pos 0).tok = 0) (hi : (p.w.tok 0).initialized = true) (t : Task) :
    t.after P p = p ∨ t.after P p = moveTags p 0 := by
  cases t with
  | cut ca hm io part =>
    left
    simp only [Task.after, taskCut, cutW_of_init P.sys p.w 0 _ _ _ _ hi]
    cases ca <;> cases hm <;> rfl
  | search hm io part =>
    left
    simp only [Task.after, taskSearch, runCo_eq_sem, Lazy.sem_cutForSearchL P.sys 0 _ _ _ _ hi]
    cases hm <;> rfl
  | tag hm io part =>
    right
    simp only [Task.after, taskTag]
    rw [cutPW_of_init P p 0 _ _ _ (by rw [ht]; exact hi), cutPW_of_init P p 0 _ _ _ (by rw [ht]; exact hi)]
    cases hm <;> rfl

theorem workerState_cases (P : PSys F) (snap p : PWorld) (ht : (snap.pos 0).tok = 0) (hi : (snap.w.tok 0).initialized = true)
    (h : WorkerState P snap p) : p = snap ∨ p = moveTags snap 0 := by
  obtain ⟨ts, rfl⟩ := h
  have key : ∀ ts : List Task, ∀ q, q = snap ∨ q = moveTags snap 0 →
      ts.foldl (Task.after P) q = snap ∨ ts.foldl (Task.after P) q = moveTags snap 0 := by
    intro ts
    induction ts with
    | nil => exact fun q h => h
    | cons t ts ih =>
      intro q hq
      refine ih _ ?_
      rcases hq with rfl | rfl
      · exact task_after P _ ht hi t
      · right
        rcases task_after P (moveTags snap 0) (by rw [(moveTags_spec snap 0).1]; exact ht)
          (by rw [moveTags_initialized]; exact hi) t with h | h
        · exact h
        · rw [h, moveTags_idem]
  exact key ts snap (Or.inl rfl)

theorem poolMapW_iff {σ α β : Type _} (R : σ → Prop) (f : σ → α → Except PyErr β) (f0 : α → Except PyErr β)
    (hf : ∀ x, R x → f x = f0) (hR : ∃ x, R x) (parts : List α) (r : Except PyErr (List β)) :
    PoolMapW R f parts r ↔ PoolMap f0 parts r := by
  obtain ⟨x0, hx0⟩ := hR
  constructor
  · intro h
    cases h with
    | ok rs h =>
      refine .ok rs ?_
      induction h with
      | nil => rfl
      | cons h _ ih =>
        obtain ⟨x, hx, he⟩ := h
        rw [List.map_cons, List.map_cons, ih, ← hf x hx, he]
    | err part x e hp hx he => exact .err part e hp (by rw [← hf x hx]; exact he)
  · intro h
    cases h with
    | ok rs h =>
      refine .ok rs ?_
      induction parts generalizing rs with
      | nil => cases rs with
        | nil => exact .nil
        | cons _ _ => simp at h
      | cons p parts ih => cases rs with
        | nil => simp at h
        | cons a rs =>
          simp only [List.map_cons, List.cons.injEq] at h
          exact .cons ⟨x0, hx0, by rw [hf x0 hx0]; exact h.1⟩ (ih rs h.2)
    | err part e hp he => exact .err part x0 e hp hx0 (by rw [hf x0 hx0]; exact he)

/-- The state after a successful `enable_parallel`. -/
theorem enableParallelP_ok (P : PSys F) (m m1 : PModule) (io : Bool) (he : enableParallelP P m io = (m1, .ok ())) :
    (m1.p.w.tok 0).initialized = true ∧ m1.pool = some m1.p ∧ m1.parallel = true ∧ m1.p.pos = m.p.pos := by
  unfold enableParallelP at he
  rcases checkInit_prim P.sys ⟨fun _ _ _ _ _ => False, fun _ => False, fun _ _ => False, fun _ => False, fun _ => False⟩ m.p.w 0 io with
    ⟨e, h1, -⟩ | ⟨w', h1, h2, -⟩
  · rw [h1] at he; simp at he
  · rw [h1] at he
    simp at he
    subst he
    exact ⟨h2, rfl, rfl, rfl⟩

/-- C94: after a successful `enable_parallel` and any operations on dictionaries, tokenizers and files, and whatever the workers
have done before, the possible outcomes of `jieba.cut` are exactly those of parallel segmentation with the dictionary as of
`enable_parallel`. -/
theorem C94_cut (P : PSys F) (m m1 : PModule) (io : Bool) (ht : (m.p.pos 0).tok = 0)
    (he : enableParallelP P m io = (m1, .ok ())) (ops : List MOp) (h : ∀ op ∈ ops, PlainM op) (ca hm io' : Bool)
    (sentence : PyText) (g : Gen Str) :
    JCut P (runMOps P m1 ops) ca hm io' sentence g ↔ Jieba.PCut (m1.p.w.env P.sys 0) ca hm (strdecode P.sys.gbk sentence) g := by
  obtain ⟨hi, hp, hq, hk⟩ := enableParallelP_ok P m m1 io he
  obtain ⟨h1, h2⟩ := runMOps_plain P m1 ops h
  have hf : ∀ x, WorkerState P m1.p x → (fun part => (taskCut P ca hm io' x part).2.toList) = workerCut (m1.p.w.env P.sys 0) ca hm := by
    intro x hx
    have hx' := workerState_cases P m1.p x (by rw [hk]; exact ht) hi hx
    have hxi : (x.w.tok 0).initialized = true := by
      rcases hx' with rfl | rfl
      · exact hi
      · rw [moveTags_initialized]; exact hi
    have hxe : x.w.env P.sys 0 = m1.p.w.env P.sys 0 := by
      rcases hx' with rfl | rfl
      · rfl
      · exact moveTags_env P _ _ _
    funext part
    unfold taskCut workerCut
    simp only [cutW_of_init P.sys x.w 0 _ _ _ _ hxi, strdecode, hxe]
    cases ca <;> cases hm <;> rfl
  unfold JCut mapPool Jieba.PCut
  rw [h2, h1, hp, hq]
  simp only [if_true]
  exact exists_congr fun r => and_congr_left fun _ => poolMapW_iff _ _ _ hf ⟨m1.p, [], rfl⟩ _ r

/-- C94 for `jieba.cut_for_search`. -/
theorem C94_cut_for_search (P : PSys F) (m m1 : PModule) (io : Bool) (ht : (m.p.pos 0).tok = 0)
    (he : enableParallelP P m io = (m1, .ok ())) (ops : List MOp) (h : ∀ op ∈ ops, PlainM op) (hm io' : Bool)
    (sentence : PyText) (g : Gen Str) :
    JCutForSearch P (runMOps P m1 ops) hm io' sentence g ↔
      Jieba.PCutForSearch (m1.p.w.env P.sys 0) hm (strdecode P.sys.gbk sentence) g := by
  obtain ⟨hi, hp, hq, hk⟩ := enableParallelP_ok P m m1 io he
  obtain ⟨h1, h2⟩ := runMOps_plain P m1 ops h
  have hf : ∀ x, WorkerState P m1.p x → (fun part => (taskSearch P hm io' x part).2.toList) =
      fun part => (cutForSearch (m1.p.w.env P.sys 0) hm part).toList := by
    intro x hx
    have hx' := workerState_cases P m1.p x (by rw [hk]; exact ht) hi hx
    have hxi : (x.w.tok 0).initialized = true := by
      rcases hx' with rfl | rfl
      · exact hi
      · rw [moveTags_initialized]; exact hi
    have hxe : x.w.env P.sys 0 = m1.p.w.env P.sys 0 := by
      rcases hx' with rfl | rfl
      · rfl
      · exact moveTags_env P _ _ _
    funext part
    unfold taskSearch cutForSearch
    simp only [runCo_eq_sem, Lazy.sem_cutForSearchL P.sys 0 _ _ _ _ hxi, cutW_of_init P.sys x.w 0 _ _ _ _ hxi, strdecode, ← hxe]
    cases hm <;> rfl
  unfold JCutForSearch mapPool Jieba.PCutForSearch
  rw [h2, h1, hp, hq]
  simp only [if_true]
  exact exists_congr fun r => and_congr_left fun _ => poolMapW_iff _ _ _ hf ⟨m1.p, [], rfl⟩ _ r

/-- C94 for `jieba.posseg.cut`: the tags are those at `enable_parallel`, including the pending ones of added words. -/
theorem C94_posseg_cut (P : PSys F) (m m1 : PModule) (io : Bool) (ht : (m.p.pos 0).tok = 0)
    (he : enableParallelP P m io = (m1, .ok ())) (ops : List MOp) (h : ∀ op ∈ ops, PlainM op) (hm io' : Bool)
    (sentence : PyText) (g : Gen Pair) :
    JPosCut P (runMOps P m1 ops) hm io' sentence g ↔
      Pos.PCut { (m1.p.env P 0) with tab := PyDict.update (m1.p.pos 0).tab (m1.p.w.tok 0).tags } hm
        (strdecode P.sys.gbk sentence) g := by
  obtain ⟨hi, hp, hq, hk⟩ := enableParallelP_ok P m m1 io he
  obtain ⟨h1, h2⟩ := runMOps_plain P m1 ops h
  have ht1 : (m1.p.pos 0).tok = 0 := by rw [hk]; exact ht
  have henv : (moveTags m1.p 0).env P 0 = { (m1.p.env P 0) with tab := PyDict.update (m1.p.pos 0).tab (m1.p.w.tok 0).tags } := by
    unfold PWorld.env
    rw [(moveTags_spec m1.p 0).2.2.1, (moveTags_spec m1.p 0).1, (moveTags_freq m1.p 0 _).1, (moveTags_freq m1.p 0 _).2.1, ht1]
  have hf : ∀ x, WorkerState P m1.p x → (fun part => (taskTag P hm io' x part).2.toList) =
      fun part => (Pos.cut { (m1.p.env P 0) with tab := PyDict.update (m1.p.pos 0).tab (m1.p.w.tok 0).tags } hm part).toList := by
    intro x hx
    have hx' := workerState_cases P m1.p x ht1 hi hx
    have hm' : moveTags x 0 = moveTags m1.p 0 := by
      rcases hx' with rfl | rfl
      · rfl
      · exact moveTags_idem _ _
    have hxi : (x.w.tok (x.pos 0).tok).initialized = true := by
      rcases hx' with rfl | rfl
      · rw [ht1]; exact hi
      · rw [(moveTags_spec m1.p 0).1, ht1, moveTags_initialized]; exact hi
    funext part
    unfold taskTag
    rw [← henv, ← hm']
    cases hm <;> simp [cutPW_of_init P x 0 _ _ _ hxi, strdecode]
  unfold JPosCut mapPool Pos.PCut
  rw [h1, hp]
  simp only [Option.isNone_some, Bool.false_eq_true, if_false]
  exact exists_congr fun r => and_congr_left fun _ => poolMapW_iff _ _ _ hf ⟨m1.p, [], rfl⟩ _ r

/-- C94: in every state the modules can reach, the parallel versions are bound exactly when there is a pool; so `pool.map` never finds
`None`, and `jieba.cut` and `jieba.posseg.cut` are parallel at the same times. -/
theorem C94_pool_present (P : PSys F) (p : PWorld) (ops : List MOp) :
    (runMOps P ⟨p, none, false⟩ ops).parallel = (runMOps P ⟨p, none, false⟩ ops).pool.isSome := by
  have key : ∀ ops : List MOp, ∀ m : PModule, m.parallel = m.pool.isSome → (runMOps P m ops).parallel = (runMOps P m ops).pool.isSome := by
    intro ops
    induction ops with
    | nil => exact fun m h => h
    | cons op ops ih =>
      intro m h
      refine ih _ ?_
      cases op with
      | op o => exact h
      | disable => rfl
      | enable io =>
        show (enableParallelP P m io).1.parallel = (enableParallelP P m io).1.pool.isSome
        unfold enableParallelP
        split
        · exact h
        · rfl
  exact key ops _ rfl

/-- C94: `jieba.lcut` and `jieba.lcut_for_search` are what `list(jieba.cut(…))` and `list(jieba.cut_for_search(…))` would be after
`disable_parallel()`. -/
theorem C94_lcut_is_serial (P : PSys F) (m : PModule) (ca hm io : Bool) (sentence : PyText) (g : Gen Str) :
    (JCut P (disableParallelP m) ca hm io sentence g → jLcut P m ca hm io sentence = g.toList) ∧
    (JCutForSearch P (disableParallelP m) hm io sentence g → jLcutForSearch P m hm io sentence = g.toList) := by
  constructor
  · rintro rfl; rfl
  · rintro rfl; rfl

theorem poolMap_one {β : Type _} (f : Str → Except PyErr (List β)) (p : Str) (x : List β) (hx : f p = .ok x) :
    ∀ g, (∃ r, PoolMap f [p] r ∧ g = yieldAll r) ↔ g = Gen.ok x := by
  intro g
  constructor
  · rintro ⟨r, h, rfl⟩
    cases h with
    | ok rs hr =>
      simp only [List.map_cons, List.map_nil, hx] at hr
      cases rs with
      | nil => simp at hr
      | cons y rs =>
        simp at hr
        rw [hr.1, hr.2]
        simp [yieldAll]
    | err q e hq he =>
      simp at hq; subst hq; rw [hx] at he; simp at he
  · rintro rfl
    exact ⟨.ok [x], .ok _ (by simp [hx]), by simp [yieldAll]⟩

/-- The modules right after import. -/
def importedModule : PModule := ⟨samplePWorld, none, false⟩
/-- `add_word("北京城", 90, "zz")`, `enable_parallel()`, `del_word("北京")`, `add_word("大学", 90, "zz")`. -/
def mixedOps : List MOp :=
  [.op (.op (.delWord 0 (.str (lit ['北', '京'])) true)), .op (.op (.addWord 0 (.str (lit ['大', '学'])) (.int 90) (some (lit ['z', 'z'])) true))]
def withTag : PModule :=
  runMOps samplePSys importedModule [.op (.op (.addWord 0 (.str (lit ['北', '京', '城'])) (.int 90) (some (lit ['z', 'z'])) true))]

/-- The hypotheses hold. -/
example : (withTag.p.pos 0).tok = 0 ∧ (enableParallelP samplePSys withTag true).2 = .ok () ∧ (∀ op ∈ mixedOps, PlainM op) ∧
    (withTag.p.w.tok 0).tags ≠ [] := by
  refine ⟨by decide +kernel, by rfl, ?_, by decide +kernel⟩
  intro op h
  simp [mixedOps] at h
  rcases h with rfl | rfl <;> trivial

/-- C94, so that the functions of one module disagree: after `enable_parallel()` and `del_word("北京")`, `jieba.cut` still yields 北京
and `jieba.lcut` does not; a tag added later is not used by the workers of `jieba.posseg.cut`, one that was pending is. -/
theorem C94_functions_disagree :
    let m := runMOps samplePSys (enableParallelP samplePSys withTag true).1 mixedOps
    (∀ g, JCut samplePSys m false false true (.str (lit ['北', '京'])) g ↔ g = Gen.ok [lit ['北', '京']]) ∧
    jLcut samplePSys m false false true (.str (lit ['北', '京'])) = .ok [lit ['北'], lit ['京']] ∧
    (∀ g, JPosCut samplePSys m false true (.str (lit ['北', '京', '城', '大', '学'])) g ↔
      g = Gen.ok [(lit ['北', '京', '城'], lit ['z', 'z']), (lit ['大', '学'], lit ['n'])]) ∧
    (cutPW samplePSys m.p 0 false (.str (lit ['北', '京', '城', '大', '学'])) true).2 =
      Gen.ok [(lit ['北', '京', '城'], lit ['z', 'z']), (lit ['大', '学'], lit ['z', 'z'])] := by
  have hops : ∀ op ∈ mixedOps, PlainM op := by
    intro op h
    simp [mixedOps] at h
    rcases h with rfl | rfl <;> trivial
  have he : enableParallelP samplePSys withTag true = ((enableParallelP samplePSys withTag true).1, .ok ()) := rfl
  have ht : (withTag.p.pos 0).tok = 0 := by decide +kernel
  refine ⟨?_, by decide +kernel, ?_, by decide +kernel⟩
  · intro g
    rw [C94_cut samplePSys withTag _ true ht he mixedOps hops]
    have hsp : splitlinesKeep (strdecode samplePSys.sys.gbk (.str (lit ['北', '京']))) = [lit ['北', '京']] := by decide +kernel
    unfold Jieba.PCut
    rw [hsp]
    exact poolMap_one _ _ _ (by decide +kernel) g
  · intro g
    rw [C94_posseg_cut samplePSys withTag _ true ht he mixedOps hops]
    have hsp : splitlinesKeep (strdecode samplePSys.sys.gbk (.str (lit ['北', '京', '城', '大', '学']))) = [lit ['北', '京', '城', '大', '学']] := by
      decide +kernel
    unfold Pos.PCut
    rw [hsp]
    exact poolMap_one _ _ _ (by decide +kernel) g

end Jieba.Props
