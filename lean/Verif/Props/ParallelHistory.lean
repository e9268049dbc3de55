import Verif.Model.Module
import Verif.Proofs.World
import Verif.Props.Parallel
import Verif.Props.Dictionary
/-!
# C18: parallel workers keep the dictionary they were started with
-/

set_option linter.unusedSectionVars false

namespace Jieba.Props
open Jieba Jieba.Spec

variable {F : Type _} [LinearOrder F]

/-- The operation leaves parallel mode alone: any operation on tokenizers or files. -/
def IsPlain : ModOp → Prop
  | .op _ => True
  | _ => False

theorem workerCutW_of_init (S : Sys F) (snap : World) (h : (snap.tok 0).initialized = true) (ca hm io : Bool) :
    workerCutW S snap ca hm io = workerCut (snap.env S 0) ca hm := by
  funext part
  unfold workerCutW workerCut
  simp only [cutW_of_init S snap 0 _ _ _ _ h, strdecode]

theorem runModOps_plain (S : Sys F) (m : Module) (ops : List ModOp) (h : ∀ op ∈ ops, IsPlain op) :
    (runModOps S m ops).pool = m.pool ∧ (runModOps S m ops).parallel = m.parallel := by
  induction ops generalizing m with
  | nil => exact ⟨rfl, rfl⟩
  | cons op ops ih =>
    have := ih (op.run S m) (fun o ho => h o (List.mem_cons_of_mem _ ho))
    cases op with
    | op o => exact this
    | enable io => exact (h (.enable io) (by simp)).elim
    | disable => exact (h .disable (by simp)).elim

/-- C18: after a successful `enable_parallel` and any operations on dictionaries, tokenizers and files, the possible
outcomes of `jieba.cut` are exactly those of parallel segmentation with the dictionary as of `enable_parallel`. -/
theorem C18_workers_keep_dictionary (S : Sys F) (m m1 : Module) (io : Bool) (he : enableParallel S m io = (m1, .ok ()))
    (ops : List ModOp) (h : ∀ op ∈ ops, IsPlain op) (ca hm io' : Bool) (sentence : PyText) (g : Gen Str) :
    ModuleCut S (runModOps S m1 ops) ca hm io' sentence g ↔
      PCut (m1.w.env S 0) ca hm (strdecode S.gbk sentence) g := by
  unfold enableParallel at he
  rcases checkInit_prim S ⟨fun _ _ _ _ _ => False, fun _ => False, fun _ _ => False, fun _ => False, fun _ => False⟩ m.w 0 io with
    ⟨e, h1, -⟩ | ⟨w', h1, h2, -⟩
  · rw [h1] at he; simp at he
  · rw [h1] at he
    simp at he
    subst he
    obtain ⟨hp1, hp2⟩ := runModOps_plain S ⟨w', some w', true⟩ ops h
    unfold ModuleCut
    rw [hp2, hp1]
    simp only [if_true]
    rw [workerCutW_of_init S w' h2]
    exact Iff.rfl

/-- C18: `enable_parallel` fails exactly if the dictionary cannot be loaded, and then nothing has changed: the process state, an earlier pool
and the functions bound to `cut` and `cut_for_search` are what they were. -/
theorem C18_enable_fails (S : Sys F) (m : Module) (io : Bool) (e : PyErr) :
    (enableParallel S m io).2 = .error e ↔ (checkInit S m.w 0 io).2 = .error e ∧ enableParallel S m io = (m, .error e) := by
  unfold enableParallel
  rcases checkInit_prim S ⟨fun _ _ _ _ _ => True, fun _ => True, fun _ _ => True, fun _ => True, fun _ => True⟩ m.w 0 io with ⟨e', h, -⟩ | ⟨w', h, -, -⟩
  · rw [h]
    simp
  · rw [h]
    simp

/-- Without its dictionary file the process cannot enable parallel mode. -/
example : (enableParallel sampleSys ⟨⟨fun _ => none, 0, [], [], fun _ => Tok.new (some (lit ['/', 'x']))⟩, none, false⟩ true).2 = .error .fileNotFound := by
  decide

/-- C18: from a process without a pool no history leads to a state where the parallel version is bound but there is no pool, so
`jieba.cut` never calls `None.map`. -/
theorem C18_pool_present (S : Sys F) (w : World) (ops : List ModOp) :
    (runModOps S ⟨w, none, false⟩ ops).parallel = (runModOps S ⟨w, none, false⟩ ops).pool.isSome := by
  have key : ∀ ops : List ModOp, ∀ m : Module, m.parallel = m.pool.isSome → (runModOps S m ops).parallel = (runModOps S m ops).pool.isSome := by
    intro ops
    induction ops with
    | nil => exact fun m h => h
    | cons op ops ih =>
      intro m h
      refine ih _ ?_
      cases op with
      | op o => exact h
      | disable => rfl
      | enable io =>
        show (enableParallel S m io).1.parallel = (enableParallel S m io).1.pool.isSome
        unfold enableParallel
        split
        · exact h
        · rfl
  exact key ops _ rfl

/-- C18: enabling parallel mode again, from whatever state, makes the workers use the dictionary of that moment. -/
theorem C18_reenable_refreshes (S : Sys F) (m : Module) (hi : (m.w.tok 0).initialized = true) (io ca hm io' : Bool)
    (sentence : PyText) (g : Gen Str) :
    ModuleCut S (runModOps S m [.enable io]) ca hm io' sentence g ↔
      PCut (m.w.env S 0) ca hm (strdecode S.gbk sentence) g := by
  have he : enableParallel S m io = (⟨m.w, some m.w, true⟩, .ok ()) := by
    unfold enableParallel; rw [checkInit_of_init S m.w 0 io hi]
  have := C18_workers_keep_dictionary S m _ io he [] (by simp) ca hm io' sentence g
  simp only [runModOps, List.foldl_cons, List.foldl_nil, ModOp.run, he] at this ⊢
  exact this

/-- C18: after `disable_parallel` the current dictionary is used, whatever happened before and after. -/
theorem C18_disable_returns_to_serial (S : Sys F) (m : Module) (ops : List ModOp) (h : ∀ op ∈ ops, IsPlain op)
    (ca hm io : Bool) (sentence : PyText) (g : Gen Str) :
    ModuleCut S (runModOps S m (.disable :: ops)) ca hm io sentence g ↔
      g = (cutW S (runModOps S m (.disable :: ops)).w 0 ca hm sentence io).2 := by
  have : (runModOps S m (.disable :: ops)).parallel = false := (runModOps_plain S (disableParallel m) ops h).2
  unfold ModuleCut
  rw [this]
  simp

/-- C18, so that results do differ: after `enable_parallel` and `del_word("北京")`, parallel `cut` still yields 北京, while
serial `cut` and `cut` after enabling again do not. -/
theorem C18_parallel_and_serial_differ :
    let before : List ModOp := [.enable true, .op (.delWord 0 (.str (lit ['北', '京'])) true)]
    let text : PyText := .str (lit ['北', '京'])
    (∀ g, ModuleCut sampleSys (runModOps sampleSys ⟨sampleWorld, none, false⟩ before) false false true text g ↔
      g = Gen.ok [lit ['北', '京']]) ∧
    (∀ g, ModuleCut sampleSys (runModOps sampleSys ⟨sampleWorld, none, false⟩ (before ++ [.disable])) false false true text g ↔
      g = Gen.ok [lit ['北'], lit ['京']]) ∧
    (∀ g, ModuleCut sampleSys (runModOps sampleSys ⟨sampleWorld, none, false⟩ (before ++ [.enable true])) false false true text g ↔
      g = Gen.ok [lit ['北'], lit ['京']]) := by
  have one : ∀ (f : Str → Except PyErr (List Str)) (p : Str) (r : Except PyErr (List (List Str))) (x : List Str),
      f p = .ok x → (PoolMap f [p] r ↔ r = .ok [x]) := by
    intro f p r x hx
    constructor
    · intro h
      cases h with
      | ok rs hr =>
        simp only [List.map_cons, List.map_nil, hx] at hr
        cases rs with
        | nil => simp at hr
        | cons y rs =>
          simp at hr
          rw [hr.1, hr.2]
      | err q e hq he =>
        simp at hq; subst hq; rw [hx] at he; simp at he
    · rintro rfl
      exact .ok _ (by simp [hx])
  have hsp : splitlinesKeep (lit ['北', '京']) = [lit ['北', '京']] := by decide +kernel
  refine ⟨?_, ?_, ?_⟩
  · intro g
    show (∃ r, PoolMap _ (splitlinesKeep (lit ['北', '京'])) r ∧ g = yieldAll r) ↔ _
    rw [hsp]
    constructor
    · rintro ⟨r, hr, rfl⟩
      rw [one _ _ r [lit ['北', '京']] (by decide +kernel)] at hr
      rw [hr]; rfl
    · rintro rfl
      exact ⟨_, (one _ _ _ [lit ['北', '京']] (by decide +kernel)).mpr rfl, rfl⟩
  · intro g
    show g = _ ↔ _
    have : (cutW sampleSys (runModOps sampleSys ⟨sampleWorld, none, false⟩
        ([.enable true, .op (.delWord 0 (.str (lit ['北', '京'])) true)] ++ [.disable])).w 0 false false
        (.str (lit ['北', '京'])) true).2 = Gen.ok [lit ['北'], lit ['京']] := by decide +kernel
    rw [this]
  · intro g
    show (∃ r, PoolMap _ (splitlinesKeep (lit ['北', '京'])) r ∧ g = yieldAll r) ↔ _
    rw [hsp]
    constructor
    · rintro ⟨r, hr, rfl⟩
      rw [one _ _ r [lit ['北'], lit ['京']] (by decide +kernel)] at hr
      rw [hr]; rfl
    · rintro rfl
      exact ⟨_, (one _ _ _ [lit ['北'], lit ['京']] (by decide +kernel)).mpr rfl, rfl⟩

/-- Enabling succeeds in a fresh process. -/
example : (enableParallel sampleSys ⟨sampleWorld, none, false⟩ true).2 = .ok () := by rfl

end Jieba.Props
