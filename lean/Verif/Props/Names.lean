import Verif.Spec.Names
import Verif.Props.SampleWorld
/-!
# C143: assigning to `jieba.dt`
-/

namespace Jieba.Props
open Jieba Jieba.Spec

section
variable {F : Type _} [LinearOrder F]

theorem runNames_append (S : Sys F) (n : Names) (a b : List NameOp) : runNames S n (a ++ b) = runNames S (runNames S n a) b := List.foldl_append

theorem run_dt (S : Sys F) (n : Names) (o : NameOp) (h : ∀ u, .bind u ≠ o) : (o.run S n).dt = n.dt := by
  cases o with
  | op o => rfl
  | bind t => exact absurd rfl (h t)
  | enable io =>
    simp only [NameOp.run]
    split <;> rfl
  | disable => rfl

theorem runNames_dt (S : Sys F) (n : Names) (ops : List NameOp) (h : ∀ u, .bind u ∉ ops) : (runNames S n ops).dt = n.dt := by
  induction ops generalizing n with
  | nil => rfl
  | cons o ops ih =>
    show (runNames S (o.run S n) ops).dt = n.dt
    rw [ih _ (fun u hu => h u (List.mem_cons_of_mem _ hu)), run_dt S n o (fun u hu => h u (by rw [hu]; exact List.mem_cons_self))]

/-- The name `dt` means the tokenizer it was last bound to. -/
theorem C143_dt (S : Sys F) (w : World) (ops : List NameOp) (t : Nat) : LastBound ops t ↔ (runNames S (Names.start w) ops).dt = t := by
  constructor
  · rintro (⟨pre, post, rfl, h⟩ | ⟨rfl, h⟩)
    · rw [runNames_append]
      show (runNames S (NameOp.run S (runNames S (Names.start w) pre) (.bind t)) post).dt = t
      rw [runNames_dt S _ post h]
      rfl
    · rw [runNames_dt S _ ops h]; rfl
  · rintro rfl
    induction ops using List.reverseRecOn with
    | nil => exact Or.inr ⟨rfl, fun u hu => by cases hu⟩
    | append_singleton ops o ih =>
      rw [runNames_append]
      show LastBound _ (o.run S (runNames S (Names.start w) ops)).dt
      by_cases ho : ∃ u, .bind u = o
      · obtain ⟨u, rfl⟩ := ho
        exact Or.inl ⟨ops, [], rfl, fun u hu => by cases hu⟩
      · have ho' : ∀ u, .bind u ≠ o := fun u hu => ho ⟨u, hu⟩
        rw [run_dt S _ o ho']
        rcases ih with ⟨pre, post, e, h⟩ | ⟨e, h⟩
        · refine Or.inl ⟨pre, post ++ [o], by conv_lhs => { rw [e, List.append_assoc, List.cons_append] }, fun u hu => ?_⟩
          rcases List.mem_append.mp hu with hu | hu
          · exact h u hu
          · exact ho' u (List.mem_singleton.mp hu)
        · refine Or.inr ⟨e, fun u hu => ?_⟩
          rcases List.mem_append.mp hu with hu | hu
          · exact h u hu
          · exact ho' u (List.mem_singleton.mp hu)

/-- `get_FREQ` asks that tokenizer, while `add_word` and `lcut` go on with the first one. -/
theorem C143_get_FREQ (S : Sys F) (w : World) (ops : List NameOp) (t : Nat) (h : LastBound ops t) (k : Str) (d : Option Int) :
    namesGetFREQ (runNames S (Names.start w) ops) k d = getFREQ (runNames S (Names.start w) ops).w t k d := by
  unfold namesGetFREQ
  rw [(C143_dt S w ops t).mp h]

theorem runNames_cut (S : Sys F) (n : Names) (ops : List NameOp) (h : NoSwitch ops) : (runNames S n ops).cut = n.cut ∧ (runNames S n ops).pool = n.pool := by
  induction ops generalizing n with
  | nil => exact ⟨rfl, rfl⟩
  | cons o ops ih =>
    obtain ⟨h1, h2⟩ := ih (o.run S n) ⟨fun g => h.1 (List.mem_cons_of_mem _ g), fun io g => h.2 io (List.mem_cons_of_mem _ g)⟩
    have : (o.run S n).cut = n.cut ∧ (o.run S n).pool = n.pool := by
      cases o with
      | op o => exact ⟨rfl, rfl⟩
      | bind t => exact ⟨rfl, rfl⟩
      | enable io => exact absurd List.mem_cons_self (h.2 io)
      | disable => exact absurd List.mem_cons_self h.1
    exact ⟨h1.trans this.1, h2.trans this.2⟩

/-- Before parallel mode is switched for the first time, `cut` uses the first tokenizer whatever `dt` means. -/
theorem C143_never_switched (S : Sys F) (w : World) (ops : List NameOp) (h : NoSwitch ops) (ca hm io : Bool) (s : PyText) (g : Gen Str) :
    NamesCut S (runNames S (Names.start w) ops) ca hm io s g ↔ g = (cutW S (runNames S (Names.start w) ops).w 0 ca hm s io).2 := by
  unfold NamesCut
  rw [(runNames_cut S _ ops h).1]
  rfl

/-- After `disable_parallel()`, whether or not it was enabled, `cut` uses the tokenizer that `dt` meant then. -/
theorem C143_disabled (S : Sys F) (w : World) (pre post : List NameOp) (h : NoSwitch post) (t : Nat) (ht : LastBound pre t) (ca hm io : Bool) (s : PyText)
    (g : Gen Str) :
    NamesCut S (runNames S (Names.start w) (pre ++ .disable :: post)) ca hm io s g ↔
      g = (cutW S (runNames S (Names.start w) (pre ++ .disable :: post)).w t ca hm s io).2 := by
  have e : (runNames S (Names.start w) (pre ++ .disable :: post)).cut = .method t := by
    rw [runNames_append]
    show (runNames S (NameOp.run S (runNames S (Names.start w) pre) .disable) post).cut = _
    rw [(runNames_cut S _ post h).1]
    show Bound.method (runNames S (Names.start w) pre).dt = _
    rw [(C143_dt S w pre t).mp ht]
  unfold NamesCut
  rw [e]

/-- After `enable_parallel()`, if it succeeds, `cut` uses the tokenizer that `dt` meant then, as it was then: the parts of the text (lines) are segmented with it
by the workers. -/
theorem C143_enabled (S : Sys F) (w : World) (pre post : List NameOp) (io' : Bool) (h : NoSwitch post) (t : Nat) (ht : LastBound pre t) (w1 : World)
    (hok : checkInit S (runNames S (Names.start w) pre).w t io' = (w1, .ok ())) (ca hm io : Bool) (s : PyText) (g : Gen Str) :
    NamesCut S (runNames S (Names.start w) (pre ++ .enable io' :: post)) ca hm io s g ↔
      ∃ r, PoolMap (fun part => (cutW S w1 t ca (ca || hm) (.str part) io).2.toList) (splitlinesKeep (strdecode S.gbk s)) r ∧ g = yieldAll r := by
  have hdt := (C143_dt S w pre t).mp ht
  have e : (runNames S (Names.start w) (pre ++ .enable io' :: post)).cut = .parallel ∧
      (runNames S (Names.start w) (pre ++ .enable io' :: post)).pool = some (w1, t) := by
    rw [runNames_append]
    show (runNames S (NameOp.run S (runNames S (Names.start w) pre) (.enable io')) post).cut = _ ∧
      (runNames S (NameOp.run S (runNames S (Names.start w) pre) (.enable io')) post).pool = _
    rw [(runNames_cut S _ post h).1, (runNames_cut S _ post h).2]
    simp only [NameOp.run, hdt, hok]
    exact ⟨trivial, trivial⟩
  have hf : workerCutN S w1 t ca hm io = fun part => (cutW S w1 t ca (ca || hm) (.str part) io).2.toList := by
    funext part
    unfold workerCutN
    cases ca <;> cases hm <;> rfl
  unfold NamesCut
  rw [e.1, e.2]
  simp only [hf]

/-- If `enable_parallel()` fails in loading the dictionary, the names mean what they meant. -/
theorem C143_enable_fails (S : Sys F) (w : World) (ops : List NameOp) (io' : Bool) (t : Nat) (ht : LastBound ops t) (w1 : World) (e : PyErr)
    (hfail : checkInit S (runNames S (Names.start w) ops).w t io' = (w1, .error e)) :
    (runNames S (Names.start w) (ops ++ [.enable io'])) = { runNames S (Names.start w) ops with w := w1 } := by
  have hdt := (C143_dt S w ops t).mp ht
  rw [runNames_append]
  show NameOp.run S (runNames S (Names.start w) ops) (.enable io') = _
  simp only [NameOp.run, hdt, hfail]

/-- The same history in `Model/Module`, where `dt` is fixed. -/
def NameOp.toModOp : NameOp → Option ModOp
  | .op o => some (.op o)
  | .bind _ => none
  | .enable io => some (.enable io)
  | .disable => some .disable

/-- As documented: as long as `dt` is not assigned to (or only what it is), all of them are the functions of one tokenizer, as in `Model/Module`. -/
theorem C143_documented (S : Sys F) (w : World) (ops : List NameOp) (h : ∀ u, .bind u ∈ ops → u = 0) (ca hm io : Bool) (s : PyText) (g : Gen Str) :
    (NamesCut S (runNames S (Names.start w) ops) ca hm io s g ↔ ModuleCut S (runModOps S ⟨w, none, false⟩ (ops.filterMap NameOp.toModOp)) ca hm io s g) ∧
    (runNames S (Names.start w) ops).w = (runModOps S ⟨w, none, false⟩ (ops.filterMap NameOp.toModOp)).w ∧
    (runNames S (Names.start w) ops).dt = 0 := by
  have key : ∀ (ops : List NameOp) (n : Names) (m : Module), (∀ u, .bind u ∈ ops → u = 0) → n.dt = 0 → n.w = m.w →
      (n.cut = .method 0 ∧ m.parallel = false ∨ n.cut = .parallel ∧ m.parallel = true) → n.pool = m.pool.map (·, 0) →
      let n' := runNames S n ops
      let m' := runModOps S m (ops.filterMap NameOp.toModOp)
      n'.dt = 0 ∧ n'.w = m'.w ∧ (n'.cut = .method 0 ∧ m'.parallel = false ∨ n'.cut = .parallel ∧ m'.parallel = true) ∧ n'.pool = m'.pool.map (·, 0) := by
    intro ops
    induction ops with
    | nil => intro n m _ h1 h2 h3 h4; exact ⟨h1, h2, h3, h4⟩
    | cons o ops ih =>
      intro n m h h1 h2 h3 h4
      have hr : ∀ u, .bind u ∈ ops → u = 0 := fun u hu => h u (List.mem_cons_of_mem _ hu)
      cases o with
      | op o => exact ih { n with w := o.run S n.w } { m with w := o.run S m.w } hr h1 (by rw [h2]) h3 h4
      | bind t =>
        have : t = 0 := h t List.mem_cons_self
        exact ih { n with dt := t } m hr this h2 h3 h4
      | disable => exact ih ⟨n.w, n.dt, .method n.dt, none⟩ ⟨m.w, none, false⟩ hr h1 h2 (Or.inl ⟨by rw [h1], rfl⟩) rfl
      | enable io' =>
        have e1 : runNames S n (.enable io' :: ops) = runNames S (NameOp.run S n (.enable io')) ops := rfl
        have e2 : runModOps S m ((NameOp.enable io' :: ops).filterMap NameOp.toModOp) =
            runModOps S (enableParallel S m io').1 (ops.filterMap NameOp.toModOp) := rfl
        simp only [e1, e2]
        simp only [NameOp.run, enableParallel, h1, h2]
        rcases checkInit S m.w 0 io' with ⟨w', e | x⟩
        · exact ih { n with w := w', dt := 0 } { m with w := w' } hr rfl rfl h3 h4
        · exact ih ⟨w', 0, .parallel, some (w', 0)⟩ ⟨w', some w', true⟩ hr rfl rfl (Or.inr ⟨rfl, rfl⟩) rfl
  obtain ⟨k1, k2, k3, k4⟩ := key ops (Names.start w) ⟨w, none, false⟩ h rfl rfl (Or.inl ⟨rfl, rfl⟩) rfl
  refine ⟨?_, k2, k1⟩
  unfold NamesCut ModuleCut
  rcases k3 with ⟨g1, g2⟩ | ⟨g1, g2⟩
  · simp [g1, g2, k2]
  · rw [g1, g2, k4]
    cases (runModOps S ⟨w, none, false⟩ (ops.filterMap NameOp.toModOp)).pool <;> rfl

end

/-- A program that takes another tokenizer, adds a word, and makes sure that parallel mode is off. -/
def rebound : List NameOp := [.bind 1, .op (.addWord 0 (.str (lit ['北', '京', '大', '学'])) (.int 1000) none true), .disable]

/-- Not documented: after `jieba.dt = t` the functions are not functions of one tokenizer.  A word that was added with `jieba.add_word` is not found by
`jieba.get_FREQ`, and `jieba.lcut` knows it but `jieba.cut` does not. -/
theorem C143_not_one_tokenizer :
    runNames sampleSys (Names.start sampleWorld) [rebound[0], rebound[1]] =
      (namesAddWord sampleSys (runNames sampleSys (Names.start sampleWorld) [rebound[0]]) (.str (lit ['北', '京', '大', '学'])) (.int 1000) none true).1 ∧
    namesGetFREQ (runNames sampleSys (Names.start sampleWorld) rebound) (lit ['北', '京', '大', '学']) none = none ∧
    namesLcut sampleSys (runNames sampleSys (Names.start sampleWorld) rebound) false false true (.str (lit ['北', '京', '大', '学'])) =
      .ok [lit ['北', '京', '大', '学']] ∧
    NamesCut sampleSys (runNames sampleSys (Names.start sampleWorld) rebound) false false true (.str (lit ['北', '京', '大', '学']))
      ⟨[lit ['北', '京'], lit ['大', '学']], none⟩ := by
  refine ⟨rfl, by decide +kernel, by decide +kernel, ?_⟩
  show _ = _
  decide +kernel

/-- `rebound` meets the hypotheses of `C143_disabled` with tokenizer 1. -/
example : LastBound (rebound.take 2) 1 ∧ NoSwitch ([] : List NameOp) :=
  ⟨Or.inl ⟨[], [rebound[1]], rfl, fun u hu => by cases List.mem_singleton.mp hu⟩, ⟨List.not_mem_nil, fun _ => List.not_mem_nil⟩⟩

end Jieba.Props
