import Verif.Proofs.Parallel
import Verif.Props.Sample
/-!
# C16, C17: parallel mode against serial mode
-/

set_option linter.unusedSectionVars false

namespace Jieba.Props
open Jieba Jieba.Spec

variable {F : Type _} [LinearOrder F]

theorem workerCut_eq (E : Env F) (cutAllFlag hmmFlag : Bool) :
    workerCut E cutAllFlag hmmFlag = fun part => (cut E cutAllFlag (cutAllFlag || hmmFlag) part).toList := by
  funext part
  unfold workerCut
  cases cutAllFlag <;> cases hmmFlag <;> rfl

/-- C16 (`cut`): for every text and every outcome of the worker pool, if serial accurate mode returns the token list `ts`
then so does parallel mode; if serial mode raises, parallel mode raises an exception that one of the lines raises. -/
theorem C16_parallel_cut (E : Env F) (hmm : Bool) (s : Str) (g : Gen Str) (h : PCut E false hmm s g) :
    (∀ ts, cut E false hmm s = Gen.ok ts → g = Gen.ok ts) ∧
    ((cut E false hmm s).err ≠ none →
      ∃ lines, KeptLines s lines ∧ ∃ line ∈ lines, ∃ e, (cut E false hmm line).err = some e ∧ g = Gen.raise e) := by
  obtain ⟨r, hr, rfl⟩ := h
  rw [workerCut_eq] at hr
  rw [cut_lines E hmm s]
  have := poolMap_spec _ (cut E false hmm) r hr
  exact ⟨this.1, fun he => ⟨_, splitlinesKeep_spec s, this.2 he⟩⟩

/-- C16 (`cut_for_search`). -/
theorem C16_parallel_cut_for_search (E : Env F) (hmm : Bool) (s : Str) (g : Gen Str) (h : PCutForSearch E hmm s g) :
    (∀ ts, cutForSearch E hmm s = Gen.ok ts → g = Gen.ok ts) ∧
    ((cutForSearch E hmm s).err ≠ none →
      ∃ lines, KeptLines s lines ∧ ∃ line ∈ lines, ∃ e, (cutForSearch E hmm line).err = some e ∧ g = Gen.raise e) := by
  obtain ⟨r, hr, rfl⟩ := h
  rw [cutForSearch_lines E hmm s]
  have := poolMap_spec _ (cutForSearch E hmm) r hr
  exact ⟨this.1, fun he => ⟨_, splitlinesKeep_spec s, this.2 he⟩⟩

/-- Some outcome always exists. -/
theorem pool_outcome {α β : Type _} (f : α → Except PyErr β) (parts : List α) : ∃ r, PoolMap f parts r := by
  by_cases h : ∃ p ∈ parts, ∃ e, f p = .error e
  · obtain ⟨p, hp, e, he⟩ := h
    exact ⟨_, .err p e hp he⟩
  · have : ∃ rs : List β, parts.map f = rs.map .ok := by
      induction parts with
      | nil => exact ⟨[], rfl⟩
      | cons p parts ih =>
        obtain ⟨rs, hrs⟩ := ih (fun ⟨q, hq, e, he⟩ => h ⟨q, List.mem_cons_of_mem _ hq, e, he⟩)
        cases hp : f p with
        | error e => exact absurd ⟨p, List.mem_cons_self, e, hp⟩ h
        | ok x => exact ⟨x :: rs, by simp [hp, hrs]⟩
    obtain ⟨rs, hrs⟩ := this
    exact ⟨_, .ok rs hrs⟩

/-- A text of three lines (CR LF, LF, none) with an outcome of the pool. -/
example : ∃ g, PCut sampleEnv false true (lit ['北', '京', '\r', '\n', '大', '学', '\n', '大']) g :=
  ⟨_, _, (pool_outcome _ _).choose_spec, rfl⟩

/-- C17: in full mode, dropping empty tokens from a parallel result gives the serial result without its empty tokens, and
neither raises. -/
theorem C17_parallel_full_mode (E : Env F) (hmm : Bool) (s : Str) (g : Gen Str) (h : PCut E true hmm s g) :
    g.err = none ∧ (cut E true hmm s).err = none ∧
    g.out.filter (· ≠ []) = (cut E true hmm s).out.filter (· ≠ []) := by
  obtain ⟨r, hr, rfl⟩ := h
  rw [workerCut_eq] at hr
  have hok : ∀ l, (cut E true true l).err = none := cut_full_ok E true
  have hh : cut E true hmm s = cut E true true s := by
    rw [cut_eq_scan, cut_eq_scan]; rfl
  rw [hh]
  have hfe : ∀ parts : List Str, Gen.forEach parts (cut E true true) =
      Gen.ok (parts.flatMap fun p => (cut E true true p).out) := by
    intro parts
    induction parts with
    | nil => rfl
    | cons p parts ih =>
      rw [Gen.forEach_cons, ih, (Gen.eq_ok_iff _ _).mpr ⟨hok p, rfl⟩]; simp
  obtain ⟨hp, -⟩ := poolMap_spec _ (cut E true true) r hr
  rw [hp _ (hfe _)]
  refine ⟨rfl, hok s, ?_⟩
  have hl := cut_full_lines E true s
  have he : Gen.forEach (splitlinesKeep s) (fun l => (cut E true true l).mapOut dropEmpty) =
      (Gen.forEach (splitlinesKeep s) (cut E true true)).mapOut dropEmpty := (mapOut_forEach _ _ _).symm
  rw [he, hfe, Gen.mapOut_ok, flatMap_dropEmpty] at hl
  have := congrArg Gen.out hl
  simp only [Gen.mapOut, flatMap_dropEmpty] at this
  rw [this]; rfl

/-- C17, negative part: literal equality fails: two empty lines yield four empty tokens in parallel mode and
three in serial mode. -/
theorem C17_literal_equality_fails :
    PCut sampleEnv true true (lit ['\n', '\n']) (Gen.ok [[], lit ['\n'], [], [], lit ['\n'], []]) ∧
    cut sampleEnv true true (lit ['\n', '\n']) = Gen.ok [[], lit ['\n'], [], lit ['\n'], []] := by
  refine ⟨⟨.ok [[[], lit ['\n'], []], [[], lit ['\n'], []]], .ok _ ?_, rfl⟩, by decide +kernel⟩
  decide +kernel

end Jieba.Props
