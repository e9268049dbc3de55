import Verif.Proofs.Renaming
import Verif.Props.Undo
/-!
# C132: Chinese characters mean nothing beyond the dictionary and the tables
-/

set_option linter.unusedSectionVars false

namespace Jieba.Props
open Jieba Jieba.Spec

variable {F : Type _} [LinearOrder F]

/-- C132: rename the Chinese characters in a text, in the dictionary, in the set of words to be split and in the tables of the HMM: the
output is renamed, and nothing else changes, in any mode. -/
theorem C132_renaming (π : Ch → Ch) (hπ : Renames π) (E E' : Env F) (h : RenamedEnv π E E') (s : Str) :
    (∀ ca hmm, (cut E' ca hmm (s.map π)).out = (cut E ca hmm s).out.map (List.map π) ∧
      (cut E' ca hmm (s.map π)).err = (cut E ca hmm s).err) ∧
    (∀ hmm, (cutForSearch E' hmm (s.map π)).out = (cutForSearch E hmm s).out.map (List.map π) ∧
      (cutForSearch E' hmm (s.map π)).err = (cutForSearch E hmm s).err) ∧
    (∀ search hmm, (tokenize E' search hmm (s.map π)).out = (tokenize E search hmm s).out.map (fun x => (x.1.map π, x.2)) ∧
      (tokenize E' search hmm (s.map π)).err = (tokenize E search hmm s).err) := by
  refine ⟨fun ca hmm => ?_, fun hmm => ?_, fun search hmm => ?_⟩
  · rw [cut_ren hπ h]; exact ⟨rfl, rfl⟩
  · rw [cutForSearch_ren hπ h]; exact ⟨rfl, rfl⟩
  · unfold tokenize
    simp only [cut_ren hπ h]
    exact ⟨tokenizeLoop_ren h.freq search _ 0, rfl⟩

/-- C132: the same for POS tagging; the tags stay. -/
theorem C132_tags {F : Type} [LinearOrder F] (π : Ch → Ch) (hπ : Renames π) (E E' : Pos.PEnv F) (h : RenamedPEnv π E E') (hmm : Bool) (s : Str) :
    (Pos.cut E' hmm (s.map π)).out = (Pos.cut E hmm s).out.map (fun p => (p.1.map π, p.2)) ∧
      (Pos.cut E' hmm (s.map π)).err = (Pos.cut E hmm s).err := by
  rw [Pos.cut_ren hπ h]; exact ⟨rfl, rfl⟩

/-- `c` is a Chinese character that occurs in no entry of the dictionary, in no word to be split and in no table of the HMM. -/
def UnknownTo (E : Env F) (c : Ch) : Prop :=
  isHan c = true ∧ (∀ v, PyDict.has E.freq v = true → c ∉ v) ∧ (∀ v ∈ E.force, c ∉ v) ∧ ∀ y, E.tables.emit y c = none

/-- C132: unknown Chinese characters are interchangeable: with some of them replaced by others, the same or different ones, the text
is cut at the same places. -/
theorem C132_unknown_characters (E : Env F) (π : Ch → Ch) (hπ : ∀ c, π c = c ∨ UnknownTo E c ∧ UnknownTo E (π c)) (s : Str) :
    (∀ ca hmm, (cut E ca hmm (s.map π)).out = (cut E ca hmm s).out.map (List.map π) ∧
      (cut E ca hmm (s.map π)).err = (cut E ca hmm s).err) ∧
    (∀ hmm, (cutForSearch E hmm (s.map π)).out = (cutForSearch E hmm s).out.map (List.map π) ∧
      (cutForSearch E hmm (s.map π)).err = (cutForSearch E hmm s).err) ∧
    (∀ search hmm, (tokenize E search hmm (s.map π)).out = (tokenize E search hmm s).out.map (fun x => (x.1.map π, x.2)) ∧
      (tokenize E search hmm (s.map π)).err = (tokenize E search hmm s).err) := by
  have hv : ∀ v : Str, v.map π = v ∨ (∃ c ∈ v, UnknownTo E c) ∧ ∃ c ∈ v.map π, UnknownTo E c := by
    intro v
    induction v with
    | nil => exact Or.inl rfl
    | cons c v ih =>
      rcases hπ c with hc | ⟨h1, h2⟩
      · rcases ih with ih | ⟨⟨a, ha, ha'⟩, b, hb, hb'⟩
        · exact Or.inl (by rw [List.map_cons, hc, ih])
        · exact Or.inr ⟨⟨a, List.mem_cons_of_mem _ ha, ha'⟩, b, List.mem_cons_of_mem _ hb, hb'⟩
      · exact Or.inr ⟨⟨c, by simp, h1⟩, π c, by simp, h2⟩
  have hnone : ∀ v : Str, (∃ c ∈ v, UnknownTo E c) → PyDict.get? E.freq v = none := by
    rintro v ⟨c, hc, hu⟩
    cases hg : PyDict.get? E.freq v with
    | none => rfl
    | some x => exact absurd hc (hu.2.1 v (by unfold PyDict.has; rw [hg]; rfl))
  refine C132_renaming π ⟨fun c hc => ?_, fun c hc => ?_⟩ E E ⟨rfl, rfl, fun v => ?_, fun v => ?_, rfl, rfl, fun y c => ?_, rfl⟩ s
  · rcases hπ c with h | ⟨-, h⟩
    · rw [h]; exact hc
    · exact h.1
  · rcases hπ c with h | ⟨h, -⟩
    · exact h
    · rw [h.1] at hc; exact absurd hc (by simp)
  · rcases hv v with h | ⟨h1, h2⟩
    · rw [h]
    · rw [hnone v h1, hnone _ h2]
  · rcases hv v with h | ⟨⟨a, ha, ha'⟩, b, hb, hb'⟩
    · rw [h]
    · exact ⟨fun hm => absurd hb (hb'.2.2.1 _ hm), fun hm => absurd ha (ha'.2.2.1 _ hm)⟩
  · rcases hπ c with h | ⟨h1, h2⟩
    · rw [h]
    · rw [h1.2.2.2 y, h2.2.2.2 y]

/-- C132: renaming must stay inside `[一-鿕]`.  Renamed to 㐀㐁, which are Chinese characters outside of it, the word 中国 is no longer
found. -/
theorem C132_only_in_range :
    let π : Ch → Ch := fun c => if c = 0x4E2D then 0x3400 else if c = 0x56FD then 0x3401 else c
    let d : Freq := [(lit ['中', '国'], 5), (lit ['中'], 0)]
    let d' : Freq := [(lit ['㐀', '㐁'], 5), (lit ['㐀'], 0)]
    (lit ['中', '国']).map π = lit ['㐀', '㐁'] ∧
    (cut (⟨realArith, d, 5, realSys.tables, []⟩ : Env ℝ) false false (lit ['中', '国'])).out = [lit ['中', '国']] ∧
    (cut (⟨realArith, d', 5, realSys.tables, []⟩ : Env ℝ) false false (lit ['㐀', '㐁'])).out = [lit ['㐀'], lit ['㐁']] := by
  refine ⟨by decide, ?_, ?_⟩
  · rw [cut_real]; decide +kernel
  · rw [cut_real]; decide +kernel

/-- 中 and 大, 国 and 学 exchanged. -/
def swapped (c : Ch) : Ch :=
  if c = 0x4E2D then 0x5927 else if c = 0x5927 then 0x4E2D else if c = 0x56FD then 0x5B66 else if c = 0x5B66 then 0x56FD else c

theorem swapped_swapped (c : Ch) : swapped (swapped c) = c := by
  unfold swapped
  repeat' split
  all_goals first | rfl | (unfold Ch at *; omega) | (simp_all)

theorem map_swapped (u v : Str) : u.map swapped = v ↔ u = v.map swapped := by
  constructor
  · rintro rfl; rw [List.map_map]; conv_lhs => rw [← List.map_id u]
    exact List.map_congr_left (fun c _ => (swapped_swapped c).symm)
  · rintro rfl; rw [List.map_map]; conv_rhs => rw [← List.map_id v]
    exact List.map_congr_left (fun c _ => swapped_swapped c)

/-- A table with an entry for a string, and one with the same entry for the renamed string. -/
theorem get?_swapped {V : Type} (k : Str) (x : V) (d d' : PyDict Str V) (h : ∀ v, PyDict.get? d' (v.map swapped) = PyDict.get? d v) (v : Str) :
    PyDict.get? ((k.map swapped, x) :: d') (v.map swapped) = PyDict.get? ((k, x) :: d) v := by
  have e : (k.map swapped = v.map swapped) ↔ k = v := by
    rw [map_swapped, (map_swapped (v.map swapped) v).mpr rfl]
  simp only [PyDict.get?, e, h]

/-- The hypotheses are met: a dictionary with 中国 and one with 大学 in its place. -/
example : Renames swapped ∧ RenamedEnv swapped (⟨realArith, [(lit ['中', '国'], 5), (lit ['中'], 0)], 5, realSys.tables, []⟩ : Env ℝ)
    ⟨realArith, [(lit ['大', '学'], 5), (lit ['大'], 0)], 5, { realSys.tables with emit := fun y c => realSys.tables.emit y (swapped c) }, []⟩ := by
  refine ⟨⟨fun c hc => ?_, fun c hc => ?_⟩, rfl, rfl, fun v => ?_, fun v => by simp, rfl, rfl, fun y c => ?_, rfl⟩
  · unfold swapped; repeat' split
    all_goals first | rfl | exact hc
  · unfold swapped; repeat' split
    all_goals first | rfl | (subst_vars; exact absurd hc (by decide))
  · exact get?_swapped (lit ['中', '国']) 5 _ _ (get?_swapped (lit ['中']) 0 _ _ (fun _ => rfl)) v
  · show realSys.tables.emit y (swapped (swapped c)) = _
    rw [swapped_swapped]

/-- The hypotheses of `C132_tags` are met. -/
example (σ : Str → Nat → List Pos.PState → List Pos.PState) : RenamedPEnv swapped
    (⟨realArith, [(lit ['中', '国'], 5), (lit ['中'], 0)], 5,
      ⟨[(0x4E2D, [(0x53, [0x6E])])], [((0x53, [0x6E]), -1)], [((0x53, [0x6E]), [])], [((0x53, [0x6E]), [(0x4E2D, -2)])], -100⟩,
      [(lit ['中', '国'], lit ['n', 's'])], σ⟩ : Pos.PEnv ℝ)
    ⟨realArith, [(lit ['大', '学'], 5), (lit ['大'], 0)], 5,
      ⟨[(0x5927, [(0x53, [0x6E])])], [((0x53, [0x6E]), -1)], [((0x53, [0x6E]), [])], [((0x53, [0x6E]), [(0x5927, -2)])], -100⟩,
      [(lit ['大', '学'], lit ['n', 's'])], fun v => σ (v.map swapped)⟩ := by
  have hc : ∀ c : Ch, (0x5927 = swapped c) ↔ (0x4E2D = c) := by
    intro c
    constructor
    · intro h
      have := congrArg swapped h
      rw [swapped_swapped] at this
      exact this
    · rintro rfl; rfl
  refine ⟨rfl, rfl, fun v => get?_swapped (lit ['中', '国']) 5 _ _ (get?_swapped (lit ['中']) 0 _ _ (fun _ => rfl)) v,
    fun v => get?_swapped (lit ['中', '国']) _ _ _ (fun _ => rfl) v, fun v => ?_, fun c => ?_, rfl, rfl, fun y => ?_, rfl⟩
  · show σ ((v.map swapped).map swapped) = σ v
    rw [(map_swapped (v.map swapped) v).mpr rfl]
  · simp only [PyDict.get?, hc]
  · by_cases hy : ((0x53, [0x6E]) : Pos.PState) = y
    · simp only [PyDict.get?, if_pos hy, hc, implies_true]
    · simp only [PyDict.get?, if_neg hy]

/-- The hypotheses of `C132_unknown_characters` are met: 龘 and 靐 with a dictionary of two words and tables without entries. -/
example : let E : Env ℝ := ⟨realArith, [(lit ['中', '国'], 5), (lit ['中'], 0)], 5, { realSys.tables with emit := fun _ _ => none }, []⟩
    let π : Ch → Ch := fun c => if c = 0x9F98 then 0x9750 else c
    ∀ c, π c = c ∨ UnknownTo E c ∧ UnknownTo E (π c) := by
  intro E π c
  by_cases hc : c = 0x9F98
  · subst hc
    right
    have key : ∀ x : Ch, isHan x = true → x ≠ 0x4E2D → x ≠ 0x56FD → UnknownTo E x := by
      intro x h0 h1 h2
      refine ⟨h0, fun v hv => ?_, fun v hv => by simp [E] at hv, fun y => rfl⟩
      have hk : v ∈ [lit ['中', '国'], lit ['中']] := (PyDict.mem_keys_iff _ _).mpr hv
      rcases List.mem_cons.mp hk with rfl | hk
      · show x ∉ [0x4E2D, 0x56FD]; simp [h1, h2]
      · obtain rfl : v = lit ['中'] := by simpa using hk
        show x ∉ [0x4E2D]; simp [h1]
    exact ⟨key _ (by decide) (by decide) (by decide), key _ (by decide) (by decide) (by decide)⟩
  · left; simp [π, hc]

end Jieba.Props
