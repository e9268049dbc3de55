import Verif.Props.HmmJoins

/-! # C133: what `cut` and `posseg.cut` have in common with the HMM -/

namespace Jieba.Props
open Jieba.Spec
variable {F : Type} [LinearOrder F]

/-- C133: for texts without ASCII letters and digits, '%' and '-', both `cut` and `posseg.cut` with the HMM arise from the
same list of words — that of either of them without the HMM — by joining neighbouring words of one character; neither
raises. -/
theorem C133_common_refinement (E : Pos.PEnv F) (hT : PosData.Shipped E.tables)
    (hσ : ∀ s t l, (E.σ s t l).Perm l) (hn : NonNeg E.freq) (ht : 0 < E.total)
    (tables : FinalSeg.Tables F) (force : List Str) (s : Str)
    (hs : ∀ c ∈ s, isAlnum c = false) (h1 : (0x25 : Ch) ∉ s) (h2 : (0x2D : Ch) ∉ s) :
    ∃ x y z, (Pos.cut E false s).out.map Prod.fst = x ∧
      cut ⟨E.A, E.freq, E.total, tables, force⟩ false false s = ⟨x, none⟩ ∧
      (Pos.cut E true s).out.map Prod.fst = y ∧ (Pos.cut E true s).err = none ∧
      cut ⟨E.A, E.freq, E.total, tables, force⟩ false true s = ⟨z, none⟩ ∧
      JoinsSingles x y ∧ JoinsSingles x z := by
  obtain ⟨x, y, a1, a2, a3⟩ := C117_posseg E hT hσ hn ht s hs
  obtain ⟨x', z, b1, b2, b3⟩ := C117_hmm_only_joins ⟨E.A, E.freq, E.total, tables, force⟩ hn ht s hs
  have hc := C46_posseg_words_are_cut E tables force s h1 h2
  have e1 : (Pos.cut E false s).out.map Prod.fst = x := congrArg Gen.out a1
  have e2 : (Pos.cut E true s).out.map Prod.fst = y := congrArg Gen.out a2
  have e3 : (Pos.cut E true s).err = none := congrArg Gen.err a2
  have e4 : x = x' := by rw [← e1, hc.1, b1]; rfl
  subst e4
  exact ⟨x, y, z, e1, b1, e2, e3, b2, a3, b3⟩

theorem mem_of_joinsSingles {x y : List Str} (h : JoinsSingles x y) (w : Str) (hl : 2 ≤ w.length) (hw : w ∈ x) : w ∈ y := by
  obtain ⟨gs, h3, h4, h5⟩ := h
  rw [← h3] at hw
  obtain ⟨g, hg, hwg⟩ := List.mem_flatten.mp hw
  rw [← h4]
  refine List.mem_map.mpr ⟨g, hg, ?_⟩
  rcases h5 g hg with h | h
  · obtain ⟨v, rfl⟩ := List.length_eq_one_iff.mp h
    simp_all
  · have := h.2 w hwg
    omega

/-- A word of the coarser list is a word of the finer one, or a join of at least two of its words of one character. -/
theorem joinsSingles_mem {x y : List Str} (h : JoinsSingles x y) (w : Str) (hw : w ∈ y) (hx : w ∉ x) :
    2 ≤ w.length ∧ ∀ c ∈ w, [c] ∈ x := by
  obtain ⟨gs, h3, h4, h5⟩ := h
  rw [← h4] at hw
  obtain ⟨g, hg, rfl⟩ := List.mem_map.mp hw
  have hsub : ∀ v ∈ g, v ∈ x := fun v hv => by rw [← h3]; exact List.mem_flatten.mpr ⟨g, hg, hv⟩
  rcases h5 g hg with h | ⟨h, h'⟩
  · obtain ⟨v, rfl⟩ := List.length_eq_one_iff.mp h
    exact absurd (hsub v (by simp)) (by simpa using hx)
  · constructor
    · have key : ∀ g : List Str, (∀ w ∈ g, w.length = 1) → g.flatten.length = g.length := by
        intro g
        induction g with
        | nil => simp
        | cons a g ih => intro h; simp only [List.flatten_cons, List.length_append, List.length_cons,
            h a (by simp), ih (fun w hw => h w (by simp [hw]))]; omega
      rw [key g h']; exact h
    · intro c hc
      obtain ⟨v, hv, hcv⟩ := List.mem_flatten.mp hc
      obtain ⟨d, rfl⟩ := List.length_eq_one_iff.mp (h' v hv)
      rw [List.mem_singleton] at hcv
      subst hcv
      exact hsub _ hv

/-- C133: a word of the one that the other does not have consists of characters that are words of their own without
the HMM. -/
theorem C133_difference (E : Pos.PEnv F) (hT : PosData.Shipped E.tables)
    (hσ : ∀ s t l, (E.σ s t l).Perm l) (hn : NonNeg E.freq) (ht : 0 < E.total)
    (tables : FinalSeg.Tables F) (force : List Str) (s : Str)
    (hs : ∀ c ∈ s, isAlnum c = false) (h1 : (0x25 : Ch) ∉ s) (h2 : (0x2D : Ch) ∉ s) (w : Str)
    (hw : (w ∈ (Pos.cut E true s).out.map Prod.fst ∧ w ∉ (cut ⟨E.A, E.freq, E.total, tables, force⟩ false true s).out) ∨
      (w ∉ (Pos.cut E true s).out.map Prod.fst ∧ w ∈ (cut ⟨E.A, E.freq, E.total, tables, force⟩ false true s).out)) :
    ∀ c ∈ w, [c] ∈ (cut ⟨E.A, E.freq, E.total, tables, force⟩ false false s).out := by
  obtain ⟨x, y, z, -, e2, e3, -, e5, e6, e7⟩ := C133_common_refinement E hT hσ hn ht tables force s hs h1 h2
  rw [e3, e5] at hw
  rw [e2]
  have key : ∀ {y z : List Str}, JoinsSingles x y → JoinsSingles x z → w ∈ y → w ∉ z → ∀ c ∈ w, [c] ∈ x := by
    intro y z hy hz ha hb c hc
    by_cases hx : w ∈ x
    · by_cases hl : 2 ≤ w.length
      · exact absurd (mem_of_joinsSingles hz w hl hx) hb
      · obtain ⟨d, rfl⟩ : ∃ d, w = [d] := List.length_eq_one_iff.mp (by
          have := List.length_pos_of_mem hc
          omega)
        rw [List.mem_singleton] at hc
        exact hc ▸ hx
    · exact (joinsSingles_mem hy w ha hx).2 c hc
  rcases hw with ⟨ha, hb⟩ | ⟨hb, ha⟩
  · exact key e6 e7 ha hb
  · exact key e7 e6 ha hb

/-- The hypotheses of both theorems are met. -/
example : ∃ E : Pos.PEnv Int, PosData.Shipped E.tables ∧ (∀ s t l, (E.σ s t l).Perm l) ∧ NonNeg E.freq ∧
    0 < E.total ∧ ∀ c ∈ lit ['北', '京', '人', '来', '。'], isAlnum c = false ∧ c ≠ 0x25 ∧ c ≠ 0x2D :=
  ⟨{ samplePEnv with tables := constTables 0 }, constTables_shipped 0, fun _ _ _ => List.Perm.refl _,
    sample_nonNeg, by decide, by decide⟩

/-- C133: they do differ with the HMM: a word that must be split (`Force_Split_Words`, entered by `del_word`) is split by
`cut` but not by `posseg.cut`. -/
theorem C133_forced_splits_not_in_posseg :
    ∃ (E : Pos.PEnv Int) (tables : FinalSeg.Tables Int),
      (Pos.cut E true (lit ['北', '京', '文', '人'])).out.map Prod.fst = [lit ['北', '京'], lit ['文', '人']] ∧
      (cut ⟨E.A, E.freq, E.total, tables, []⟩ false true (lit ['北', '京', '文', '人'])).out =
        [lit ['北', '京'], lit ['文', '人']] ∧
      (cut ⟨E.A, E.freq, E.total, tables, [lit ['文', '人']]⟩ false true (lit ['北', '京', '文', '人'])).out =
        [lit ['北', '京'], lit ['文'], lit ['人']] :=
  ⟨samplePEnv, sampleEnv.tables, by decide +kernel, by decide +kernel, by decide +kernel⟩

end Jieba.Props
