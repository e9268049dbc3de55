import Verif.Proofs.PosTags
import Verif.Props.Posseg
/-!
# C85: where the tags of `posseg.cut` come from
-/

set_option linter.unusedSectionVars false

namespace Jieba.Props
open Jieba Jieba.Spec Jieba.Pos Jieba.PosData

variable {F : Type _} [LinearOrder F]

/-- C85: every word that `posseg.cut` yields has its tag from the table of tags; or it has no tag there and gets 'x'; or it is a
number ('m'), foreign text ('eng') or other text ('x'); or, only with HMM, it consists of Han characters and has the tag of a state of
the HMM. -/
theorem C85_tag_source (E : PEnv F) (hm : Bool) (hσ : ∀ s t l, (E.σ s t l).Perm l) (s : Str) :
    ∀ p ∈ (Pos.cut E hm s).out, TagFrom E hm p := by
  intro p hp
  rw [Pos.cut_eq_scan] at hp
  obtain ⟨b, -, -, ⟨hb, h⟩ | ⟨hb, h⟩⟩ := scan_out_mem _ _ _ _ _ hp
  · replace hp := h
    unfold Pos.cutBlock at hp
    cases hm with
    | true =>
      simp only [if_true] at hp
      exact AllOut.ofExcept (fun route _ => dagCutLoop_from E hσ b route _ _ _) p hp
    | false =>
      simp only [Bool.false_eq_true, if_false] at hp
      refine AllOut.ofExcept (fun route _ => noHmmLoop_from E b (fun h => ?_) route _ _ _ (by simp)) p hp
      have := hb _ h
      revert this; decide
  · simp only [Gen.ok_out, List.mem_map] at h
    obtain ⟨w, hw, rfl⟩ := h
    have hsub : ∀ c ∈ w, c ∈ b := by
      intro c hc
      have := (charTokens_flatten b).1
      rw [← this]
      exact List.mem_flatten.mpr ⟨w, hw, hc⟩
    cases w with
    | nil => rcases charTokens_mem b _ hw with h | h <;> simp at h
    | cons c w =>
      have := not_num_of_nonword c (hb c (hsub c (by simp)))
      refine .other c w (fun h => ?_) (fun h => ?_)
      · rw [(isNumCh_iff c).mpr h] at this; simp at this
      · rw [(isAlnumCh_iff c).mpr h] at this; simp at this

/-- The tags of the states of the shipped tables. -/
def hmmTags : List Str :=
  [lit ['a'], lit ['a', 'd'], lit ['a', 'g'], lit ['a', 'n'], lit ['b'], lit ['b', 'g'], lit ['c'], lit ['d'],
   lit ['d', 'f'], lit ['d', 'g'], lit ['e'], lit ['e', 'n'], lit ['f'], lit ['g'], lit ['h'], lit ['i'], lit ['i', 'n'],
   lit ['j'], lit ['j', 'n'], lit ['k'], lit ['l'], lit ['l', 'n'], lit ['m'], lit ['m', 'g'], lit ['m', 'q'], lit ['n'],
   lit ['n', 'g'], lit ['n', 'r'], lit ['n', 'r', 'f', 'g'], lit ['n', 'r', 't'], lit ['n', 's'], lit ['n', 't'],
   lit ['n', 'z'], lit ['o'], lit ['p'], lit ['q'], lit ['q', 'e'], lit ['q', 'g'], lit ['r'], lit ['r', 'g'],
   lit ['r', 'r'], lit ['r', 'z'], lit ['s'], lit ['t'], lit ['t', 'g'], lit ['u'], lit ['u', 'd'], lit ['u', 'g'],
   lit ['u', 'j'], lit ['u', 'l'], lit ['u', 'v'], lit ['u', 'z'], lit ['v'], lit ['v', 'd'], lit ['v', 'g'],
   lit ['v', 'i'], lit ['v', 'n'], lit ['v', 'q'], lit ['w'], lit ['x'], lit ['y'], lit ['y', 'g'], lit ['z'],
   lit ['z', 'g']]

theorem states_tags : states.all (fun y => decide (y.2 ∈ hmmTags)) = true := by decide +kernel

theorem tags_states : hmmTags.all (fun g => states.any (fun y => y.2 == g)) = true := by decide +kernel

/-- C85, shipped tables: a tag is the one of the table of tags, 'x', 'm' or 'eng', or, with HMM, one of 64. -/
theorem C85_shipped_tags (E : PEnv F) (hm : Bool) (hT : Shipped E.tables) (hσ : ∀ s t l, (E.σ s t l).Perm l) (s : Str) :
    ∀ p ∈ (Pos.cut E hm s).out, E.tab.get? p.1 = some p.2 ∨ p.2 ∈ [lit ['x'], lit ['m'], lit ['e', 'n', 'g']] ∨
      hm = true ∧ p.2 ∈ hmmTags := by
  intro p hp
  cases C85_tag_source E hm hσ s p hp with
  | table w g h => exact Or.inl h
  | unknown w h => right; left; simp
  | other c w => right; left; simp
  | number c w => right; left; simp
  | foreign c w => right; left; simp
  | state w y h1 h2 h3 =>
    right; right
    have := List.all_eq_true.mp states_tags y (shipped_isState _ hT y h3)
    exact ⟨h1, by simpa using this⟩

/-- All cases occur: a word of the table, words of the HMM, a word without tag, a number, foreign text, a symbol. -/
example : (Pos.cut samplePEnv true
    (lit ['京', '北', '京', '大', '学', '大', '来', '1', '.', '5', '+', 'a', 'b', '。'])).out =
    [(lit ['京'], lit ['x']), (lit ['北', '京', '大', '学'], lit ['n', 't']), (lit ['大', '来'], lit ['n']), (lit ['1', '.', '5'], lit ['m']),
     (lit ['+'], lit ['x']), (lit ['a', 'b'], lit ['e', 'n', 'g']), (lit ['。'], lit ['x'])] := by
  decide +kernel

end Jieba.Props
