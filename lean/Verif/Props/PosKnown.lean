import Verif.Proofs.PosCore
import Verif.Proofs.PosPossible
import Verif.Props.PosUnknown
import Verif.Props.PosWorld
import Verif.Props.HmmShipped
/-!
# C110, C111 — the POS tagger with the tables that are shipped
-/

namespace Jieba.Props
open Jieba Jieba.Spec Jieba.Pos Jieba.PosData

/-! ## C110 -/

/-- C110: the shipped tables, with their probabilities, are tables as the other theorems about the HMM of the POS tagger assume (C42, C75, C85,
C100), and all their values are between -16 and 0, apart from the -3.14e100 for the states that cannot begin a text. -/
theorem C110_tables : Shipped PosData.tables ∧ ShippedStart PosData.tables ∧ PosModerate PosData.tables ∧
    (∀ y p, PosData.tables.start.get? y = some p → p = minFloat ∨ (-16 ≤ p ∧ p ≤ 0)) ∧
    (∀ x tx y p, PosData.tables.trans.get? x = some tx → tx.get? y = some p → -16 ≤ p ∧ p ≤ 0) ∧
    (∀ y em c e, PosData.tables.emit.get? y = some em → em.get? c = some e → -16 ≤ e ∧ e ≤ 0) :=
  ⟨shipped_tables, shippedStart, PosData.moderate, values_start, values_trans, values_emit⟩

/-- C110: which characters the shipped tables know.  Of the 20950 Han characters, 8870 have an emission probability in some state and
12080 have none; 6648 have a list of states in `char_state_tab`, and for the 2222 others that are known all states are tried. -/
theorem C110_counts :
    Exactly 8870 (Knows PosData.tables) ∧ Exactly 6648 (HasList PosData.tables) ∧
    Exactly 2222 (fun c => Knows PosData.tables c ∧ ¬ HasList PosData.tables c) ∧
    Exactly 12080 (fun c => isHan c = true ∧ ¬ Knows PosData.tables c) ∧
    (∀ c, HasList PosData.tables c → Knows PosData.tables c) ∧ (∀ c, Knows PosData.tables c → isHan c = true) := by
  refine ⟨exactly_of_pop _ _ _ count_knows ?_, exactly_of_pop _ _ _ count_lists ?_, exactly_of_pop _ _ _ count_noList ?_,
    exactly_of_pop _ _ _ count_noEmission ?_, hasList_knows, knows_han⟩ <;>
  · intro c
    have h1 := isHan_small c
    have h2 := knows_han c
    have h3 := hasList_knows c
    rw [knows_iff] at h2 h3
    rw [hasList_iff] at h3
    simp only [knows_iff, hasList_iff, Nat.testBit_xor, hanBits_testBit]
    cases e1 : isHan c <;> cases e2 : (allMask <<< 0x4E00).testBit c <;> cases e3 : (listMask <<< 0x4E00).testBit c <;> simp_all

/-- C110: the lists of states.  A state listed for a character has an emission probability for it, apart from ('S', 'a') for 跛; and all
states with an emission probability are listed, apart from twelve characters. -/
theorem C110_lists (c : Ch) (l : List PState) (h : PosData.tables.charStates.get? c = some l) :
    (∀ y ∈ l, HasEmission PosData.tables y c ∨ (c = '跛'.toNat ∧ y = (chS, lit ['a']))) ∧
    (∀ y, HasEmission PosData.tables y c → y ∈ l ∨ c ∈ lit ['么', '吒', '哩', '夥', '後', '徵', '於', '沈', '湮', '矽', '著', '蹠']) := by
  obtain ⟨b, h1, h2, h3, h4⟩ := list_bits c l h
  constructor
  · intro y hy
    obtain ⟨i, hi, rfl⟩ := h2 y hy
    have hb := (h1 i hi).mp hy
    have h3 := h3 i hi
    by_cases hc : c = 0x8ddb
    · subst hc
      by_cases hi' : i = 192
      · subst hi'; exact Or.inr ⟨by decide, by decide +kernel⟩
      · left
        rw [hasEmission_at i hi]
        have hd : (diffOf 0x8ddb odd).testBit i = false := by
          have : diffOf 0x8ddb odd = 1 <<< 192 := by decide +kernel
          rw [this, testBit_one_shift]
          simpa using hi'
        rw [hb, hd] at h3
        simpa using h3
    · left
      rw [hasEmission_at i hi]
      have := congrArg (fun n => n.testBit i) (h4 hc)
      simp only [Nat.testBit_and, hb, Bool.and_true, Nat.zero_testBit] at this
      rw [hb, this] at h3
      simpa using h3
  · intro y hy
    obtain ⟨i, hi, rfl⟩ := hasEmission_state y c hy
    rw [hasEmission_at i hi] at hy
    have h3 := h3 i hi
    rw [hy] at h3
    by_cases hm : c ∈ odd.map Prod.fst
    · by_cases hc : c = 0x8ddb
      · subst hc
        left
        rw [h1 i hi]
        by_cases hi' : i = 192
        · subst hi'
          exfalso
          revert hy
          decide +kernel
        · have hd : (diffOf 0x8ddb odd).testBit i = false := by
            have : diffOf 0x8ddb odd = 1 <<< 192 := by decide +kernel
            rw [this, testBit_one_shift]
            simpa using hi'
          rw [hd] at h3
          revert h3
          cases b.testBit i <;> simp
      · right
        have key : (odd.map Prod.fst).all (fun c => Nat.beq c 0x8ddb ||
            decide (c ∈ lit ['么', '吒', '哩', '夥', '後', '徵', '於', '沈', '湮', '矽', '著', '蹠'])) = true := by decide +kernel
        have := List.all_eq_true.mp key c hm
        rw [Bool.or_eq_true, decide_eq_true_eq] at this
        exact this.resolve_left (fun e => hc (Nat.eq_of_beq_eq_true e))
    · left
      rw [h1 i hi]
      rw [diffOf_zero _ _ hm, Nat.zero_testBit] at h3
      revert h3
      cases b.testBit i <;> simp

/-- C110: C100 holds of the shipped tables, and of all Han characters that they do not know: two or more of these in a row are tagged 'x' and 'zg'
in turn. -/
theorem C110_unknown_text (log : Nat → ℚ) (E : PEnv ℚ) (hA : E.A = dblArith log) (hT : E.tables = PosData.tables)
    (hσ : ∀ s t l, (E.σ s t l).Perm l) (hp : PrefixClosed E.freq) (hn : NonNeg E.freq) (ht : 0 < E.total)
    (s : Str) (h2 : 2 ≤ s.length) (hhan : ∀ c ∈ s, isHan c = true) (hs : ∀ c ∈ s, ¬ Knows PosData.tables c)
    (hd : ∀ w, DictWord E.freq w → w <:+: s → w.length ≤ 1) (hlen : s.length ≤ 2 ^ 50) :
    Pos.cut E true s = Gen.ok ((s.map (fun c => [c])).zip (turns s.length)) :=
  C100_strange_text log E hA (by rw [hT]; exact PosData.moderate) (by rw [hT]; exact shipped_tables) (by rw [hT]; exact shippedStart) hσ hp hn ht s h2 hhan
    (fun c hc => by rw [hT]; exact (strange_iff c).mpr (hs c hc)) hd hlen

/-- The real tables and no dictionary. -/
def realEnv : PEnv ℚ := { A := dblArith fun _ => 0, freq := [], total := 1, tables := PosData.tables, tab := [], σ := fun _ _ l => l }

/-- The hypotheses of `C110_unknown_text`: 両 and 鿕 are not known. -/
example : ¬ Knows PosData.tables ('両'.toNat) ∧ ¬ Knows PosData.tables ('鿕'.toNat) ∧
    Pos.cut realEnv true (lit ['両', '鿕', '両']) = Gen.ok [(lit ['両'], lit ['y']), (lit ['鿕'], lit ['x']), (lit ['両'], lit ['z', 'g'])] := by
  have h1 : ¬ Knows PosData.tables ('両'.toNat) := by rw [knows_iff]; decide +kernel
  have h2 : ¬ Knows PosData.tables ('鿕'.toNat) := by rw [knows_iff]; decide +kernel
  refine ⟨h1, h2, ?_⟩
  refine C110_unknown_text (fun _ => 0) realEnv rfl rfl (fun _ _ l => List.Perm.refl l) ?_ ?_ (by decide) _ (by decide) (by decide) ?_ ?_ (by decide)
  · intro w hw; simp [realEnv, PyDict.has, PyDict.get?] at hw
  · intro w f hw; simp [realEnv, PyDict.get?] at hw
  · intro c hc
    simp only [lit, List.map_cons, List.map_nil, List.mem_cons, List.not_mem_nil, or_false] at hc
    rcases hc with rfl | rfl | rfl
    · exact h1
    · exact h2
    · exact h1
  · intro w hw; simp [realEnv, DictWord, PyDict.get?] at hw

/-- 跛: its states are ('B', 'n'), ('B', 'v') and ('S', 'a'), but there is no probability for the last; alone, it is the beginning of a noun. -/
example : PosData.tables.charStates.get? ('跛'.toNat) = some [(chB, lit ['n']), (chB, lit ['v']), (chS, lit ['a'])] ∧
    ¬ HasEmission PosData.tables (chS, lit ['a']) ('跛'.toNat) ∧
    cutDetail realEnv (lit ['跛']) = Gen.ok [(lit ['跛'], lit ['n'])] := by
  refine ⟨by decide +kernel, ?_, by decide +kernel⟩
  have : stateAt 192 = (chS, lit ['a']) := by decide +kernel
  rw [← this, hasEmission_at 192 (by decide)]
  decide +kernel

end Jieba.Props
