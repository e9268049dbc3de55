import Verif.Model.Pair
import Verif.Proofs.Keywords
import Verif.Proofs.PosBest
import Verif.Props.PosTags
/-!
# C86: pairs of word and tag as values: printing, comparing, sorting
-/

set_option linter.unusedSectionVars false

namespace Jieba.Props
open Jieba Jieba.Spec Jieba.Pos Jieba.PosData Jieba.Analyse

variable {F : Type _} [LinearOrder F]

theorem last_slash (a b u v : Str) (hu : 0x2F ∉ u) (hv : 0x2F ∉ v) (h : a ++ [0x2F] ++ u = b ++ [0x2F] ++ v) : a = b ∧ u = v := by
  have : ∀ (x y p q : Str), (0x2F : Nat) ∉ x → (0x2F : Nat) ∉ y → x ++ 0x2F :: p = y ++ 0x2F :: q → x = y ∧ p = q := by
    intro x
    induction x with
    | nil =>
      intro y p q _ hy h
      cases y with
      | nil => simpa using h
      | cons c y => simp at h; exact absurd (by rw [h.1]; simp) hy
    | cons c x ih =>
      intro y p q hx hy h
      cases y with
      | nil => simp at h; exact absurd (by rw [← h.1]; simp) hx
      | cons d y =>
        simp only [List.cons_append, List.cons.injEq] at h
        obtain ⟨h1, h2⟩ := ih y p q (fun h => hx (by simp [h])) (fun h => hy (by simp [h])) h.2
        exact ⟨by rw [h.1, h1], h2⟩
  have hr := congrArg List.reverse h
  simp only [List.reverse_append, List.reverse_cons, List.reverse_nil, List.nil_append, List.singleton_append] at hr
  obtain ⟨h1, h2⟩ := this u.reverse v.reverse a.reverse b.reverse (by simpa using hu) (by simpa using hv) hr
  exact ⟨List.reverse_injective h2, List.reverse_injective h1⟩

/-- C86: the text `word/flag` of a pair determines the pair, if flags have no slash (words may): the flag is what follows the last
slash. -/
theorem C86_print_injective (p q : Pair) (hp : '/'.toNat ∉ p.2) (hq : '/'.toNat ∉ q.2) (h : pairStr p = pairStr q) : p = q := by
  obtain ⟨h1, h2⟩ := last_slash p.1 q.1 p.2 q.2 hp hq h
  exact Prod.ext h1 h2

/-- C86: so what is printed for the output of `posseg.cut`, pair by pair, determines the words and the tags, with the shipped tables
and tags of words without slash. -/
theorem C86_printed_output (E E' : PEnv F) (hm hm' : Bool) (hT : Shipped E.tables) (hT' : Shipped E'.tables)
    (hσ : ∀ s t l, (E.σ s t l).Perm l) (hσ' : ∀ s t l, (E'.σ s t l).Perm l)
    (htab : ∀ w g, E.tab.get? w = some g → '/'.toNat ∉ g) (htab' : ∀ w g, E'.tab.get? w = some g → '/'.toNat ∉ g) (s s' : Str)
    (h : (Pos.cut E hm s).out.map pairStr = (Pos.cut E' hm' s').out.map pairStr) : (Pos.cut E hm s).out = (Pos.cut E' hm' s').out := by
  have key : ∀ (E : PEnv F) (hm : Bool), Shipped E.tables → (∀ s t l, (E.σ s t l).Perm l) →
      (∀ w g, E.tab.get? w = some g → '/'.toNat ∉ g) → ∀ s, ∀ p ∈ (Pos.cut E hm s).out, '/'.toNat ∉ p.2 := by
    intro E hm hT hσ htab s p hp
    rcases C85_shipped_tags E hm hT hσ s p hp with h | h | ⟨-, h⟩
    · exact htab _ _ h
    · have : ∀ g ∈ [lit ['x'], lit ['m'], lit ['e', 'n', 'g']], '/'.toNat ∉ g := by decide
      exact this _ h
    · have : ∀ g ∈ hmmTags, '/'.toNat ∉ g := by decide +kernel
      exact this _ h
  have h1 := key E hm hT hσ htab s
  have h2 := key E' hm' hT' hσ' htab' s'
  generalize (Pos.cut E hm s).out = l at h h1
  generalize (Pos.cut E' hm' s').out = l' at h h2
  induction l generalizing l' with
  | nil => simpa using h.symm
  | cons p l ih =>
    cases l' with
    | nil => simp at h
    | cons q l' =>
      simp only [List.map_cons, List.cons.injEq] at h
      rw [C86_print_injective p q (h1 p (by simp)) (h2 q (by simp)) h.1,
        ih (fun p hp => h1 p (by simp [hp])) l' h.2 (fun q hq => h2 q (by simp [hq]))]

/-- C86, negative part: with a slash in a tag, different pairs print alike, so they cannot be told apart afterwards. -/
theorem C86_slash_in_tag : ∃ p q : Pair, p ≠ q ∧ pairStr p = pairStr q ∧ pairEncode p = pairEncode q ∧ pairEncode p ≠ none :=
  ⟨(lit ['a'], lit ['b', '/', 'c']), (lit ['a', '/', 'b'], lit ['c']), by decide, by decide, by decide, by decide⟩

/-- C86: a pair equals another pair with the same word and flag and nothing else, in particular no tuple; equal pairs have the same hash,
whatever the hash of strings; iterating gives word and flag. -/
theorem C86_equality (p : Pair) (o : PyObj) :
    (pairEq p o = true ↔ o = .pair p) ∧ (∀ (h : Str → Int) (q : Pair), pairEq p (.pair q) = true → pairHash h p = pairHash h q) ∧
    pairIter p = [p.1, p.2] := by
  obtain ⟨w, f⟩ := p
  refine ⟨?_, ?_, rfl⟩
  · cases o with
    | pair q =>
      obtain ⟨w', f'⟩ := q
      simp only [pairEq, Bool.and_eq_true, beq_iff_eq, PyObj.pair.injEq, Prod.mk.injEq]
      exact ⟨fun h => ⟨h.1.symm, h.2.symm⟩, fun h => ⟨h.1.symm, h.2.symm⟩⟩
    | str s => simp [pairEq]
    | tuple l => simp [pairEq]
  · rintro h ⟨w', f'⟩ he
    simp only [pairEq, Bool.and_eq_true, beq_iff_eq] at he
    simp [pairHash, he.1]

/-- C86: `<` compares the words only; two pairs of which none is less than the other have the same word, and may differ. -/
theorem C86_order (p q : Pair) : (pairLt p q = true ↔ p.1 < q.1) ∧ (pairLt p q = false ∧ pairLt q p = false ↔ p.1 = q.1) := by
  have h : ∀ a b : Pair, pairLt a b = true ↔ a.1 < b.1 := fun a b => strLt_iff a.1 b.1
  refine ⟨h p q, ?_⟩
  have h1 := h p q
  have h2 := h q p
  cases hp : pairLt p q <;> cases hq : pairLt q p
  · simp only [hp, hq, Bool.false_eq_true, false_iff, not_lt] at h1 h2
    exact ⟨fun _ => le_antisymm h2 h1, fun _ => ⟨rfl, rfl⟩⟩
  · simp only [hq, true_iff] at h2
    simp [ne_of_gt h2]
  · simp only [hp, true_iff] at h1
    simp [ne_of_lt h1]
  · simp only [hp, true_iff] at h1
    simp [ne_of_lt h1]

theorem mem_insertBy {α : Type _} (le : α → α → Bool) (x y : α) (l : List α) : y ∈ insertBy le x l ↔ y = x ∨ y ∈ l := by
  rw [(insertBy_perm le x l).mem_iff, List.mem_cons]

/-- C86: `sorted` on pairs: a rearrangement with the words in order, in which pairs with the same word stay in the order they had. -/
theorem C86_sorted (l : List Pair) :
    (sortBy (fun a b => !pairLt b a) l).Perm l ∧ (sortBy (fun a b => !pairLt b a) l).Pairwise (fun a b => a.1 ≤ b.1) ∧
    ∀ w, (sortBy (fun a b => !pairLt b a) l).filter (fun p => p.1 = w) = l.filter (fun p => p.1 = w) := by
  have hle : ∀ a b : Pair, (!pairLt b a) = true ↔ a.1 ≤ b.1 := by
    intro a b
    have := strLt_iff b.1 a.1
    unfold pairLt
    rw [Bool.not_eq_true', ← Bool.not_eq_true, this, not_lt]
  refine ⟨sortBy_perm _ l, ?_, ?_⟩
  · induction l with
    | nil => exact List.Pairwise.nil
    | cons x l ih =>
      simp only [sortBy]
      generalize sortBy (fun a b => !pairLt b a) l = m at ih
      induction m with
      | nil => simp [insertBy]
      | cons y m ihm =>
        have hy := List.pairwise_cons.mp ih
        simp only [insertBy]
        split
        · next h =>
          have hxy := (hle x y).mp h
          refine List.pairwise_cons.mpr ⟨?_, ih⟩
          intro z hz
          rcases List.mem_cons.mp hz with rfl | hz
          · exact hxy
          · exact le_trans hxy (hy.1 z hz)
        · next h =>
          have hyx : y.1 ≤ x.1 := by
            have := mt (hle x y).mpr h
            exact le_of_lt (lt_of_not_ge this)
          refine List.pairwise_cons.mpr ⟨?_, ihm hy.2⟩
          intro z hz
          rcases (mem_insertBy _ _ _ _).mp hz with rfl | hz
          · exact hyx
          · exact hy.1 z hz
  · intro w
    induction l with
    | nil => rfl
    | cons x l ih =>
      simp only [sortBy]
      have : ∀ m : List Pair, (insertBy (fun a b => !pairLt b a) x m).filter (fun p => p.1 = w) = (x :: m).filter (fun p => p.1 = w) := by
        intro m
        induction m with
        | nil => rfl
        | cons y m ihm =>
          simp only [insertBy]
          split
          · rfl
          · next h =>
            have hne : y.1 ≠ x.1 := by
              intro he
              exact h ((hle x y).mpr (le_of_eq he.symm))
            rw [List.filter_cons, ihm]
            simp only [List.filter_cons]
            by_cases h1 : x.1 = w
            · have : ¬ y.1 = w := fun h2 => hne (h2.trans h1.symm)
              simp [h1, this]
            · simp [h1]
      rw [this, List.filter_cons, List.filter_cons, ih]

/-- 大/v and 大/a compare as neither less nor equal, and stay in this order. -/
example : sortBy (fun a b => !pairLt b a) [(lit ['学'], lit ['n']), (lit ['大'], lit ['v']), (lit ['大'], lit ['a'])] =
    [(lit ['大'], lit ['v']), (lit ['大'], lit ['a']), (lit ['学'], lit ['n'])] := by decide

example : Shipped ({ samplePEnv with tables := constTables (0 : Int) } : PEnv Int).tables ∧
    ∀ w g, samplePEnv.tab.get? w = some g → '/'.toNat ∉ g := by
  refine ⟨constTables_shipped 0, ?_⟩
  intro w g h
  have : ∀ e ∈ samplePEnv.tab, '/'.toNat ∉ e.2 := by decide
  refine this (w, g) ?_
  revert h
  generalize samplePEnv.tab = d
  intro h
  induction d with
  | nil => simp [PyDict.get?] at h
  | cons kv d ih =>
    unfold PyDict.get? at h
    split at h
    · next h' => injection h with h; rw [← h', ← h]; simp
    · simp [ih h]

end Jieba.Props
