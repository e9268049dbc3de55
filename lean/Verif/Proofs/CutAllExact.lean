import Verif.Proofs.CutAll
/-!
# Full mode exactly, on text without ASCII letters/digits
-/

set_option linter.unusedSectionVars false

namespace Jieba
open Jieba.Spec

variable {F : Type _} [LinearOrder F]

/-- The ends (inclusive) of the longer words at `k`. -/
def longs (freq : Freq) (s : Str) (k : Nat) : List Nat := (dagRow freq s k).filter (fun j => k < j)

theorem mem_longs (freq : Freq) (hp : PrefixClosed freq) (s : Str) (k j : Nat) (hk : k < s.length) :
    j ∈ longs freq s k ↔ LongWordAt freq s k (j + 1) := by
  unfold longs LongWordAt
  rw [List.mem_filter, decide_eq_true_eq]
  constructor
  · rintro ⟨h1, h2⟩
    have hj : j < s.length := ((dagRow_bounds freq s k hk).2 j h1).2
    exact ⟨by omega, by omega, (mem_dagRow_iff freq hp s k j h2 hj).mp h1⟩
  · rintro ⟨h1, h2, h3⟩
    exact ⟨(mem_dagRow_iff freq hp s k j (by omega) (by omega)).mpr h3, by omega⟩

theorem plainStep_eq (freq : Freq) (s : Str) (oldJ : Int) (k : Nat) (hk : k < s.length) :
    plainStep s oldJ k (dagRow freq s k) =
      if longs freq s k ≠ [] then ((longs freq s k).map (fun j => (k, slice s k (j + 1))),
          ((longs freq s k).getLast?.map (fun (j : Nat) => (j : Int))).getD oldJ)
      else if oldJ < (k : Int) then ([(k, slice s k (k + 1))], (k : Int))
      else ([], oldJ) := by
  have hne : dagRow freq s k ≠ [] := (dagRow_bounds freq s k hk).1
  have hb := fun x hx => ((dagRow_bounds freq s k hk).2 x hx).1
  have hs := dagRow_sorted freq s k hk
  unfold plainStep longs
  generalize dagRow freq s k = L at hne hb hs
  match L with
  | [] => exact absurd rfl hne
  | [j] =>
    have := hb j (by simp)
    by_cases hj : k < j
    · simp [hj]
    · have : j = k := by omega
      subst this
      simp
  | a :: b :: L =>
    have h1 : a < b := (List.pairwise_cons.mp hs).1 b (by simp)
    have h2 := hb a (by simp)
    have : (List.filter (fun j => decide (k < j)) (a :: b :: L)) ≠ [] := by
      apply List.ne_nil_of_mem (a := b)
      rw [List.mem_filter, decide_eq_true_eq]
      exact ⟨by simp, by omega⟩
    rw [if_pos this, if_neg (by simp)]

/-- What `old_j` tells. -/
def OldJ (freq : Freq) (s : Str) (oldJ : Int) (k : Nat) : Prop :=
  ∀ m : Nat, k ≤ m → (oldJ < (m : Int) ↔
    ∀ i j, i < k → LongWordAt freq s i j → (∀ n, i < n → n < k → ∀ e, ¬ LongWordAt freq s n e) → j ≤ m)

theorem oldJ_free (freq : Freq) (s : Str) (oldJ : Int) (k : Nat) (h : OldJ freq s oldJ k) : oldJ < (k : Int) ↔ FreeAt freq s k :=
  h k (le_refl _)

theorem plainStep_exact (freq : Freq) (hp : PrefixClosed freq) (s : Str) (oldJ : Int) (k : Nat) (hk : k < s.length)
    (h : OldJ freq s oldJ k) :
    (∀ k' w, (k', w) ∈ (plainStep s oldJ k (dagRow freq s k)).1 ↔ k' = k ∧ FullAt freq s k w) ∧
      OldJ freq s (plainStep s oldJ k (dagRow freq s k)).2 (k + 1) ∧
      (plainStep s oldJ k (dagRow freq s k)).1.Pairwise (fun a b => a.2.length < b.2.length) := by
  rw [plainStep_eq freq s oldJ k hk]
  have hml := fun j => mem_longs freq hp s k j hk
  have hsorted : (longs freq s k).Pairwise (· < ·) := (dagRow_sorted freq s k hk).filter _
  by_cases hl : longs freq s k = []
  · have hno : ∀ j, ¬ LongWordAt freq s k j := by
      intro j hj
      have h1 : j = (j - 1) + 1 := by have := hj.1; omega
      rw [h1] at hj
      have := (hml _).mpr hj
      rw [hl] at this; cases this
    rw [if_neg (by simp [hl])]
    have hcarry : ∀ m, k + 1 ≤ m → ((∀ i j, i < k + 1 → LongWordAt freq s i j → (∀ n, i < n → n < k + 1 → ∀ e, ¬ LongWordAt freq s n e) → j ≤ m) ↔
        (∀ i j, i < k → LongWordAt freq s i j → (∀ n, i < n → n < k → ∀ e, ¬ LongWordAt freq s n e) → j ≤ m)) := by
      intro m _
      constructor
      · intro hh i j hi hw hn
        refine hh i j (by omega) hw ?_
        intro n h1 h2 e
        by_cases hnk : n = k
        · subst hnk; exact hno e
        · exact hn n h1 (by omega) e
      · intro hh i j hi hw hn
        by_cases hik : i = k
        · subst hik; exact absurd hw (hno j)
        · exact hh i j (by omega) hw (fun n h1 h2 e => hn n h1 (by omega) e)
    by_cases ho : oldJ < (k : Int)
    · rw [if_pos ho]
      refine ⟨?_, ?_, by simp⟩
      · intro k' w
        simp only [List.mem_singleton, Prod.mk.injEq]
        constructor
        · rintro ⟨rfl, rfl⟩
          exact ⟨rfl, Or.inr ⟨hno, (oldJ_free _ _ _ _ h).mp ho, rfl⟩⟩
        · rintro ⟨rfl, ⟨j, hj, -⟩ | ⟨-, -, rfl⟩⟩
          · exact absurd hj (hno j)
          · exact ⟨rfl, rfl⟩
      · intro m hm
        rw [hcarry m hm]
        constructor
        · intro _ i j hi hw hn
          have := (oldJ_free _ _ _ _ h).mp ho i j hi hw hn
          omega
        · intro _; simp only; omega
    · rw [if_neg ho]
      refine ⟨?_, ?_, by simp⟩
      · intro k' w
        simp only [List.not_mem_nil, false_iff]
        rintro ⟨rfl, ⟨j, hj, -⟩ | ⟨-, hf, -⟩⟩
        · exact absurd hj (hno j)
        · exact ho ((oldJ_free _ _ _ _ h).mpr hf)
      · intro m hm
        rw [hcarry m hm]
        exact h m (by omega)
  · rw [if_pos hl]
    refine ⟨?_, ?_, ?_⟩
    · intro k' w
      simp only [List.mem_map, Prod.mk.injEq]
      constructor
      · rintro ⟨j, hj, rfl, rfl⟩
        exact ⟨rfl, Or.inl ⟨j + 1, (hml j).mp hj, rfl⟩⟩
      · rintro ⟨rfl, ⟨j, hj, rfl⟩ | ⟨hn, -⟩⟩
        · have h1 : j = (j - 1) + 1 := by have := hj.1; omega
          rw [h1] at hj
          exact ⟨j - 1, (hml _).mpr hj, rfl, by rw [← h1]⟩
        · obtain ⟨j, hj⟩ := List.exists_mem_of_ne_nil _ hl
          exact absurd ((hml j).mp hj) (hn _)
    · intro m hm
      rw [List.getLast?_eq_some_getLast hl]
      simp only [Option.map_some, Option.getD_some]
      have hlast := List.getLast_mem hl
      have hmax : ∀ j ∈ longs freq s k, j ≤ (longs freq s k).getLast hl := by
        intro j hj
        have hd := List.dropLast_append_getLast hl
        rw [← hd, List.mem_append] at hj
        rcases hj with hj | hj
        · rw [← hd, List.pairwise_append] at hsorted
          exact le_of_lt (hsorted.2.2 j hj _ (by simp))
        · simp at hj; omega
      constructor
      · intro hlt i j hi hw hn
        by_cases hik : i = k
        · subst hik
          have h1 : j = (j - 1) + 1 := by have := hw.1; omega
          rw [h1] at hw
          have := hmax _ ((hml _).mpr hw)
          omega
        · exact absurd ((hml _).mp hlast) (hn k (by omega) (by omega) _)
      · intro hh
        have := hh k _ (by omega) ((hml _).mp hlast) (fun n h1 h2 => by omega)
        omega
    · rw [List.pairwise_map]
      refine hsorted.imp_of_mem ?_
      intro a b ha hb hab
      have h1 := ((hml a).mp ha).2.1
      have h2 := ((hml b).mp hb).2.1
      have h3 := ((hml a).mp ha).1
      simp only [slice, List.length_drop, List.length_take]
      omega

theorem plainLoop_exact (freq : Freq) (hp : PrefixClosed freq) (s : Str) (n : Nat) : ∀ (oldJ : Int) (k : Nat), s.length - k = n →
    OldJ freq s oldJ k →
    (∀ k' w, (k', w) ∈ plainLoop s oldJ k ((getDAG freq s).drop k) ↔ k ≤ k' ∧ k' < s.length ∧ FullAt freq s k' w) ∧
      (plainLoop s oldJ k ((getDAG freq s).drop k)).Pairwise (fun a b => a.1 < b.1 ∨ a.1 = b.1 ∧ a.2.length < b.2.length) := by
  induction n with
  | zero =>
    intro oldJ k hk h
    rw [List.drop_eq_nil_of_le (by simp [getDAG]; omega)]
    refine ⟨fun k' w => ?_, by simp [plainLoop]⟩
    simp only [plainLoop, List.not_mem_nil, false_iff]
    rintro ⟨h1, h2, -⟩
    omega
  | succ n ih =>
    intro oldJ k hk h
    rw [getDAG_drop freq s k (by omega)]
    unfold plainLoop
    obtain ⟨h1, h2, h3⟩ := plainStep_exact freq hp s oldJ k (by omega) h
    obtain ⟨i1, i2⟩ := ih _ (k + 1) (by omega) h2
    constructor
    · intro k' w
      rw [List.mem_append, h1, i1]
      constructor
      · rintro (⟨rfl, hf⟩ | ⟨a, b, c⟩)
        · exact ⟨le_refl _, by omega, hf⟩
        · exact ⟨by omega, b, c⟩
      · rintro ⟨a, b, c⟩
        by_cases hkk : k' = k
        · subst hkk; exact Or.inl ⟨rfl, c⟩
        · exact Or.inr ⟨by omega, b, c⟩
    · rw [List.pairwise_append]
      refine ⟨?_, i2, ?_⟩
      · refine h3.imp_of_mem ?_
        intro a b ha hb hab
        have e1 := ((h1 a.1 a.2).mp ha).1
        have e2 := ((h1 b.1 b.2).mp hb).1
        exact Or.inr ⟨by omega, hab⟩
      · intro a ha b hb
        have e1 := ((h1 a.1 a.2).mp ha).1
        have e2 := ((i1 b.1 b.2).mp hb).1
        left; omega

theorem cutAll_exact (freq : Freq) (hp : PrefixClosed freq) (s : Str) (hs : ∀ c ∈ s, isAlnum c = false) :
    ∃ l : List (Nat × Str), cutAll freq s = Gen.ok (l.map Prod.snd) ∧
      l.Pairwise (fun a b => a.1 < b.1 ∨ a.1 = b.1 ∧ a.2.length < b.2.length) ∧
      ∀ k w, (k, w) ∈ l ↔ k < s.length ∧ FullAt freq s k w := by
  have h0 : OldJ freq s (-1) 0 := by
    intro m _
    constructor
    · intro _ i j hi; omega
    · intro _; omega
  obtain ⟨h1, h2⟩ := plainLoop_exact freq hp s s.length (-1) 0 (by omega) h0
  rw [List.drop_zero] at h1 h2
  refine ⟨_, ?_, h2, ?_⟩
  · unfold cutAll; rw [cutAllLoop_plain s hs]
  · intro k w
    rw [h1]
    simp

theorem skip_split (s : Str) : SpaceSplit s (reSkipDefault.split s) := by
  have key : ∀ (n : Nat) (s acc : Str) (fuel : Nat) (st : Bool), s.length ≤ n → s.length < fuel → (∀ c ∈ acc, isSpace c = false) →
      SpaceSplit (acc ++ s) (reSkipDefault.splitGo fuel st acc s) := by
    intro n
    induction n with
    | zero =>
      intro s acc fuel st hn hf ha
      have : s = [] := List.length_eq_zero_iff.mp (by omega)
      subst this
      rw [splitGo_skip_nil, List.append_nil]
      exact .last acc ha
    | succ n ih =>
      intro s acc fuel st hn hf ha
      cases s with
      | nil => rw [splitGo_skip_nil, List.append_nil]; exact .last acc ha
      | cons c s =>
        simp only [List.length_cons] at hn hf
        obtain ⟨fuel, rfl⟩ : ∃ f, fuel = f + 1 := ⟨fuel - 1, by omega⟩
        rw [splitGo_skip_cons]
        split
        · next h =>
          obtain ⟨rfl, h⟩ := h
          cases s with
          | nil => cases h
          | cons d s =>
            simp only [List.head?_cons, Option.some.injEq] at h
            subst h
            simp only [List.length_cons] at hn hf
            have := ih s [] fuel false (by omega) (by omega) (by simp)
            exact .crlf acc s _ ha this
        · next h =>
          split
          · next hc =>
            have := ih s [] fuel false (by omega) (by omega) (by simp)
            exact .one acc s c _ ha hc h this
          · next hc =>
            have := ih s (acc ++ [c]) fuel false (by omega) (by omega) (by
              intro d hd
              rcases List.mem_append.mp hd with hd | hd
              · exact ha d hd
              · simp only [List.mem_singleton] at hd; subst hd; simpa using hc)
            simpa using this
  have := key s.length s [] (s.length + 1) true (le_refl _) (by omega) (by simp)
  exact this

end Jieba
