import Mathlib.Data.List.Induction
import Verif.Proofs.Basic
import Verif.Model.Dict
import Verif.Spec.Dictionary
import Verif.Spec.Entries
/-!
# Lemmas about `register` and `gen_pfdict`
-/

namespace Jieba
open Jieba.Spec

theorem addPrefixes_get? (w : Str) (n : Nat) (hn : n ≤ w.length) (d : Freq) (k : Str) :
    (addPrefixes w n d).get? k = match d.get? k with
      | some v => some v
      | none => if k ≠ [] ∧ k <+: w ∧ k.length ≤ n then some 0 else none := by
  induction n with
  | zero =>
    simp only [addPrefixes]
    cases h : PyDict.get? d k with
    | some v => rfl
    | none => simp only []; rw [if_neg]; rintro ⟨a, -, b⟩; exact a (List.length_eq_zero_iff.mp (by omega))
  | succ n ih =>
    have ih := ih (by omega)
    simp only [addPrefixes]
    have hlen : (w.take (n + 1)).length = n + 1 := by simp; omega
    have hkey : ∀ k : Str, (k ≠ [] ∧ k <+: w ∧ k.length ≤ n + 1) ↔
        (k = w.take (n + 1) ∨ (k ≠ [] ∧ k <+: w ∧ k.length ≤ n)) := by
      intro k
      constructor
      · rintro ⟨h1, h2, h3⟩
        by_cases h : k.length = n + 1
        · left; rw [List.prefix_iff_eq_take.mp h2, h]
        · right; exact ⟨h1, h2, by omega⟩
      · rintro (rfl | ⟨h1, h2, h3⟩)
        · exact ⟨by intro h; rw [h] at hlen; simp at hlen, List.take_prefix _ _, by omega⟩
        · exact ⟨h1, h2, by omega⟩
    split
    · next hhas =>
      rw [ih]
      cases hk : PyDict.get? d k with
      | some v => rfl
      | none =>
        simp only [hkey]
        by_cases hkk : k = w.take (n + 1)
        · exfalso
          subst hkk
          rw [PyDict.has, ih, hk] at hhas
          rw [if_neg (by rintro ⟨-, -, h⟩; omega)] at hhas
          simp at hhas
        · simp [hkk]
    · next hhas =>
      rw [PyDict.get?_set]
      split
      · next he =>
        subst he
        have : PyDict.get? (addPrefixes w n d) (w.take (n + 1)) = none := by
          simp [PyDict.has] at hhas; exact hhas
        rw [ih] at this
        cases hk : PyDict.get? d (w.take (n + 1)) with
        | some v => rw [hk] at this; simp at this
        | none => simp only; rw [if_pos ((hkey _).mpr (Or.inl rfl))]
      · next he =>
        rw [ih]
        cases hk : PyDict.get? d k with
        | some v => rfl
        | none =>
          simp only [hkey]
          have : k ≠ w.take (n + 1) := fun h => he h.symm
          simp [this]

/-- What registering a word does to lookups. -/
theorem register_get? (d : Freq) (w : Str) (f : Int) (k : Str) :
    (register d w f).get? k = if k = w then some f else match d.get? k with
      | some v => some v
      | none => if k ≠ [] ∧ k <+: w then some 0 else none := by
  unfold register
  rw [addPrefixes_get? w w.length (Nat.le_refl _), PyDict.get?_set]
  by_cases h : k = w
  · subst h; simp
  · rw [if_neg (fun e => h e.symm), if_neg h]
    cases PyDict.get? d k with
    | some v => rfl
    | none =>
      simp only
      congr 1
      apply propext
      constructor
      · rintro ⟨a, b, -⟩; exact ⟨a, b⟩
      · rintro ⟨a, b⟩; exact ⟨a, b, b.length_le⟩

theorem register_has (d : Freq) (w : Str) (f : Int) (k : Str) :
    (register d w f).has k = true ↔ k = w ∨ d.has k = true ∨ (k ≠ [] ∧ k <+: w) := by
  unfold PyDict.has
  rw [register_get?]
  by_cases h : k = w
  · simp [h]
  · simp only [h, if_false, false_or]
    cases PyDict.get? d k with
    | some v => simp
    | none => simp only []; split <;> simp_all

theorem register_dictWord (d : Freq) (w : Str) (f : Int) (k : Str) :
    DictWord (register d w f) k ↔ if k = w then f ≠ 0 else DictWord d k := by
  unfold DictWord
  rw [register_get?]
  by_cases h : k = w
  · simp [h]
  · simp only [h, if_false]
    cases PyDict.get? d k with
    | some v => simp
    | none =>
      simp only []
      split <;> simp

theorem prefixClosed_register (d : Freq) (w : Str) (f : Int) (h : PrefixClosed d) : PrefixClosed (register d w f) := by
  intro v hv p hp hpv
  rw [register_has] at hv ⊢
  rcases hv with rfl | hv | ⟨-, hv⟩
  · right; right; exact ⟨hp, hpv⟩
  · right; left; exact h v hv p hp hpv
  · right; right; exact ⟨hp, hpv.trans hv⟩

theorem nonNeg_register (d : Freq) (w : Str) (f : Int) (h : NonNeg d) (hf : 0 ≤ f) : NonNeg (register d w f) := by
  intro k v hk
  rw [register_get?] at hk
  split at hk
  · simp at hk; omega
  · cases hd : PyDict.get? d k with
    | some v' => rw [hd] at hk; simp at hk; subst hk; exact h k v' hd
    | none =>
      rw [hd] at hk
      simp only at hk
      split at hk
      · simp at hk; omega
      · simp at hk

/-! ## Keys stay distinct; the sum of all frequencies -/

/-- Sum of all frequencies in the table. -/
def sumFreq (d : Freq) : Int := (d.map Prod.snd).sum

theorem sumFreq_set (d : Freq) (k : Str) (v : Int) :
    sumFreq (d.set k v) = sumFreq d - (d.get? k).getD 0 + v := by
  induction d with
  | nil => simp [sumFreq, PyDict.set, PyDict.get?]
  | cons p d ih =>
    obtain ⟨k', v'⟩ := p
    unfold PyDict.set PyDict.get?
    by_cases h : k' = k
    · simp [h, sumFreq]; omega
    · simp only [h, if_false]
      simp only [sumFreq, List.map_cons, List.sum_cons] at ih ⊢
      rw [ih]; omega

theorem sumFreq_addPrefixes (w : Str) (n : Nat) (d : Freq) : sumFreq (addPrefixes w n d) = sumFreq d := by
  induction n with
  | zero => rfl
  | succ n ih =>
    simp only [addPrefixes]
    split
    · exact ih
    · next h =>
      rw [sumFreq_set, ih]
      have : PyDict.get? (addPrefixes w n d) (w.take (n + 1)) = none := by
        simp [PyDict.has] at h; exact h
      rw [this]; simp

theorem sumFreq_register (d : Freq) (w : Str) (f : Int) :
    sumFreq (register d w f) = sumFreq d - (d.get? w).getD 0 + f := by
  unfold register
  rw [sumFreq_addPrefixes, sumFreq_set]

theorem nodup_addPrefixes (w : Str) (n : Nat) (d : Freq) (h : d.keys.Nodup) : (PyDict.keys (addPrefixes w n d)).Nodup := by
  induction n with
  | zero => exact h
  | succ n ih =>
    simp only [addPrefixes]
    split
    · exact ih
    · exact PyDict.nodup_keys_set _ _ _ ih

theorem nodup_register (d : Freq) (w : Str) (f : Int) (h : d.keys.Nodup) : (PyDict.keys (register d w f)).Nodup :=
  nodup_addPrefixes _ _ _ (PyDict.nodup_keys_set _ _ _ h)

/-! ## gen_pfdict -/

/-- The table after registering a list of entries. -/
def registerAll (d : Freq) (es : List (Str × Int)) : Freq := es.foldl (fun d e => register d e.1 e.2) d

theorem genPfdictLoop_ok (ls : List Bytes) (es : List (Str × Int)) (d : Freq) (t : Int) (h : ls.map dictLine = es.map some) :
    genPfdictLoop ls d t = .ok (registerAll d es, t + (es.map Prod.snd).sum) := by
  induction ls generalizing es d t with
  | nil =>
    cases es with
    | nil => simp [genPfdictLoop, registerAll]
    | cons e es => simp at h
  | cons l ls ih =>
    cases es with
    | nil => simp at h
    | cons e es =>
      simp at h
      unfold genPfdictLoop
      rw [h.1]
      simp only
      rw [ih es _ _ h.2]
      simp [registerAll]; omega

theorem genPfdictLoop_err (ls : List Bytes) (d : Freq) (t : Int) (l : Bytes) (hl : l ∈ ls) (h : dictLine l = none) :
    genPfdictLoop ls d t = .error .valueError := by
  induction ls generalizing d t with
  | nil => simp at hl
  | cons l' ls ih =>
    unfold genPfdictLoop
    split
    · rfl
    · next w f h' =>
      rcases List.mem_cons.mp hl with rfl | hl
      · rw [h] at h'; simp at h'
      · exact ih _ _ hl

theorem genPfdict_cases (data : Bytes) :
    (∃ es, (fileLines data).map dictLine = es.map some ∧
      genPfdict data = .ok (registerAll [] es, (es.map Prod.snd).sum)) ∨
    ((∃ l ∈ fileLines data, dictLine l = none) ∧ genPfdict data = .error .valueError) := by
  by_cases h : ∃ l ∈ fileLines data, dictLine l = none
  · right
    obtain ⟨l, hl, hn⟩ := h
    exact ⟨⟨l, hl, hn⟩, genPfdictLoop_err _ _ _ l hl hn⟩
  · left
    have : ∃ es : List (Str × Int), (fileLines data).map dictLine = es.map some := by
      generalize fileLines data = ls at h
      induction ls with
      | nil => exact ⟨[], rfl⟩
      | cons l ls ih =>
        obtain ⟨es, hes⟩ := ih (fun ⟨l, hl, hn⟩ => h ⟨l, List.mem_cons_of_mem _ hl, hn⟩)
        cases hd : dictLine l with
        | none => exact absurd ⟨l, List.mem_cons_self, hd⟩ h
        | some e => exact ⟨e :: es, by simp [hd, hes]⟩
    obtain ⟨es, hes⟩ := this
    exact ⟨es, hes, by unfold genPfdict; rw [genPfdictLoop_ok _ es _ _ hes]; simp⟩

theorem registerAll_inv (P : Freq → Prop) (es : List (Str × Int)) (d : Freq) (h0 : P d)
    (hs : ∀ d e, e ∈ es → P d → P (register d e.1 e.2)) : P (registerAll d es) := by
  induction es generalizing d with
  | nil => exact h0
  | cons e es ih =>
    exact ih _ (hs d e List.mem_cons_self h0) (fun d e' he => hs d e' (List.mem_cons_of_mem _ he))

theorem registerAll_append (d : Freq) (a b : List (Str × Int)) :
    registerAll d (a ++ b) = registerAll (registerAll d a) b := by simp [registerAll]

theorem prefixClosed_nil : PrefixClosed [] := by
  intro w h; simp [PyDict.has, PyDict.get?] at h

theorem genPfdict_prefixClosed (data : Bytes) (x : Freq × Int) (h : genPfdict data = .ok x) : PrefixClosed x.1 := by
  rcases genPfdict_cases data with ⟨es, -, h'⟩ | ⟨-, h'⟩
  · rw [h] at h'; simp at h'; subst h'
    exact registerAll_inv _ es [] prefixClosed_nil (fun d e _ hd => prefixClosed_register d e.1 e.2 hd)
  · rw [h] at h'; simp at h'

theorem genPfdict_nodup (data : Bytes) (x : Freq × Int) (h : genPfdict data = .ok x) : x.1.keys.Nodup := by
  rcases genPfdict_cases data with ⟨es, -, h'⟩ | ⟨-, h'⟩
  · rw [h] at h'; simp at h'; subst h'
    exact registerAll_inv (fun d => (PyDict.keys d).Nodup) es [] List.nodup_nil (fun d e _ hd => nodup_register d e.1 e.2 hd)
  · rw [h] at h'; simp at h'

theorem registerAll_get? (d : Freq) (es : List (Str × Int)) (v : Str) :
    (registerAll d es).get? v = lookupAfter d es v := by
  induction es using List.reverseRecOn with
  | nil =>
    simp only [registerAll, List.foldl_nil, lookupAfter, lastFreq, StartsEntry]
    cases PyDict.get? d v <;> simp
  | append_singleton es e ih =>
    rw [registerAll_append]
    show (register (registerAll d es) e.1 e.2).get? v = _
    rw [register_get?, ih]
    unfold lookupAfter lastFreq
    simp only [List.reverse_append, List.reverse_cons, List.reverse_nil, List.nil_append, List.singleton_append,
      List.find?_cons]
    by_cases h : v = e.1
    · subst h; simp
    · rw [if_neg h]
      have : (e.1 == v) = false := by simp; exact fun h' => h h'.symm
      rw [this]
      simp only []
      cases hl : (List.find? (fun e => e.1 == v) es.reverse).map Prod.snd with
      | some f => rfl
      | none =>
        simp only []
        cases hd : PyDict.get? d v with
        | some x => rfl
        | none =>
          simp only []
          by_cases hs : StartsEntry es v
          · have hs' : StartsEntry (es ++ [e]) v := by
              obtain ⟨h1, e', he', h2⟩ := hs
              exact ⟨h1, e', by simp [he'], h2⟩
            rw [if_pos hs, if_pos hs']
          · rw [if_neg hs]
            simp only []
            congr 1
            apply propext
            constructor
            · rintro ⟨h1, h2⟩; exact ⟨h1, e, by simp, h2⟩
            · rintro ⟨h1, e', he', h2⟩
              refine ⟨h1, ?_⟩
              rcases List.mem_append.mp he' with he' | he'
              · exact absurd ⟨h1, e', he', h2⟩ hs
              · simp at he'; subst he'; exact h2

end Jieba
