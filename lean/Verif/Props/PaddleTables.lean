import Verif.Props.Paddle
import Verif.Spec.KeyValue
import Verif.Proofs.Fields
/-!
# C67 — loading the tables of the network
-/

namespace Jieba.Props
open Jieba Jieba.Spec Jieba.Paddle

variable {V : Type}

/-- `load_kv_dict` on keys and values. -/
def loadPairs (conv : Str → Option V) : List (Str × Str) → PyDict Str V → Except PyErr (PyDict Str V)
  | [], d => .ok d
  | (k, v) :: ps, d => if d.has k then .error .keyError else match conv v with
    | none => .error .valueError
    | some x => loadPairs conv ps (d.set k x)

theorem loadKV_pairs (reverse : Bool) (conv : Str → Option V) (lines : List Str) (ps : List (Str × Str)) (h : KVLines reverse lines ps)
    (d : PyDict Str V) : loadKV reverse conv lines d = loadPairs conv ps d := by
  induction h generalizing d with
  | nil => rfl
  | skip line lines ps mid fs h1 h2 h3 _ ih =>
    rw [trimmedBy_iff] at h1
    rw [fieldsOf_iff] at h2
    rw [loadKV, h1, h2]
    match fs, h3 with
    | [], _ => exact ih d
    | [_], _ => exact ih d
    | [_, _], h3 => exact absurd rfl h3
    | _ :: _ :: _ :: _, _ => exact ih d
  | pair line lines ps mid a b h1 h2 _ ih =>
    rw [trimmedBy_iff] at h1
    rw [fieldsOf_iff] at h2
    rw [loadKV, h1, h2]
    cases reverse
    · simp only [Bool.false_eq_true, if_false, loadPairs]
      split
      · rfl
      · cases conv b with
        | none => rfl
        | some x => exact ih _
    · simp only [if_true, loadPairs]
      split
      · rfl
      · cases conv a with
        | none => rfl
        | some x => exact ih _

theorem set_new (d : PyDict Str V) (k : Str) (v : V) (h : d.has k = false) : d.set k v = d ++ [(k, v)] := by
  induction d with
  | nil => rfl
  | cons e d ih =>
    obtain ⟨k', v'⟩ := e
    by_cases hk : k' = k
    · subst hk; simp [PyDict.has, PyDict.get?] at h
    · have h' : PyDict.has d k = false := by simpa [PyDict.has, PyDict.get?, hk] using h
      simp only [PyDict.set, hk, if_false, ih h', List.cons_append]

theorem loadPairs_ok (conv : Str → Option V) (ps : List (Str × Str)) (d d' : PyDict Str V) :
    loadPairs conv ps d = .ok d' ↔ (ps.map Prod.fst).Nodup ∧ (∀ p ∈ ps, d.has p.1 = false) ∧
      ∃ e, d' = d ++ e ∧ List.Forall₂ (fun p q => q.1 = p.1 ∧ conv p.2 = some q.2) ps e := by
  induction ps generalizing d with
  | nil => simp only [loadPairs, Except.ok.injEq, List.map_nil, List.nodup_nil, List.not_mem_nil, false_imp_iff, implies_true, true_and, List.forall₂_nil_left_iff]; constructor
           · rintro rfl; exact ⟨[], by simp, rfl⟩
           · rintro ⟨e, rfl, rfl⟩; simp
  | cons p ps ih =>
    obtain ⟨k, v⟩ := p
    simp only [loadPairs]
    cases hk : d.has k with
    | true => simp [hk]
    | false =>
      simp only [Bool.false_eq_true, if_false]
      cases hv : conv v with
      | none =>
        simp only [reduceCtorEq, false_iff]
        rintro ⟨-, -, e, -, hf⟩
        cases hf with
        | cons h _ => rw [hv] at h; cases h.2
      | some x =>
        simp only
        rw [ih, set_new d k x hk]
        have hhas : ∀ q, PyDict.has (d ++ [(k, x)]) q = false ↔ d.has q = false ∧ q ≠ k := by
          intro q
          rw [← set_new d k x hk]
          unfold PyDict.has
          rw [PyDict.get?_set]
          by_cases h : k = q
          · subst h; simp
          · simp [h, Ne.symm h]
        simp only [hhas, List.map_cons, List.nodup_cons, List.mem_cons, forall_eq_or_imp, hk, true_and]
        constructor
        · rintro ⟨h1, h2, e, rfl, hf⟩
          refine ⟨⟨?_, h1⟩, fun p hp => (h2 p hp).1, (k, x) :: e, by simp, .cons ⟨rfl, hv⟩ hf⟩
          intro hm
          obtain ⟨p, hp, e1⟩ := List.mem_map.mp hm
          exact (h2 p hp).2 e1
        · rintro ⟨⟨h0, h1⟩, h2, e, rfl, hf⟩
          refine ⟨h1, fun p hp => ⟨h2 p hp, ?_⟩, ?_⟩
          · rintro e1
            exact h0 (List.mem_map.mpr ⟨p, hp, e1⟩)
          · cases hf with
            | cons h hf =>
              next q e =>
              obtain ⟨a, b⟩ := q
              obtain ⟨rfl, h⟩ := h
              rw [hv] at h
              cases h
              exact ⟨e, by simp, hf⟩

theorem loadPairs_error (conv : Str → Option V) (ps : List (Str × Str)) (d : PyDict Str V) (e : PyErr) :
    loadPairs conv ps d = .error e ↔ ∃ pre k v post, ps = pre ++ (k, v) :: post ∧ (pre.map Prod.fst).Nodup ∧
      (∀ p ∈ pre, d.has p.1 = false ∧ (conv p.2).isSome = true) ∧
      ((e = .keyError ∧ (d.has k = true ∨ k ∈ pre.map Prod.fst)) ∨
       (e = .valueError ∧ d.has k = false ∧ k ∉ pre.map Prod.fst ∧ conv v = none)) := by
  induction ps generalizing d with
  | nil => simp [loadPairs]
  | cons p ps ih =>
    obtain ⟨k, v⟩ := p
    simp only [loadPairs]
    cases hk : d.has k with
    | true =>
      simp only [if_true, Except.error.injEq]
      constructor
      · rintro rfl
        exact ⟨[], k, v, ps, rfl, by simp, by simp, Or.inl ⟨rfl, Or.inl hk⟩⟩
      · rintro ⟨pre, k', v', post, h1, h2, h3, h4⟩
        cases pre with
        | nil =>
          simp only [List.nil_append, List.cons.injEq, Prod.mk.injEq] at h1
          obtain ⟨⟨rfl, rfl⟩, rfl⟩ := h1
          rcases h4 with ⟨rfl, -⟩ | ⟨-, h, -⟩
          · rfl
          · rw [hk] at h; cases h
        | cons p pre =>
          simp only [List.cons_append, List.cons.injEq] at h1
          obtain ⟨rfl, -⟩ := h1
          have := (h3 (k, v) (by simp)).1
          rw [hk] at this; cases this
    | false =>
      simp only [Bool.false_eq_true, if_false]
      have hhas : ∀ x q, PyDict.has (d.set k x) q = true ↔ d.has q = true ∨ q = k := by
        intro x q
        unfold PyDict.has
        rw [PyDict.get?_set]
        by_cases h : k = q
        · subst h; simp
        · simp [h, Ne.symm h]
      have hhas' : ∀ x q, PyDict.has (d.set k x) q = false ↔ d.has q = false ∧ q ≠ k := by
        intro x q
        rw [← Bool.not_eq_true, hhas]
        simp
      cases hv : conv v with
      | none =>
        simp only [Except.error.injEq]
        constructor
        · rintro rfl
          exact ⟨[], k, v, ps, rfl, by simp, by simp, Or.inr ⟨rfl, hk, by simp, hv⟩⟩
        · rintro ⟨pre, k', v', post, h1, h2, h3, h4⟩
          cases pre with
          | nil =>
            simp only [List.nil_append, List.cons.injEq, Prod.mk.injEq] at h1
            obtain ⟨⟨rfl, rfl⟩, rfl⟩ := h1
            rcases h4 with ⟨-, h | h⟩ | ⟨rfl, -⟩
            · rw [hk] at h; cases h
            · simp at h
            · rfl
          | cons p pre =>
            simp only [List.cons_append, List.cons.injEq] at h1
            obtain ⟨rfl, -⟩ := h1
            have := (h3 (k, v) (by simp)).2
            rw [hv] at this; cases this
      | some x =>
        simp only
        rw [ih]
        constructor
        · rintro ⟨pre, k', v', post, rfl, h2, h3, h4⟩
          refine ⟨(k, v) :: pre, k', v', post, rfl, ?_, ?_, ?_⟩
          · rw [List.map_cons, List.nodup_cons]
            refine ⟨?_, h2⟩
            intro hm
            obtain ⟨p, hp, e1⟩ := List.mem_map.mp hm
            exact ((hhas' x _).mp (h3 p hp).1).2 e1
          · intro p hp
            rcases List.mem_cons.mp hp with rfl | hp
            · exact ⟨hk, by rw [hv]; rfl⟩
            · exact ⟨((hhas' x _).mp (h3 p hp).1).1, (h3 p hp).2⟩
          · simp only [hhas, hhas', List.map_cons, List.mem_cons, not_or] at h4 ⊢
            rcases h4 with ⟨h, h'⟩ | ⟨h, ⟨h1, h1'⟩, h'', h3⟩
            · exact Or.inl ⟨h, by tauto⟩
            · exact Or.inr ⟨h, h1, ⟨h1', h''⟩, h3⟩
        · rintro ⟨pre, k', v', post, h1, h2, h3, h4⟩
          cases pre with
          | nil =>
            exfalso
            simp only [List.nil_append, List.cons.injEq, Prod.mk.injEq] at h1
            obtain ⟨⟨rfl, rfl⟩, rfl⟩ := h1
            rcases h4 with ⟨-, h | h⟩ | ⟨-, -, -, h⟩
            · rw [hk] at h; cases h
            · simp at h
            · rw [hv] at h; cases h
          | cons p pre =>
            simp only [List.cons_append, List.cons.injEq] at h1
            obtain ⟨rfl, rfl⟩ := h1
            rw [List.map_cons, List.nodup_cons] at h2
            refine ⟨pre, k', v', post, rfl, h2.2, ?_, ?_⟩
            · intro p hp
              refine ⟨(hhas' x _).mpr ⟨(h3 p (by simp [hp])).1, ?_⟩, (h3 p (by simp [hp])).2⟩
              rintro e1
              exact h2.1 (List.mem_map.mpr ⟨p, hp, e1⟩)
            · simp only [hhas, hhas', List.map_cons, List.mem_cons, not_or] at h4 ⊢
              rcases h4 with ⟨h, h'⟩ | ⟨h, h1, ⟨h1', h''⟩, h3⟩
              · exact Or.inl ⟨h, by tauto⟩
              · exact Or.inr ⟨h, ⟨h1, h1'⟩, h'', h3⟩

/-- C67: a table loads exactly when no key occurs twice and all ids are integers; it then has the keys and values of the file in that order. -/
theorem C67_load (reverse : Bool) (conv : Str → Option V) (lines : List Str) (ps : List (Str × Str)) (h : KVLines reverse lines ps) (d : PyDict Str V) :
    loadKV reverse conv lines [] = .ok d ↔
      (ps.map Prod.fst).Nodup ∧ List.Forall₂ (fun p q => q.1 = p.1 ∧ conv p.2 = some q.2) ps d := by
  rw [loadKV_pairs reverse conv lines ps h, loadPairs_ok]
  simp [PyDict.has, PyDict.get?]

/-- C67: otherwise the first line that is wrong decides about the exception: KeyError for a key that was there before, ValueError for an id
that is no integer. -/
theorem C67_load_raises (reverse : Bool) (conv : Str → Option V) (lines : List Str) (ps : List (Str × Str)) (h : KVLines reverse lines ps) (e : PyErr) :
    loadKV reverse conv lines [] = .error e ↔ ∃ pre k v post, ps = pre ++ (k, v) :: post ∧ (pre.map Prod.fst).Nodup ∧
      (∀ p ∈ pre, (conv p.2).isSome = true) ∧
      ((e = .keyError ∧ k ∈ pre.map Prod.fst) ∨ (e = .valueError ∧ k ∉ pre.map Prod.fst ∧ conv v = none)) := by
  rw [loadKV_pairs reverse conv lines ps h, loadPairs_error]
  simp [PyDict.has, PyDict.get?]

/-- The sample file, whose last line does not count; with a line for 大 once more it does not load, but the ids alone do. -/
example : KVLines true sampleWords [(lit ['大'], lit ['0']), (lit ['学'], lit ['1']), (lit ['O', 'O', 'V'], lit ['1', '2'])] ∧
    loadKV true pyInt (sampleWords ++ [lit ['7', '\t', '大', '\n']]) [] = .error .keyError ∧
    loadKV true pyInt (lit ['a', '\t', '大', '\n'] :: sampleWords) [] = .error .valueError ∧
    (loadKV false some (sampleWords ++ [lit ['7', '\t', '大', '\n']]) []).isOk = true := by
  refine ⟨?_, by decide +kernel, by decide +kernel, by decide +kernel⟩
  have t : ∀ line mid, stripBy (· == 0x0A) line = mid → TrimmedBy (· == 0x0A) line mid := fun line mid h => (trimmedBy_iff _ _ _).mpr h
  have f : ∀ mid fs, splitOn1 0x09 mid = fs → FieldsOf 0x09 mid fs := fun mid fs h => (fieldsOf_iff _ _ _).mpr h
  exact .pair _ _ _ _ _ _ (t _ _ rfl) (f _ [_, _] (by decide +kernel)) (.pair _ _ _ _ _ _ (t _ _ rfl) (f _ [_, _] (by decide +kernel))
    (.pair _ _ _ _ _ _ (t _ _ rfl) (f _ [_, _] (by decide +kernel)) (.skip _ _ _ _ _ (t _ _ rfl) (f _ _ rfl) (by decide +kernel) .nil)))

end Jieba.Props
