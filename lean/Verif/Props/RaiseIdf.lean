import Verif.Props.Repetition
import Verif.Props.TfidfFloat
import Verif.Spec.Idf
/-!
# C140: raising the IDF of words

`occ` (accepted words of the text) and `cutErr` are those of `Props/Keywords`; they do not depend on the IDF table.
-/

namespace Jieba.Props
open Jieba Jieba.Spec Jieba.Pos Jieba.Analyse

section
variable {F : Type} [LinearOrder F]

theorem ahead_asymm (ks : List Key) (a b : Key × Option F) (h : Ahead ks a b) (h' : Ahead ks b a) : False := by
  obtain ⟨u, v, h1, h2, h⟩ := h
  obtain ⟨v', u', h3, h4, h'⟩ := h'
  rw [h1] at h4; cases h4
  rw [h2] at h3; cases h3
  rcases h with h | ⟨h, h5⟩ <;> rcases h' with h' | ⟨h', h6⟩
  · exact lt_asymm h h'
  · rw [h'] at h; exact lt_irrefl _ h
  · rw [h] at h'; exact lt_irrefl _ h'
  · omega

/-- In a ranked list the position tells who is ahead. -/
theorem idxOf_ahead (ks : List Key) (l : List (Key × Option F)) (hl : l.Pairwise (Ahead ks)) (hn : (l.map Prod.fst).Nodup) (a b : Key) (u v : Option F)
    (ha : (a, u) ∈ l) (hb : (b, v) ∈ l) : (l.map Prod.fst).idxOf a < (l.map Prod.fst).idxOf b ↔ Ahead ks (a, u) (b, v) := by
  obtain ⟨i, hi, ei⟩ := List.getElem_of_mem ha
  obtain ⟨j, hj, ej⟩ := List.getElem_of_mem hb
  have hI : (l.map Prod.fst).idxOf a = i := by
    have := hn.idxOf_getElem i (by simpa using hi)
    simpa [ei] using this
  have hJ : (l.map Prod.fst).idxOf b = j := by
    have := hn.idxOf_getElem j (by simpa using hj)
    simpa [ej] using this
  rw [hI, hJ]
  have hp := List.pairwise_iff_getElem.mp hl
  constructor
  · intro h
    have := hp i j hi hj h
    rwa [ei, ej] at this
  · intro h
    rcases lt_trichotomy i j with g | g | g
    · exact g
    · subst g
      rw [ei] at ej
      rw [ej] at h
      exact (ahead_asymm ks _ _ h h).elim
    · have := hp j i hj hi g
      rw [ei, ej] at this
      exact (ahead_asymm ks _ _ h this).elim

theorem idxOf_le_of_before {α : Type} [DecidableEq α] (L L' : List α) (hn : L.Nodup) (b : α) (hb : b ∈ L)
    (hsub : ∀ a ∈ L, L.idxOf a < L.idxOf b → a ∈ L' ∧ L'.idxOf a < L'.idxOf b) : L.idxOf b ≤ L'.idxOf b := by
  have h1 : L.take (L.idxOf b) ⊆ L'.take (L'.idxOf b) := by
    intro a ha
    obtain ⟨i, hi, e⟩ := List.mem_take_iff_getElem.mp ha
    have hi' : i < L.idxOf b ∧ i < L.length := by omega
    have hia : L.idxOf a = i := by rw [← e]; exact hn.idxOf_getElem i hi'.2
    obtain ⟨g1, g2⟩ := hsub a (List.mem_of_mem_take ha) (by omega)
    have g3 : L'.idxOf a < L'.length := List.idxOf_lt_length_of_mem g1
    refine List.mem_take_iff_getElem.mpr ⟨L'.idxOf a, by omega, ?_⟩
    exact List.getElem_idxOf g3
  have h2 := (List.subperm_of_subset (hn.sublist (List.take_sublist _ _)) h1).length_le
  have h3 : L.idxOf b < L.length := List.idxOf_lt_length_of_mem hb
  rw [List.length_take, List.length_take] at h2
  omega

/-- The weight `freq[k] * idf / total` as computed, whatever the arithmetic. -/
def weightIn (A : Arith F) (ks : List Key) (x : Tfidf F) (k : Key) : F :=
  A.mul (ones A (ks.count k)) (A.div (idfOf x k.text) ((countKeys A ks).values.foldl A.add A.zero))

theorem ranked_any (K : KSys F) (p : PWorld) (x : Tfidf F) (s : PyText) (allow : List Str) (withFlag io : Bool)
    (l : List (Key × Option F)) (h : (extractTags K p x s none true allow withFlag io).2 = .ok l) :
    (∀ k v, (k, v) ∈ l ↔ k ∈ occ K p x s allow withFlag io ∧ v = some (weightIn K.pos.sys.A (occ K p x s allow withFlag io) x k)) ∧
    l.Pairwise (Ahead (occ K p x s allow withFlag io)) ∧ (l.map Prod.fst).Nodup := by
  refine ⟨?_, C48_sorted K p x s allow withFlag io l h, C48_distinct K p x s allow withFlag io l h⟩
  rw [extractTags_eq] at h
  cases hc : cutErr K p x s allow io with
  | some e => rw [hc] at h; cases h
  | none =>
    rw [hc] at h
    simp only [] at h
    unfold weightIn
    generalize occ K p x s allow withFlag io = ks at *
    generalize K.pos.sys.A = A at *
    have hmem := fun k => countKeys_mem A ks k
    have heq := countKeys_eq A ks
    generalize ht : (countKeys A ks).values.foldl A.add A.zero = t at *
    by_cases h0 : t = A.zero
    · cases hd : countKeys A ks with
      | nil =>
        rw [hd] at h
        cases h
        intro k v
        have : k ∉ ks := fun hk => by
          have := (hmem k).mpr hk
          rw [hd] at this
          cases this
        constructor
        · intro g; cases g
        · intro g; exact absurd g.1 this
      | cons e d =>
        obtain ⟨k, v⟩ := e
        rw [hd] at h
        simp only [scaleBy, pyDiv, if_pos h0] at h
        cases h
    · rw [scaleBy_ok _ _ _ _ h0] at h
      simp only [rankTags_weights, Except.map, topOf, Except.ok.injEq] at h
      subst h
      intro k v
      rw [List.mem_map]
      constructor
      · rintro ⟨e, he, e1⟩
        rw [(sortBy_perm _ _).mem_iff, heq, List.map_map, List.mem_map] at he
        obtain ⟨k', hk', rfl⟩ := he
        cases e1
        exact ⟨(hmem k').mp hk', rfl⟩
      · rintro ⟨hk, rfl⟩
        refine ⟨(k, A.mul (ones A (ks.count k)) (A.div (idfOf x k.text) t)), ?_, rfl⟩
        rw [(sortBy_perm _ _).mem_iff, heq, List.map_map, List.mem_map]
        exact ⟨k, (hmem k).mpr hk, rfl⟩

/-- Only the IDFs of the accepted words of the text matter, whatever the arithmetic. -/
theorem C140_irrelevant (K : KSys F) (p : PWorld) (x : Tfidf F) (idf : PyDict Str F) (median : F) (s : PyText) (allow : List Str)
    (withFlag io : Bool) (h : ∀ k ∈ occ K p x s allow withFlag io, idfOf { x with idf := idf, median := median } k.text = idfOf x k.text)
    (l l' : List (Key × Option F)) (hl : (extractTags K p x s none true allow withFlag io).2 = .ok l)
    (hl' : (extractTags K p { x with idf := idf, median := median } s none true allow withFlag io).2 = .ok l') : l = l' := by
  obtain ⟨h1, h2, h3⟩ := ranked_any K p x s allow withFlag io l hl
  obtain ⟨h1', h2', h3'⟩ := ranked_any K p _ s allow withFlag io l' hl'
  have ho : occ K p { x with idf := idf, median := median } s allow withFlag io = occ K p x s allow withFlag io := rfl
  rw [ho] at h1' h2'
  refine eq_of_ahead _ _ (fun a _ b _ h => h) l l' ?_ (fun e he => ((h1 e.1 e.2).mp he).1) h2 h2'
  rintro ⟨k, v⟩
  rw [h1, h1']
  constructor
  · rintro ⟨g, rfl⟩; exact ⟨g, by unfold weightIn; rw [h k g]⟩
  · rintro ⟨g, rfl⟩; exact ⟨g, by unfold weightIn; rw [h k g]⟩

/-- Ranked lists with two weights, when no weight of `U` falls and no other weight changes. -/
theorem raised_of_weights (ks : List Key) (w w' : Key → F) (U : Str → Bool) (hsame : ∀ k ∈ ks, U k.text = false → w' k = w k)
    (hup : ∀ k ∈ ks, U k.text = true → w k ≤ w' k) (l l' : List (Key × Option F)) (h1 : ∀ k v, (k, v) ∈ l ↔ k ∈ ks ∧ v = some (w k))
    (h2 : l.Pairwise (Ahead ks)) (h3 : (l.map Prod.fst).Nodup) (h1' : ∀ k v, (k, v) ∈ l' ↔ k ∈ ks ∧ v = some (w' k))
    (h2' : l'.Pairwise (Ahead ks)) (h3' : (l'.map Prod.fst).Nodup) :
    l.filter (fun e => !U e.1.text) = l'.filter (fun e => !U e.1.text) ∧
    (∀ a b, a ∈ ks → b ∈ ks → U a.text = true → U b.text = false →
      (l.map Prod.fst).idxOf a < (l.map Prod.fst).idxOf b → (l'.map Prod.fst).idxOf a < (l'.map Prod.fst).idxOf b) ∧
    (∀ b ∈ ks, U b.text = false → (l.map Prod.fst).idxOf b ≤ (l'.map Prod.fst).idxOf b) ∧
    (∀ a ∈ ks, (∀ k ∈ ks, U k.text = true → k = a) → U a.text = true →
      (l'.map Prod.fst).idxOf a ≤ (l.map Prod.fst).idxOf a) := by
  have hkeys : ∀ k, k ∈ ks → k ∈ l.map Prod.fst ∧ k ∈ l'.map Prod.fst := fun k hk =>
    ⟨List.mem_map.mpr ⟨(k, _), (h1 k _).mpr ⟨hk, rfl⟩, rfl⟩, List.mem_map.mpr ⟨(k, _), (h1' k _).mpr ⟨hk, rfl⟩, rfl⟩⟩
  have hks : ∀ k, k ∈ l.map Prod.fst ∨ k ∈ l'.map Prod.fst → k ∈ ks := fun k hk => by
    rcases hk with hk | hk
    · obtain ⟨e, he, rfl⟩ := List.mem_map.mp hk; exact ((h1 e.1 e.2).mp he).1
    · obtain ⟨e, he, rfl⟩ := List.mem_map.mp hk; exact ((h1' e.1 e.2).mp he).1
  have hpos : ∀ a b, a ∈ ks → b ∈ ks → ((l.map Prod.fst).idxOf a < (l.map Prod.fst).idxOf b ↔
      Ahead ks (a, some (w a)) (b, some (w b))) := fun a b ha hb =>
    idxOf_ahead ks l h2 h3 a b _ _ ((h1 _ _).mpr ⟨ha, rfl⟩) ((h1 _ _).mpr ⟨hb, rfl⟩)
  have hpos' : ∀ a b, a ∈ ks → b ∈ ks → ((l'.map Prod.fst).idxOf a < (l'.map Prod.fst).idxOf b ↔
      Ahead ks (a, some (w' a))
        (b, some (w' b))) := fun a b ha hb =>
    idxOf_ahead ks l' h2' h3' a b _ _ ((h1' _ _).mpr ⟨ha, rfl⟩) ((h1' _ _).mpr ⟨hb, rfl⟩)
  have hb1 : ∀ a b, a ∈ ks → b ∈ ks → U b.text = false →
      (l.map Prod.fst).idxOf a < (l.map Prod.fst).idxOf b → (l'.map Prod.fst).idxOf a < (l'.map Prod.fst).idxOf b := by
    intro a b ha hb hUb hlt
    rw [hpos a b ha hb] at hlt
    rw [hpos' a b ha hb, hsame b hb hUb]
    cases hUa : U a.text with
    | false => rw [hsame a ha hUa]; exact hlt
    | true =>
      obtain ⟨u, v, e1, e2, h⟩ := hlt
      cases e1; cases e2
      refine ⟨_, _, rfl, rfl, ?_⟩
      have := hup a ha hUa
      rcases h with h | ⟨h, h'⟩
      · exact Or.inl (lt_of_lt_of_le h this)
      · rcases lt_or_eq_of_le this with g | g
        · left; rw [← h]; exact g
        · exact Or.inr ⟨g.symm.trans h, h'⟩
  refine ⟨?_, fun a b ha hb _ => hb1 a b ha hb, ?_, ?_⟩
  · refine eq_of_ahead ks ks (fun a _ b _ h => h) _ _ ?_ (fun e he => ((h1 e.1 e.2).mp (List.mem_of_mem_filter he)).1) (h2.filter _) (h2'.filter _)
    rintro ⟨k, v⟩
    rw [List.mem_filter, List.mem_filter, h1, h1']
    constructor
    · rintro ⟨⟨g, rfl⟩, gU⟩; exact ⟨⟨g, by rw [hsame k g (by simpa using gU)]⟩, gU⟩
    · rintro ⟨⟨g, rfl⟩, gU⟩; exact ⟨⟨g, by rw [hsame k g (by simpa using gU)]⟩, gU⟩
  · intro b hb hU
    refine idxOf_le_of_before _ _ h3 b (hkeys b hb).1 fun a ha hlt => ?_
    have ha' := hks a (Or.inl ha)
    exact ⟨(hkeys a ha').2, hb1 a b ha' hb hU hlt⟩
  · intro a ha hone _
    refine idxOf_le_of_before _ _ h3' a (hkeys a ha).2 fun b hb hlt => ?_
    have hb' := hks b (Or.inr hb)
    refine ⟨(hkeys b hb').1, ?_⟩
    have hba : b ≠ a := by rintro rfl; exact lt_irrefl _ hlt
    have hUb : U b.text = false := by
      cases e : U b.text with
      | false => rfl
      | true => exact absurd (hone b hb' e) hba
    by_contra hge
    rcases lt_or_eq_of_le (not_lt.mp hge) with g | g
    · exact lt_asymm hlt (hb1 a b ha hb' hUb g)
    · exact hba ((List.idxOf_inj (hkeys a ha).1).mp g).symm

/-- The same for `extract_tags`, whatever the arithmetic. -/
theorem raised_any (K : KSys F) (p : PWorld) (x : Tfidf F) (idf : PyDict Str F) (median : F) (s : PyText) (allow : List Str)
    (withFlag io : Bool) (U : Str → Bool)
    (hsame : ∀ k ∈ occ K p x s allow withFlag io, U k.text = false → idfOf { x with idf := idf, median := median } k.text = idfOf x k.text)
    (hup : ∀ k ∈ occ K p x s allow withFlag io, U k.text = true → weightIn K.pos.sys.A (occ K p x s allow withFlag io) x k ≤
      weightIn K.pos.sys.A (occ K p x s allow withFlag io) { x with idf := idf, median := median } k)
    (l l' : List (Key × Option F)) (hl : (extractTags K p x s none true allow withFlag io).2 = .ok l)
    (hl' : (extractTags K p { x with idf := idf, median := median } s none true allow withFlag io).2 = .ok l') :
    l.filter (fun e => !U e.1.text) = l'.filter (fun e => !U e.1.text) ∧
    (∀ a b, a ∈ occ K p x s allow withFlag io → b ∈ occ K p x s allow withFlag io → U a.text = true → U b.text = false →
      (l.map Prod.fst).idxOf a < (l.map Prod.fst).idxOf b → (l'.map Prod.fst).idxOf a < (l'.map Prod.fst).idxOf b) ∧
    (∀ b ∈ occ K p x s allow withFlag io, U b.text = false → (l.map Prod.fst).idxOf b ≤ (l'.map Prod.fst).idxOf b) ∧
    (∀ a ∈ occ K p x s allow withFlag io, (∀ k ∈ occ K p x s allow withFlag io, U k.text = true → k = a) → U a.text = true →
      (l'.map Prod.fst).idxOf a ≤ (l.map Prod.fst).idxOf a) := by
  obtain ⟨h1, h2, h3⟩ := ranked_any K p x s allow withFlag io l hl
  obtain ⟨h1', h2', h3'⟩ := ranked_any K p _ s allow withFlag io l' hl'
  have ho : occ K p { x with idf := idf, median := median } s allow withFlag io = occ K p x s allow withFlag io := rfl
  rw [ho] at h1' h2'
  exact raised_of_weights _ _ _ U (fun k hk hU => by unfold weightIn; rw [hsame k hk hU]) hup l l' h1 h2 h3 h1' h2' h3'

/-- The first `k` keywords, whatever the arithmetic. -/
theorem top_any (K : KSys F) (p : PWorld) (x : Tfidf F) (u : Str) (v : F) (s : PyText) (allow : List Str) (io : Bool)
    (k : Nat) (hk : 0 < k)
    (hup : Key.word u ∈ occ K p x s allow false io → weightIn K.pos.sys.A (occ K p x s allow false io) x (.word u) ≤ weightIn K.pos.sys.A (occ K p x s allow false io) { x with idf := x.idf.set u v } (.word u))
    (l l' : List (Key × Option F)) (hl : (extractTags K p x s (some k) true allow false io).2 = .ok l)
    (hl' : (extractTags K p { x with idf := x.idf.set u v } s (some k) true allow false io).2 = .ok l') :
    (.word u ∈ l.map Prod.fst → .word u ∈ l'.map Prod.fst) ∧ ∀ w, w ≠ u → .word w ∈ l'.map Prod.fst → .word w ∈ l.map Prod.fst := by
  rw [C48_topK K p _ s true allow false io k hk] at hl hl'
  cases hm : (extractTags K p x s none true allow false io).2 with
  | error e => rw [hm] at hl; cases hl
  | ok m =>
    cases hm' : (extractTags K p { x with idf := x.idf.set u v } s none true allow false io).2 with
    | error e => rw [hm'] at hl'; cases hl'
    | ok m' =>
      rw [hm] at hl; rw [hm'] at hl'
      cases hl; cases hl'
      have hword : ∀ k ∈ occ K p x s allow false io, k = .word k.text := fun k hk => by
        unfold occ at hk
        split at hk
        · simp only [acceptedWords, List.mem_map] at hk
          obtain ⟨w, -, rfl⟩ := hk; rfl
        · simp only [acceptedPairs, List.mem_map] at hk
          obtain ⟨w, -, rfl⟩ := hk; rfl
      obtain ⟨-, -, h3, h4⟩ := raised_any K p x (x.idf.set u v) x.median s allow false io (fun w => decide (w = u))
        (fun k _ h => by
          have : k.text ≠ u := by simpa using h
          simp [idfOf, PyDict.get?_set, Ne.symm this])
        (fun k hk h => by
          have : k.text = u := by simpa using h
          have e := hword k hk
          rw [this] at e
          rw [e] at hk ⊢
          exact hup hk) m m' hm hm'
      obtain ⟨g1, -, -⟩ := ranked_any K p x s allow false io m hm
      obtain ⟨g1', -, -⟩ := ranked_any K p _ s allow false io m' hm'
      have hin : ∀ k, k ∈ m.map Prod.fst ↔ k ∈ occ K p x s allow false io := fun k => by
        rw [List.mem_map]
        exact ⟨fun ⟨e, he, h⟩ => h ▸ ((g1 e.1 e.2).mp he).1, fun h => ⟨(k, _), (g1 k _).mpr ⟨h, rfl⟩, rfl⟩⟩
      have hin' : ∀ k, k ∈ m'.map Prod.fst ↔ k ∈ occ K p x s allow false io := fun k => by
        rw [List.mem_map]
        exact ⟨fun ⟨e, he, h⟩ => h ▸ ((g1' e.1 e.2).mp he).1, fun h => ⟨(k, _), (g1' k _).mpr ⟨h, rfl⟩, rfl⟩⟩
      simp only [List.map_take]
      refine ⟨fun h => ?_, fun w hw h => ?_⟩
      · have ho := (hin _).mp (List.mem_of_mem_take h)
        rw [List.mem_take_iff_idxOf_lt ((hin _).mpr ho)] at h
        rw [List.mem_take_iff_idxOf_lt ((hin' _).mpr ho)]
        refine lt_of_le_of_lt (h4 _ ho (fun k hk e => ?_) (by simp [Key.text])) h
        rw [hword k hk]
        simpa using e
      · have ho := (hin' _).mp (List.mem_of_mem_take h)
        rw [List.mem_take_iff_idxOf_lt ((hin' _).mpr ho)] at h
        rw [List.mem_take_iff_idxOf_lt ((hin _).mpr ho)]
        exact lt_of_le_of_lt (h3 _ ho (by simp [Key.text, hw])) h

end

section
variable {F : Type} [Field F] [LinearOrder F] [IsStrictOrderedRing F]

theorem ranked (K : KSys F) (hA : Exact K.pos.sys.A) (p : PWorld) (x : Tfidf F) (s : PyText) (allow : List Str) (withFlag io : Bool)
    (l : List (Key × Option F)) (h : (extractTags K p x s none true allow withFlag io).2 = .ok l) :
    (∀ k v, (k, v) ∈ l ↔ k ∈ occ K p x s allow withFlag io ∧
      v = some (((occ K p x s allow withFlag io).count k : F) * idfOf x k.text / (occ K p x s allow withFlag io).length)) ∧
    l.Pairwise (Ahead (occ K p x s allow withFlag io)) ∧ (l.map Prod.fst).Nodup := by
  cases hc : cutErr K p x s allow io with
  | some e => rw [C50_segmentation_fails K p x s none true allow withFlag io e hc] at h; cases h
  | none =>
    obtain ⟨l', h1, h2⟩ := C50_weights K hA p x s allow withFlag io hc
    rw [h] at h1; cases h1
    exact ⟨h2, C48_sorted K p x s allow withFlag io l h, C48_distinct K p x s allow withFlag io l h⟩

theorem weightIn_exact (A : Arith F) (hA : Exact A) (ks : List Key) (x : Tfidf F) (k : Key) :
    weightIn A ks x k = (ks.count k : F) * idfOf x k.text / ks.length := by
  unfold weightIn
  rw [total_exact _ hA, ones_exact _ hA, hA.mul, hA.div, mul_div_assoc]

theorem weightIn_mono_exact (A : Arith F) (hA : Exact A) (ks : List Key) (x x' : Tfidf F) (k : Key) (h : idfOf x k.text ≤ idfOf x' k.text) :
    weightIn A ks x k ≤ weightIn A ks x' k := by
  rw [weightIn_exact A hA, weightIn_exact A hA]
  exact div_le_div_of_nonneg_right (mul_le_mul_of_nonneg_left h (Nat.cast_nonneg _)) (Nat.cast_nonneg _)

/-- If the IDFs of some words are raised, the others keep their weights and their order, no raised word falls behind another one, and no other word enters the
first `k`. -/
theorem C140_raised (K : KSys F) (hA : Exact K.pos.sys.A) (p : PWorld) (x : Tfidf F) (idf : PyDict Str F) (median : F) (s : PyText) (allow : List Str)
    (withFlag io : Bool) (U : Str → Bool)
    (hsame : ∀ k ∈ occ K p x s allow withFlag io, U k.text = false → idfOf { x with idf := idf, median := median } k.text = idfOf x k.text)
    (hup : ∀ k ∈ occ K p x s allow withFlag io, U k.text = true → idfOf x k.text ≤ idfOf { x with idf := idf, median := median } k.text)
    (l l' : List (Key × Option F)) (hl : (extractTags K p x s none true allow withFlag io).2 = .ok l)
    (hl' : (extractTags K p { x with idf := idf, median := median } s none true allow withFlag io).2 = .ok l') :
    l.filter (fun e => !U e.1.text) = l'.filter (fun e => !U e.1.text) ∧
    (∀ a b, a ∈ occ K p x s allow withFlag io → b ∈ occ K p x s allow withFlag io → U a.text = true → U b.text = false →
      (l.map Prod.fst).idxOf a < (l.map Prod.fst).idxOf b → (l'.map Prod.fst).idxOf a < (l'.map Prod.fst).idxOf b) ∧
    (∀ b ∈ occ K p x s allow withFlag io, U b.text = false → (l.map Prod.fst).idxOf b ≤ (l'.map Prod.fst).idxOf b) ∧
    (∀ a ∈ occ K p x s allow withFlag io, (∀ k ∈ occ K p x s allow withFlag io, U k.text = true → k = a) → U a.text = true →
      (l'.map Prod.fst).idxOf a ≤ (l.map Prod.fst).idxOf a) := by
  refine raised_any K p x idf median s allow withFlag io U hsame (fun k hk hU => ?_) l l' hl hl'
  exact weightIn_mono_exact _ hA _ _ _ k (hup k hk hU)

/-- The first `k` keywords, when the IDF of one word becomes `v`, at least what it was (in the table, or by the median): the word stays among them if it was, and
whoever else is among them was before. -/
theorem C140_top (K : KSys F) (hA : Exact K.pos.sys.A) (p : PWorld) (x : Tfidf F) (u : Str) (v : F) (hv : idfOf x u ≤ v) (s : PyText) (allow : List Str) (io : Bool)
    (k : Nat) (hk : 0 < k) (l l' : List (Key × Option F)) (hl : (extractTags K p x s (some k) true allow false io).2 = .ok l)
    (hl' : (extractTags K p { x with idf := x.idf.set u v } s (some k) true allow false io).2 = .ok l') :
    (.word u ∈ l.map Prod.fst → .word u ∈ l'.map Prod.fst) ∧ ∀ w, w ≠ u → .word w ∈ l'.map Prod.fst → .word w ∈ l.map Prod.fst := by
  exact top_any K p x u v s allow io k hk (fun _ => weightIn_mono_exact _ hA _ _ _ _ (by simpa [idfOf, PyDict.get?_set, Key.text] using hv)) l l' hl hl'

/-- Multiplying all IDFs and the median by a positive number multiplies the weights and keeps the order. -/
theorem C140_scaled (K : KSys F) (hA : Exact K.pos.sys.A) (p : PWorld) (x : Tfidf F) (c : F) (hc : 0 < c) (s : PyText) (allow : List Str) (withFlag io : Bool)
    (l l' : List (Key × Option F)) (hl : (extractTags K p x s none true allow withFlag io).2 = .ok l)
    (hl' : (extractTags K p { x with idf := x.idf.map (fun e => (e.1, c * e.2)), median := c * x.median } s none true allow withFlag io).2 = .ok l') :
    l' = l.map (fun e => (e.1, e.2.map (c * ·))) := by
  obtain ⟨h1, h2, h3⟩ := ranked K hA p x s allow withFlag io l hl
  obtain ⟨h1', h2', h3'⟩ := ranked K hA p _ s allow withFlag io l' hl'
  have ho : occ K p { x with idf := x.idf.map (fun e => (e.1, c * e.2)), median := c * x.median } s allow withFlag io = occ K p x s allow withFlag io := rfl
  rw [ho] at h1' h2'
  have hidf : ∀ u, idfOf { x with idf := x.idf.map (fun e => (e.1, c * e.2)), median := c * x.median } u = c * idfOf x u := fun u => by
    have : ∀ d : PyDict Str F, PyDict.get? (d.map (fun e => (e.1, c * e.2))) u = (PyDict.get? d u).map (c * ·) := fun d => by
      induction d with
      | nil => rfl
      | cons e d ih =>
        simp only [List.map_cons, PyDict.get?]
        split
        · rfl
        · exact ih
    unfold idfOf
    simp only [this]
    cases PyDict.get? x.idf u <;> rfl
  refine (eq_of_ahead _ _ (fun a _ b _ h => h) l' _ ?_ (fun e he => ((h1' e.1 e.2).mp he).1) h2' ?_)
  · rintro ⟨k, v⟩
    rw [h1', List.mem_map]
    constructor
    · rintro ⟨g, rfl⟩
      refine ⟨(k, _), (h1 k _).mpr ⟨g, rfl⟩, ?_⟩
      rw [hidf]
      simp only [Option.map, Prod.mk.injEq, Option.some.injEq, true_and]
      ring
    · rintro ⟨⟨k', v'⟩, g, e⟩
      obtain ⟨g1, rfl⟩ := (h1 k' v').mp g
      simp only [Option.map, Prod.mk.injEq] at e
      obtain ⟨rfl, rfl⟩ := e
      refine ⟨g1, ?_⟩
      rw [hidf]
      congr 1
      ring
  · refine List.pairwise_map.mpr (h2.imp ?_)
    rintro ⟨a, _⟩ ⟨b, _⟩ ⟨u, v, rfl, rfl, h⟩
    refine ⟨_, _, rfl, rfl, ?_⟩
    rcases h with h | ⟨rfl, h⟩
    · exact Or.inl (mul_lt_mul_of_pos_left h hc)
    · exact Or.inr ⟨rfl, h⟩

/-- The hypotheses are met: with the IDF of 北京 raised from 3 to 12 it becomes the first keyword. -/
example : Exact ratKSys.pos.sys.A ∧ idfOf ratTfidf (lit ['北', '京']) = 3 ∧
    (extractTags ratKSys readyRat ratTfidf (.str (lit ['北', '京', '大', '学', '，', '大', '学'])) (some 1) true [] false true).2 =
      .ok [(.word (lit ['大', '学']), some (10 / 3))] ∧
    (extractTags ratKSys readyRat { ratTfidf with idf := ratTfidf.idf.set (lit ['北', '京']) 12 }
      (.str (lit ['北', '京', '大', '学', '，', '大', '学'])) none true [] false true).2 =
      .ok [(.word (lit ['北', '京']), some 4), (.word (lit ['大', '学']), some (10 / 3))] :=
  ⟨ratArith_exact, by decide +kernel, by decide +kernel, by decide +kernel⟩

end

section

theorem weight_ieee (log : Nat → ℚ) (over : ℚ → ℚ) (c n : Nat) (hc : 1 ≤ c) (hcn : c ≤ n) (hn : n ≤ 2 ^ 53) (q : ℚ) (hq : FarIdf q) :
    (ieeeArith log over).mul c ((ieeeArith log over).div q n) = rnd ((c : ℚ) * rnd (q / n)) := by
  show rndIeee over ((c : ℚ) * rndIeee over (q / n)) = _
  have hn1 : (1 : ℚ) ≤ n := by exact_mod_cast hc.trans hcn
  have hn2 : (n : ℚ) ≤ 2 ^ 53 := by exact_mod_cast hn
  have hc1 : (1 : ℚ) ≤ c := by exact_mod_cast hc
  have hc2 : (c : ℚ) ≤ 2 ^ 53 := by exact_mod_cast hcn.trans hn
  have hq0 : 0 ≤ q := by
    rcases hq with rfl | ⟨h, -⟩
    · exact le_rfl
    · exact le_trans (by positivity) h
  have hb : q / n = 0 ∨ 1 / 2 ^ 153 ≤ q / n := by
    rcases hq with rfl | ⟨h, -⟩
    · left; simp
    · right
      calc (1 / 2 ^ 153 : ℚ) = 1 / 2 ^ 100 / 2 ^ 53 := by norm_num
        _ ≤ q / 2 ^ 53 := div_le_div_of_nonneg_right h (by norm_num)
        _ ≤ q / n := div_le_div_of_nonneg_left hq0 (by linarith) hn2
  have hu : q / n ≤ 2 ^ 100 := by
    rcases hq with rfl | ⟨-, h⟩
    · simp
    · exact (div_le_self hq0 hn1).trans h
  have e1 : rndIeee over (q / n) = rnd (q / n) := by
    refine rndIeee_mid over ?_ (hu.trans (by norm_num))
    rcases hb with h | h
    · exact Or.inl h
    · exact Or.inr (le_trans (by norm_num) h)
  rw [e1]
  have hr0 : rnd (q / n) = 0 ∨ 1 / 2 ^ 153 ≤ rnd (q / n) := by
    rcases hb with h | h
    · left; rw [h]; exact rnd_zero
    · right; exact le_rnd_inv h
  have hr1 : rnd (q / n) ≤ 2 ^ 100 := rnd_le_pow hu
  have hr2 : 0 ≤ rnd (q / n) := rnd_nonneg (div_nonneg hq0 (by linarith))
  have e2 : rndIeee over ((c : ℚ) * rnd (q / n)) = rnd ((c : ℚ) * rnd (q / n)) := by
    refine rndIeee_mid over ?_ ?_
    · rcases hr0 with h | h
      · left; rw [h, mul_zero]
      · right
        calc (1 / 2 ^ 200 : ℚ) ≤ 1 / 2 ^ 153 := by norm_num
          _ ≤ rnd (q / n) := h
          _ ≤ c * rnd (q / n) := le_mul_of_one_le_left hr2 hc1
    · calc (c : ℚ) * rnd (q / n) ≤ 2 ^ 53 * 2 ^ 100 := mul_le_mul hc2 hr1 hr2 (by norm_num)
        _ ≤ 2 ^ 200 := by norm_num
  exact e2

theorem weightIn_mono_ieee (log : Nat → ℚ) (over : ℚ → ℚ) (ks : List Key) (hlen : ks.length ≤ 2 ^ 53) (x x' : Tfidf ℚ) (k : Key) (hk : k ∈ ks)
    (hx : FarIdf (idfOf x k.text)) (hx' : FarIdf (idfOf x' k.text)) (h : idfOf x k.text ≤ idfOf x' k.text) :
    weightIn (ieeeArith log over) ks x k ≤ weightIn (ieeeArith log over) ks x' k := by
  unfold weightIn
  have h1 : 1 ≤ ks.count k := List.count_pos_iff.mpr hk
  rw [total_ieee log over ks hlen, ones_ieee log over _ (List.count_le_length.trans hlen), weight_ieee log over _ _ h1 List.count_le_length hlen _ hx,
    weight_ieee log over _ _ h1 List.count_le_length hlen _ hx']
  exact rnd_mono (mul_le_mul_of_nonneg_left (rnd_mono (div_le_div_of_nonneg_right h (Nat.cast_nonneg _))) (Nat.cast_nonneg _))

/-- `C140_raised` with IEEE doubles: rounding never turns a raise into a loss. -/
theorem C140_raised_float (K : KSys ℚ) (log : Nat → ℚ) (over : ℚ → ℚ) (hA : K.pos.sys.A = ieeeArith log over) (p : PWorld) (x : Tfidf ℚ) (idf : PyDict Str ℚ)
    (median : ℚ) (s : PyText) (allow : List Str) (withFlag io : Bool) (hlen : (occ K p x s allow withFlag io).length ≤ 2 ^ 53) (U : Str → Bool)
    (hsame : ∀ k ∈ occ K p x s allow withFlag io, U k.text = false → idfOf { x with idf := idf, median := median } k.text = idfOf x k.text)
    (hup : ∀ k ∈ occ K p x s allow withFlag io, U k.text = true → FarIdf (idfOf x k.text) ∧ FarIdf (idfOf { x with idf := idf, median := median } k.text) ∧
      idfOf x k.text ≤ idfOf { x with idf := idf, median := median } k.text)
    (l l' : List (Key × Option ℚ)) (hl : (extractTags K p x s none true allow withFlag io).2 = .ok l)
    (hl' : (extractTags K p { x with idf := idf, median := median } s none true allow withFlag io).2 = .ok l') :
    l.filter (fun e => !U e.1.text) = l'.filter (fun e => !U e.1.text) ∧
    (∀ a b, a ∈ occ K p x s allow withFlag io → b ∈ occ K p x s allow withFlag io → U a.text = true → U b.text = false →
      (l.map Prod.fst).idxOf a < (l.map Prod.fst).idxOf b → (l'.map Prod.fst).idxOf a < (l'.map Prod.fst).idxOf b) ∧
    (∀ b ∈ occ K p x s allow withFlag io, U b.text = false → (l.map Prod.fst).idxOf b ≤ (l'.map Prod.fst).idxOf b) ∧
    (∀ a ∈ occ K p x s allow withFlag io, (∀ k ∈ occ K p x s allow withFlag io, U k.text = true → k = a) → U a.text = true →
      (l'.map Prod.fst).idxOf a ≤ (l.map Prod.fst).idxOf a) := by
  refine raised_any K p x idf median s allow withFlag io U hsame (fun k hk hU => ?_) l l' hl hl'
  obtain ⟨g1, g2, g3⟩ := hup k hk hU
  rw [hA]
  exact weightIn_mono_ieee log over _ hlen _ _ k hk g1 g2 g3

/-- `C140_top` with IEEE doubles. -/
theorem C140_top_float (K : KSys ℚ) (log : Nat → ℚ) (over : ℚ → ℚ) (hA : K.pos.sys.A = ieeeArith log over) (p : PWorld) (x : Tfidf ℚ) (u : Str) (v : ℚ)
    (hx : FarIdf (idfOf x u)) (hv' : FarIdf v) (hv : idfOf x u ≤ v) (s : PyText) (allow : List Str) (io : Bool)
    (hlen : (occ K p x s allow false io).length ≤ 2 ^ 53) (k : Nat) (hk : 0 < k) (l l' : List (Key × Option ℚ))
    (hl : (extractTags K p x s (some k) true allow false io).2 = .ok l)
    (hl' : (extractTags K p { x with idf := x.idf.set u v } s (some k) true allow false io).2 = .ok l') :
    (.word u ∈ l.map Prod.fst → .word u ∈ l'.map Prod.fst) ∧ ∀ w, w ≠ u → .word w ∈ l'.map Prod.fst → .word w ∈ l.map Prod.fst := by
  have e : idfOf { x with idf := x.idf.set u v } u = v := by simp [idfOf]
  refine top_any K p x u v s allow io k hk (fun ho => ?_) l l' hl hl'
  rw [hA]
  exact weightIn_mono_ieee log over _ hlen _ _ _ ho hx (by rw [Key.text, e]; exact hv') (by rw [Key.text, e]; exact hv)

/-- The hypotheses are met: with doubles, raising the IDF of 北京 to 2 makes it the first keyword. -/
example : ieeeKSys.pos.sys.A = ieeeArith (fun n => n) (fun x => 4 * x) ∧ FarIdf (idfOf swapIdf (lit ['北', '京'])) ∧ FarIdf 2 ∧
    idfOf swapIdf (lit ['北', '京']) ≤ 2 ∧
    ((extractTags ieeeKSys ratPWorld swapIdf swapText (some 1) true [] false true).2.map (·.map Prod.fst)) = .ok [.word (lit ['大', '学'])] ∧
    ((extractTags ieeeKSys ratPWorld { swapIdf with idf := swapIdf.idf.set (lit ['北', '京']) 2 } swapText (some 1) true [] false true).2.map (·.map Prod.fst)) =
      .ok [.word (lit ['北', '京'])] := by
  have e : idfOf swapIdf (lit ['北', '京']) = 3 / 2 + 2 / 2 ^ 52 := by decide +kernel
  rw [e]
  exact ⟨rfl, Or.inr ⟨by norm_num, by norm_num⟩, Or.inr ⟨by norm_num, by norm_num⟩, by norm_num, by decide +kernel, by decide +kernel⟩

end

end Jieba.Props
