import Verif.Props.Repetition
/-!
# C122: the TF-IDF keywords of two texts put together
-/

set_option linter.unusedSectionVars false

namespace Jieba.Spec

/-- The weight that a result of `extract_tags(withWeight=True)` gives to `k`; 0 if `k` is not in it. -/
def weightIn {κ F : Type _} [DecidableEq κ] [Zero F] (l : List (κ × Option F)) (k : κ) : F :=
  match l.find? (fun e => e.1 = k) with
  | some (_, some v) => v
  | _ => 0

end Jieba.Spec

namespace Jieba.Props
open Jieba Jieba.Spec Jieba.Pos Jieba.Analyse

theorem weightIn_mem {κ F : Type _} [DecidableEq κ] [Zero F] (l : List (κ × Option F)) (P : κ → Prop) (f : κ → F)
    (h : ∀ k v, (k, v) ∈ l ↔ P k ∧ v = some (f k)) (hf : ∀ k, ¬ P k → f k = 0) (k : κ) : weightIn l k = f k := by
  unfold weightIn
  cases he : l.find? (fun e => e.1 = k) with
  | none =>
    have hn : ¬ P k := by
      intro hP
      have := List.find?_eq_none.mp he _ ((h k _).mpr ⟨hP, rfl⟩)
      simp at this
    simp [hf k hn]
  | some e =>
    obtain ⟨k', v⟩ := e
    have h1 : k' = k := by simpa using List.find?_some he
    subst h1
    obtain ⟨-, rfl⟩ := (h _ _).mp (List.mem_of_find?_eq_some he)
    rfl

section
variable {F : Type} [Field F] [LinearOrder F] [IsStrictOrderedRing F]

/-- The accepted occurrences of two texts with a separator between them. -/
theorem occ_joined (K : KSys F) (p : PWorld) (x : Tfidf F)
    (hi : (p.w.tok x.tok).initialized = true) (hi' : (p.w.tok (p.pos x.pos).tok).initialized = true)
    (a b : Str) (c : Ch) (hc : isWordCh c = false) (h1 : ¬ (a.getLast? = some 0x0D ∧ c = 0x0A))
    (h2 : ¬ (c = 0x0D ∧ b.head? = some 0x0A)) (allow : List Str) (withFlag io : Bool) :
    cutErr K p x (.str (a ++ c :: b)) allow io = (cutErr K p x (.str a) allow io).or (cutErr K p x (.str b) allow io) ∧
      (cutErr K p x (.str a) allow io = none →
        occ K p x (.str (a ++ c :: b)) allow withFlag io =
          occ K p x (.str a) allow withFlag io ++ occ K p x (.str b) allow withFlag io) := by
  have hc' : isWordChPos c = false := by
    simp only [isWordCh, isWordChPos, Bool.or_eq_false_iff] at *
    tauto
  have short : ∀ stop, ¬ Accepts K.lower stop [c] := by
    rintro stop ⟨h, -⟩
    have := List.length_filter_le (fun c => !isSpace c) [c]
    simp only [List.length_singleton] at this
    omega
  unfold cutErr occ
  by_cases ha : allow = []
  · simp only [if_pos ha, cutW_of_init K.pos.sys p.w x.tok false true io _ hi]
    have hcp := C15_cut_around_separator (p.w.env K.pos.sys x.tok) true a b c hc h1 h2
    simp only [strdecode]
    rw [hcp]
    refine ⟨?_, fun he => ?_⟩
    · cases he : (Jieba.cut (p.w.env K.pos.sys x.tok) false true a).err <;> simp [Gen.andThen, he, Gen.ok]
    · simp only [Gen.andThen, he, Gen.ok]
      unfold acceptedWords
      rw [List.filter_append, List.map_append, List.singleton_append, List.filter_cons_of_neg (by simpa using short x.stop)]
  · simp only [if_neg ha, cutPW_of_init K.pos p x.pos true io _ hi']
    have hcp := C15_posseg_around_separator ((moveTags p x.pos).env K.pos x.pos) true a b c hc' h1 h2
    simp only [strdecode]
    rw [hcp]
    refine ⟨?_, fun he => ?_⟩
    · cases he : (Pos.cut ((moveTags p x.pos).env K.pos x.pos) true a).err <;> simp [Gen.andThen, he, Gen.ok]
    · simp only [Gen.andThen, he, Gen.ok]
      unfold acceptedPairs
      rw [List.filter_append, List.map_append, List.singleton_append, List.filter_cons_of_neg]
      simp only [decide_eq_true_eq, not_and]
      exact fun _ => short x.stop

/-- The weights as a function. -/
theorem weights_fun (K : KSys F) (hA : Exact K.pos.sys.A) (p : PWorld) (x : Tfidf F) (s : PyText) (allow : List Str) (withFlag io : Bool)
    (l : List (Key × Option F)) (hl : (extractTags K p x s none true allow withFlag io).2 = .ok l) :
    cutErr K p x s allow io = none ∧ (∀ k, k ∈ l.map Prod.fst ↔ k ∈ occ K p x s allow withFlag io) ∧
    (∀ k v, (k, v) ∈ l ↔ k ∈ l.map Prod.fst ∧ v = some (weightIn l k)) ∧
    ∀ k, weightIn l k = ((occ K p x s allow withFlag io).count k : F) * ((x.idf.get? k.text).getD x.median) /
      (occ K p x s allow withFlag io).length := by
  have hc : cutErr K p x s allow io = none := by
    cases he : cutErr K p x s allow io with
    | none => rfl
    | some e =>
      rw [C50_segmentation_fails K p x s none true allow withFlag io e he] at hl
      cases hl
  obtain ⟨l', h1, h2⟩ := C50_weights K hA p x s allow withFlag io hc
  rw [hl] at h1
  obtain rfl := Except.ok.inj h1
  have h3 := weightIn_mem l (· ∈ occ K p x s allow withFlag io) _ h2 (fun k hk => by
    rw [List.count_eq_zero_of_not_mem hk]; simp)
  have h4 : ∀ k, k ∈ l.map Prod.fst ↔ k ∈ occ K p x s allow withFlag io := by
    intro k
    constructor
    · intro h
      obtain ⟨e, he, rfl⟩ := List.mem_map.mp h
      exact ((h2 e.1 e.2).mp he).1
    · intro h
      exact List.mem_map.mpr ⟨_, (h2 k _).mpr ⟨h, rfl⟩, rfl⟩
  exact ⟨hc, h4, fun k v => by rw [h2, h4, h3], h3⟩

/-- C122: with a separator between them, the keywords of two texts are the keywords of either, and the weights are the means of the
weights in the two texts, weighted by numbers that are the same for all keywords (the numbers of tokens that are taken into account). -/
theorem C122_weighted_mean (K : KSys F) (hA : Exact K.pos.sys.A) (p : PWorld) (x : Tfidf F)
    (hi : (p.w.tok x.tok).initialized = true) (hi' : (p.w.tok (p.pos x.pos).tok).initialized = true)
    (a b : Str) (c : Ch) (hc : isWordCh c = false) (h1 : ¬ (a.getLast? = some 0x0D ∧ c = 0x0A))
    (h2 : ¬ (c = 0x0D ∧ b.head? = some 0x0A)) (allow : List Str) (withFlag io : Bool) (la lb : List (Key × Option F))
    (hla : (extractTags K p x (.str a) none true allow withFlag io).2 = .ok la)
    (hlb : (extractTags K p x (.str b) none true allow withFlag io).2 = .ok lb) :
    ∃ l, (extractTags K p x (.str (a ++ c :: b)) none true allow withFlag io).2 = .ok l ∧
      (∀ k, k ∈ l.map Prod.fst ↔ k ∈ la.map Prod.fst ∨ k ∈ lb.map Prod.fst) ∧
      (∀ k v, (k, v) ∈ l ↔ k ∈ l.map Prod.fst ∧ v = some (weightIn l k)) ∧
      ∃ m n : Nat, m = (occ K p x (.str a) allow withFlag io).length ∧ n = (occ K p x (.str b) allow withFlag io).length ∧
        (m = 0 ↔ la = []) ∧ (n = 0 ↔ lb = []) ∧
        ∀ k, weightIn l k * (m + n : F) = weightIn la k * m + weightIn lb k * n := by
  obtain ⟨ea, ma, -, wa⟩ := weights_fun K hA p x _ allow withFlag io la hla
  obtain ⟨eb, mb, -, wb⟩ := weights_fun K hA p x _ allow withFlag io lb hlb
  obtain ⟨he, ho⟩ := occ_joined K p x hi hi' a b c hc h1 h2 allow withFlag io
  have ho := ho ea
  rw [ea, eb] at he
  obtain ⟨l, hl, -⟩ := C50_weights K hA p x _ allow withFlag io he
  obtain ⟨-, ml, gl, wl⟩ := weights_fun K hA p x _ allow withFlag io l hl
  have hnil : ∀ (os : List Key) (l : List (Key × Option F)), (∀ k, k ∈ l.map Prod.fst ↔ k ∈ os) → (os.length = 0 ↔ l = []) := by
    intro os l h
    rw [List.length_eq_zero_iff]
    constructor
    · rintro rfl
      have : l.map Prod.fst = [] := List.eq_nil_iff_forall_not_mem.mpr (fun k hk => by simpa using (h k).mp hk)
      simpa using this
    · rintro rfl
      exact List.eq_nil_iff_forall_not_mem.mpr (fun k hk => by simpa using (h k).mpr hk)
  refine ⟨l, hl, ?_, gl, _, _, rfl, rfl, hnil _ _ ma, hnil _ _ mb, ?_⟩
  · intro k
    rw [ml, ma, mb, ho, List.mem_append]
  · intro k
    rw [wl, wa, wb, ho]
    generalize occ K p x (.str a) allow withFlag io = oa
    generalize occ K p x (.str b) allow withFlag io = ob
    have cancel : ∀ os : List Key, ((os.count k : F) * ((x.idf.get? k.text).getD x.median) / os.length) * os.length =
        (os.count k : F) * ((x.idf.get? k.text).getD x.median) := by
      intro os
      by_cases h : os = []
      · subst h; simp
      · have : (os.length : F) ≠ 0 := by simpa using h
        exact div_mul_cancel₀ _ this
    have e : ((oa.length : F) + ob.length) = ((oa ++ ob).length : F) := by rw [List.length_append]; push_cast; rfl
    rw [e, cancel, cancel, cancel, List.count_append]
    push_cast
    ring

/-- C122: a word that outweighs another in both texts outweighs it in the two texts together; and the weight of a word in the two texts
together lies between its weights in them (when neither text is without keywords). -/
theorem C122_order_kept (K : KSys F) (hA : Exact K.pos.sys.A) (p : PWorld) (x : Tfidf F)
    (hi : (p.w.tok x.tok).initialized = true) (hi' : (p.w.tok (p.pos x.pos).tok).initialized = true)
    (a b : Str) (c : Ch) (hc : isWordCh c = false) (h1 : ¬ (a.getLast? = some 0x0D ∧ c = 0x0A))
    (h2 : ¬ (c = 0x0D ∧ b.head? = some 0x0A)) (allow : List Str) (withFlag io : Bool) (la lb l : List (Key × Option F))
    (hla : (extractTags K p x (.str a) none true allow withFlag io).2 = .ok la)
    (hlb : (extractTags K p x (.str b) none true allow withFlag io).2 = .ok lb)
    (hl : (extractTags K p x (.str (a ++ c :: b)) none true allow withFlag io).2 = .ok l) :
    (∀ k k', weightIn la k ≤ weightIn la k' → weightIn lb k ≤ weightIn lb k' → weightIn l k ≤ weightIn l k') ∧
    (∀ k k', weightIn la k < weightIn la k' → weightIn lb k < weightIn lb k' → weightIn l k < weightIn l k') ∧
    (la ≠ [] → lb ≠ [] → ∀ k, min (weightIn la k) (weightIn lb k) ≤ weightIn l k ∧ weightIn l k ≤ max (weightIn la k) (weightIn lb k)) := by
  obtain ⟨l', hl', hk, -, m, n, -, -, hm, hn, hw⟩ := C122_weighted_mean K hA p x hi hi' a b c hc h1 h2 allow withFlag io la lb hla hlb
  rw [hl] at hl'
  obtain rfl := Except.ok.inj hl'
  have m0 : (0 : F) ≤ m := Nat.cast_nonneg m
  have n0 : (0 : F) ≤ n := Nat.cast_nonneg n
  by_cases hz : m = 0 ∧ n = 0
  · have ea := hm.mp hz.1
    have eb := hn.mp hz.2
    subst ea; subst eb
    have : l = [] := by
      have : l.map Prod.fst = [] := List.eq_nil_iff_forall_not_mem.mpr (fun k h => by simpa using (hk k).mp h)
      simpa using this
    subst this
    exact ⟨fun _ _ h _ => h, fun _ _ h _ => h, fun h => absurd rfl h⟩
  · have hp : (0 : F) < m + n := by
      have : 0 < m + n := by omega
      exact_mod_cast this
    refine ⟨fun k k' ha hb => ?_, fun k k' ha hb => ?_, fun _ _ k => ⟨?_, ?_⟩⟩
    · refine le_of_mul_le_mul_right ?_ hp
      rw [hw, hw]
      exact add_le_add (mul_le_mul_of_nonneg_right ha m0) (mul_le_mul_of_nonneg_right hb n0)
    · refine lt_of_mul_lt_mul_right ?_ hp.le
      rw [hw, hw]
      by_cases hm0 : m = 0
      · have : (0 : F) < n := by
          have : 0 < n := by omega
          exact_mod_cast this
        exact add_lt_add_of_le_of_lt (mul_le_mul_of_nonneg_right ha.le m0) (mul_lt_mul_of_pos_right hb this)
      · have : (0 : F) < m := by
          have : 0 < m := by omega
          exact_mod_cast this
        exact add_lt_add_of_lt_of_le (mul_lt_mul_of_pos_right ha this) (mul_le_mul_of_nonneg_right hb.le n0)
    · refine le_of_mul_le_mul_right ?_ hp
      rw [hw, mul_add]
      exact add_le_add (mul_le_mul_of_nonneg_right (min_le_left _ _) m0) (mul_le_mul_of_nonneg_right (min_le_right _ _) n0)
    · refine le_of_mul_le_mul_right ?_ hp
      rw [hw, mul_add]
      exact add_le_add (mul_le_mul_of_nonneg_right (le_max_left _ _) m0) (mul_le_mul_of_nonneg_right (le_max_right _ _) n0)

/-- C122: exchanging the two texts changes no keyword and no weight (only the order of keywords with equal weights may change). -/
theorem C122_exchanged (K : KSys F) (hA : Exact K.pos.sys.A) (p : PWorld) (x : Tfidf F)
    (hi : (p.w.tok x.tok).initialized = true) (hi' : (p.w.tok (p.pos x.pos).tok).initialized = true)
    (a b : Str) (c : Ch) (hc : isWordCh c = false) (hr : c ≠ 0x0D) (hn : c ≠ 0x0A) (allow : List Str) (withFlag io : Bool)
    (l l' : List (Key × Option F))
    (hl : (extractTags K p x (.str (a ++ c :: b)) none true allow withFlag io).2 = .ok l)
    (hl' : (extractTags K p x (.str (b ++ c :: a)) none true allow withFlag io).2 = .ok l') :
    ∀ e, e ∈ l ↔ e ∈ l' := by
  obtain ⟨e1, m1, g1, w1⟩ := weights_fun K hA p x _ allow withFlag io l hl
  obtain ⟨e2, m2, g2, w2⟩ := weights_fun K hA p x _ allow withFlag io l' hl'
  obtain ⟨f1, o1⟩ := occ_joined K p x hi hi' a b c hc (fun h => hn h.2) (fun h => hr h.1) allow withFlag io
  obtain ⟨f2, o2⟩ := occ_joined K p x hi hi' b a c hc (fun h => hn h.2) (fun h => hr h.1) allow withFlag io
  rw [e1] at f1
  rw [e2] at f2
  have o1 := o1 (Option.or_eq_none_iff.mp f1.symm).1
  have o2 := o2 (Option.or_eq_none_iff.mp f2.symm).1
  have hm : ∀ k, k ∈ l.map Prod.fst ↔ k ∈ l'.map Prod.fst := by
    intro k
    rw [m1, m2, o1, o2, List.mem_append, List.mem_append, or_comm]
  have hw : ∀ k, weightIn l k = weightIn l' k := by
    intro k
    rw [w1, w2, o1, o2, List.count_append, List.count_append, List.length_append, List.length_append, Nat.add_comm,
      Nat.add_comm (List.length _)]
  rintro ⟨k, v⟩
  rw [g1, g2, hm, hw]

/-- 北京大学 (two tokens, weights 5/2 and 3/2) and 大学，大学 (two tokens, weight 5): together 大学 has weight 15/4, 北京 3/4. -/
example : Exact ratKSys.pos.sys.A ∧ (readyRat.w.tok ratTfidf.tok).initialized = true ∧
    (readyRat.w.tok (readyRat.pos ratTfidf.pos).tok).initialized = true ∧ isWordCh 0x20 = false ∧
    (extractTags ratKSys readyRat ratTfidf (.str (lit ['北', '京', '大', '学'])) none true [] false true).2 =
      .ok [(.word (lit ['大', '学']), some (5 / 2)), (.word (lit ['北', '京']), some (3 / 2))] ∧
    (extractTags ratKSys readyRat ratTfidf (.str (lit ['大', '学', '，', '大', '学'])) none true [] false true).2 =
      .ok [(.word (lit ['大', '学']), some 5)] ∧
    (extractTags ratKSys readyRat ratTfidf (.str (lit ['北', '京', '大', '学', ' ', '大', '学', '，', '大', '学'])) none true [] false true).2 =
      .ok [(.word (lit ['大', '学']), some (15 / 4)), (.word (lit ['北', '京']), some (3 / 4))] :=
  ⟨ratArith_exact, by decide +kernel, by decide +kernel, by decide +kernel, by decide +kernel, by decide +kernel, by decide +kernel⟩

end
end Jieba.Props
