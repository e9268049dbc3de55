import Verif.Props.RaiseIdf
/-!
# C141: more stop words

`occ` (accepted words of the text) is that of `Props/Keywords`.
-/

namespace Jieba.Props
open Jieba Jieba.Spec Jieba.Pos Jieba.Analyse

theorem idxOf_filter {α : Type} [DecidableEq α] (f : α → Bool) (a b : α) (ha : f a = true) : ∀ l : List α,
    a ∈ l → l.idxOf a < l.idxOf b → (l.filter f).idxOf a < (l.filter f).idxOf b
  | [], h, _ => by simp at h
  | c :: l, h, hlt => by
    by_cases hca : c = a
    · subst hca
      have hcb : c ≠ b := by rintro rfl; simp at hlt
      rw [List.filter_cons, if_pos ha, List.idxOf_cons_self, List.idxOf_cons_ne _ hcb]
      omega
    · have hcb : c ≠ b := by
        rintro rfl
        rw [List.idxOf_cons_self] at hlt
        omega
      rw [List.idxOf_cons_ne _ hca, List.idxOf_cons_ne _ hcb] at hlt
      have hal : a ∈ l := by
        rcases List.mem_cons.mp h with e | h
        · exact absurd e.symm hca
        · exact h
      have ih := idxOf_filter f a b ha l hal (by omega)
      rw [List.filter_cons]
      split
      · rw [List.idxOf_cons_ne _ hca, List.idxOf_cons_ne _ hcb]; omega
      · exact ih

section
variable {F : Type} [LinearOrder F]

/-- Whether a keyword is, in lower case, not among the words `V`. -/
def notIn (K : KSys F) (V : List Str) (k : Key) : Bool := decide (K.lower k.text ∉ V)

theorem occ_stop (K : KSys F) (p : PWorld) (x : Tfidf F) (stop V : List Str) (hV : ∀ w, w ∈ stop ↔ w ∈ x.stop ∨ w ∈ V) (s : PyText) (allow : List Str)
    (withFlag io : Bool) : occ K p { x with stop := stop } s allow withFlag io = (occ K p x s allow withFlag io).filter (notIn K V) := by
  have hacc : ∀ w, Accepts K.lower stop w ↔ Accepts K.lower x.stop w ∧ K.lower w ∉ V := fun w => by
    unfold Accepts; rw [hV, not_or, and_assoc]
  unfold occ
  split
  · unfold acceptedWords
    rw [List.filter_map, List.filter_filter]
    congr 1
    refine List.filter_congr fun w _ => ?_
    rw [Bool.eq_iff_iff]
    have hnot : notIn K V (.word w) = true ↔ K.lower w ∉ V := decide_eq_true_iff
    simp only [Function.comp, hnot, Bool.and_eq_true, decide_eq_true_eq]
    exact (hacc w).trans and_comm
  · unfold acceptedPairs
    rw [List.filter_map, List.filter_filter]
    congr 1
    refine List.filter_congr fun q _ => ?_
    have ht : (if withFlag = true then Key.pair q.1 q.2 else Key.word q.1).text = q.1 := by split <;> rfl
    rw [Bool.eq_iff_iff]
    simp only [Function.comp, notIn, ht, Bool.and_eq_true, decide_eq_true_eq]
    rw [hacc]
    tauto

end

section
variable {F : Type} [Field F] [LinearOrder F] [IsStrictOrderedRing F]

theorem scaled_filter (f : Key → Bool) (g : Str → F) (ks : List Key) (l l' : List (Key × Option F))
    (h1 : ∀ k v, (k, v) ∈ l ↔ k ∈ ks ∧ v = some ((ks.count k : F) * g k.text / ks.length)) (h2 : l.Pairwise (Ahead ks))
    (h1' : ∀ k v, (k, v) ∈ l' ↔ k ∈ ks.filter f ∧ v = some (((ks.filter f).count k : F) * g k.text / (ks.filter f).length))
    (h2' : l'.Pairwise (Ahead (ks.filter f))) :
    l' = (l.filter (fun e => f e.1)).map (fun e => (e.1, e.2.map (fun v : F => v * ((ks.length : F) / (ks.filter f).length)))) := by
  have hkey : ∀ k ∈ ks.filter f, (ks.count k : F) * g k.text / ks.length * (ks.length / (ks.filter f).length) =
      ((ks.filter f).count k : F) * g k.text / (ks.filter f).length := fun k hk => by
    have hn : (ks.length : F) ≠ 0 := by
      have : ks.length ≠ 0 := by
        intro e
        rw [List.length_eq_zero_iff.mp e] at hk
        simp at hk
      exact_mod_cast this
    rw [List.count_filter (List.mem_filter.mp hk).2]
    field_simp
  refine eq_of_ahead (ks.filter f) ks ?_ l' _ ?_ (fun e he => ((h1' e.1 e.2).mp he).1) h2' ?_
  · intro a ha b _ hlt
    exact idxOf_filter _ a b (List.mem_filter.mp ha).2 ks (List.mem_filter.mp ha).1 hlt
  · rintro ⟨k, v⟩
    rw [h1', List.mem_map]
    constructor
    · rintro ⟨g, rfl⟩
      obtain ⟨g1, g2⟩ := List.mem_filter.mp g
      refine ⟨(k, _), List.mem_filter.mpr ⟨(h1 k _).mpr ⟨g1, rfl⟩, g2⟩, ?_⟩
      simp only [Option.map, hkey k g]
    · rintro ⟨⟨k', v'⟩, g, e⟩
      obtain ⟨g1, g2⟩ := List.mem_filter.mp g
      obtain ⟨g3, rfl⟩ := (h1 k' v').mp g1
      simp only [Option.map, Prod.mk.injEq] at e
      obtain ⟨rfl, rfl⟩ := e
      have g := List.mem_filter.mpr ⟨g3, g2⟩
      exact ⟨g, by rw [hkey k' g]⟩
  · refine List.pairwise_map.mpr ((h2.filter _).imp_of_mem ?_)
    rintro ⟨a, _⟩ ⟨b, _⟩ ha hb ⟨u, v, rfl, rfl, h⟩
    refine ⟨_, _, rfl, rfl, ?_⟩
    have ga := (List.mem_filter.mp ha)
    have gk := List.mem_filter.mpr ⟨((h1 _ _).mp ga.1).1, ga.2⟩
    have hpos : ∀ L : List Key, a ∈ L → (0 : F) < L.length := fun L hL => by exact_mod_cast List.length_pos_of_mem hL
    rcases h with h | ⟨rfl, h⟩
    · exact Or.inl (mul_lt_mul_of_pos_right h (div_pos (hpos ks (List.mem_filter.mp gk).1) (hpos _ gk)))
    · exact Or.inr ⟨rfl, h⟩

/-- With the words `V` as further stop words, the keywords are the same without those (in lower case) in `V`, in the same order; the weights are all multiplied
by the same number, how many accepted tokens there were to how many there are. -/
theorem C141_more_stop_words (K : KSys F) (hA : Exact K.pos.sys.A) (p : PWorld) (x : Tfidf F) (stop V : List Str)
    (hV : ∀ w, w ∈ stop ↔ w ∈ x.stop ∨ w ∈ V) (s : PyText) (allow : List Str) (withFlag io : Bool) (l l' : List (Key × Option F))
    (hl : (extractTags K p x s none true allow withFlag io).2 = .ok l)
    (hl' : (extractTags K p { x with stop := stop } s none true allow withFlag io).2 = .ok l') :
    l' = (l.filter (fun e => decide (K.lower e.1.text ∉ V))).map (fun e => (e.1, e.2.map (fun v : F => v *
      (((occ K p x s allow withFlag io).length : F) / ((occ K p x s allow withFlag io).filter (fun k => decide (K.lower k.text ∉ V))).length)))) := by
  obtain ⟨h1, h2, -⟩ := ranked K hA p x s allow withFlag io l hl
  obtain ⟨h1', h2', -⟩ := ranked K hA p _ s allow withFlag io l' hl'
  rw [occ_stop K p x stop V hV] at h1' h2'
  exact scaled_filter (notIn K V) (idfOf x) _ l l' h1 h2 h1' h2'

/-- So a keyword among the first `k` that is no stop word now stays among the first `k`. -/
theorem C141_top (K : KSys F) (hA : Exact K.pos.sys.A) (p : PWorld) (x : Tfidf F) (stop V : List Str)
    (hV : ∀ w, w ∈ stop ↔ w ∈ x.stop ∨ w ∈ V) (s : PyText) (allow : List Str) (withFlag io : Bool) (k : Nat) (hk : 0 < k) (l l' : List (Key × Option F))
    (hl : (extractTags K p x s (some k) true allow withFlag io).2 = .ok l)
    (hl' : (extractTags K p { x with stop := stop } s (some k) true allow withFlag io).2 = .ok l') (w : Key) (hw : w ∈ l.map Prod.fst)
    (hwV : K.lower w.text ∉ V) : w ∈ l'.map Prod.fst := by
  rw [C48_topK K p _ s true allow withFlag io k hk] at hl hl'
  cases hm : (extractTags K p x s none true allow withFlag io).2 with
  | error e => rw [hm] at hl; cases hl
  | ok m =>
    cases hm' : (extractTags K p { x with stop := stop } s none true allow withFlag io).2 with
    | error e => rw [hm'] at hl'; cases hl'
    | ok m' =>
      rw [hm] at hl; rw [hm'] at hl'
      cases hl; cases hl'
      have h := C141_more_stop_words K hA p x stop V hV s allow withFlag io m m' hm hm'
      rw [h]
      rw [← List.map_take, List.map_map]
      obtain ⟨e, he, rfl⟩ := List.mem_map.mp hw
      refine List.mem_map.mpr ⟨e, ?_, rfl⟩
      have hsub : ∀ (f : Key × Option F → Bool) (n : Nat) (m : List (Key × Option F)), (m.take n).filter f ⊆ (m.filter f).take n := by
        intro f n m
        induction m generalizing n with
        | nil => simp
        | cons c m ih =>
          cases n with
          | zero => simp
          | succ n =>
            rw [List.take_succ_cons, List.filter_cons, List.filter_cons]
            split
            · rw [List.take_succ_cons]
              exact List.cons_subset_cons _ (ih n)
            · exact fun y hy => (List.take_subset_take_left _ (by omega)) (ih n hy)
      exact hsub _ k m (List.mem_filter.mpr ⟨he, by simpa using hwV⟩)

/-- With fewer tags allowed, but at least one, and `withFlag`: the keywords are those with an allowed tag, in the same order; the weights are all multiplied by
the same number. -/
theorem C141_fewer_tags (K : KSys F) (hA : Exact K.pos.sys.A) (p : PWorld) (x : Tfidf F) (s : PyText) (allow allow' : List Str) (h0 : allow' ≠ [])
    (hsub : ∀ t ∈ allow', t ∈ allow) (io : Bool) (l l' : List (Key × Option F))
    (hl : (extractTags K p x s none true allow true io).2 = .ok l) (hl' : (extractTags K p x s none true allow' true io).2 = .ok l') :
    ∃ c : F, (l' ≠ [] → 0 < c) ∧ l' = (l.filter (fun e => match e.1 with | .pair _ t => decide (t ∈ allow') | .word _ => false)).map
      (fun e => (e.1, e.2.map (fun v : F => v * c))) := by
  obtain ⟨h1, h2, -⟩ := ranked K hA p x s allow true io l hl
  obtain ⟨h1', h2', -⟩ := ranked K hA p x s allow' true io l' hl'
  have ha : allow ≠ [] := by
    obtain ⟨t, ht⟩ := List.exists_mem_of_ne_nil _ h0
    exact List.ne_nil_of_mem (hsub t ht)
  have hocc : occ K p x s allow' true io =
      (occ K p x s allow true io).filter (fun k => match k with | .pair _ t => decide (t ∈ allow') | .word _ => false) := by
    unfold occ
    rw [if_neg h0, if_neg ha]
    unfold acceptedPairs
    rw [List.filter_map, List.filter_filter]
    congr 1
    refine List.filter_congr fun q _ => ?_
    rw [Bool.eq_iff_iff]
    simp only [Function.comp, if_true, Bool.and_eq_true, decide_eq_true_eq]
    exact ⟨fun h => ⟨h.1, hsub _ h.1, h.2⟩, fun h => ⟨h.1, h.2.2⟩⟩
  have key := fun h1' h2' => scaled_filter (fun k => match k with | .pair _ t => decide (t ∈ allow') | .word _ => false) (idfOf x) _ l l' h1 h2 h1' h2'
  rw [← hocc] at key
  refine ⟨_, fun hne => ?_, key h1' h2'⟩
  obtain ⟨e, he⟩ := List.exists_mem_of_ne_nil _ hne
  have hk := ((h1' e.1 e.2).mp he).1
  have hk2 : e.1 ∈ occ K p x s allow true io := by rw [hocc] at hk; exact (List.mem_filter.mp hk).1
  have hpos : ∀ L : List Key, e.1 ∈ L → (0 : F) < L.length := fun L hL => by exact_mod_cast List.length_pos_of_mem hL
  exact div_pos (hpos _ hk2) (hpos _ hk)

/-- The hypotheses are met: with 大学 as a stop word the weight of 北京 is multiplied by 3 / 1. -/
example : Exact ratKSys.pos.sys.A ∧ (∀ w, w ∈ lit ['大', '学'] :: ratTfidf.stop ↔ w ∈ ratTfidf.stop ∨ w ∈ [lit ['大', '学']]) ∧
    (extractTags ratKSys readyRat ratTfidf (.str (lit ['北', '京', '大', '学', '，', '大', '学'])) none true [] false true).2 =
      .ok [(.word (lit ['大', '学']), some (10 / 3)), (.word (lit ['北', '京']), some 1)] ∧
    (extractTags ratKSys readyRat { ratTfidf with stop := lit ['大', '学'] :: ratTfidf.stop }
      (.str (lit ['北', '京', '大', '学', '，', '大', '学'])) none true [] false true).2 = .ok [(.word (lit ['北', '京']), some 3)] :=
  ⟨ratArith_exact, fun w => by simp [or_comm], by decide +kernel, by decide +kernel⟩

/-- The hypotheses of `C141_fewer_tags` are met: tags n and ns, then only ns. -/
example : (extractTags ratKSys readyRat ratTfidf (.str (lit ['北', '京', '大', '学', '，', '大', '学'])) none true [lit ['n'], lit ['n', 's']] true true).2 =
      .ok [(.pair (lit ['大', '学']) (lit ['n']), some (10 / 3)), (.pair (lit ['北', '京']) (lit ['n', 's']), some 1)] ∧
    (extractTags ratKSys readyRat ratTfidf (.str (lit ['北', '京', '大', '学', '，', '大', '学'])) none true [lit ['n', 's']] true true).2 =
      .ok [(.pair (lit ['北', '京']) (lit ['n', 's']), some 3)] := by decide +kernel

end

end Jieba.Props
