import Verif.Proofs.TextRank
import Verif.Props.Keywords
/-!
# C53–C55, and C48, C49 for TextRank
-/

set_option linter.unusedSectionVars false

namespace Jieba.Props
open Jieba Jieba.Spec Jieba.Pos Jieba.Analyse

/-- The tagged tokens of the text. -/
def toks {F : Type _} [LinearOrder F] (R : RSys F) (p : PWorld) (x : TextRank) (s : PyText) (io : Bool) : Gen (Str × Str) :=
  (cutPW R.k.pos p x.pos true s io).2

/-- A token that may become a keyword. -/
def AcceptsPair (lower : Str → Str) (stop allow : List Str) (t : Str × Str) : Prop := t.2 ∈ allow ∧ Accepts lower stop t.1

/-- Tokens `i` and `j` are accepted and fewer than `span` positions apart. -/
def Near (lower : Str → Str) (stop allow : List Str) (span : Nat) (ts : List (Str × Str)) (i j : Nat) (a b : Str × Str) : Prop :=
  i < j ∧ j < i + span ∧ ts[i]? = some a ∧ ts[j]? = some b ∧ AcceptsPair lower stop allow a ∧ AcceptsPair lower stop allow b

/-- How a keyword is returned. -/
def asKey (withFlag : Bool) (t : Str × Str) : Key := if withFlag then .pair t.1 t.2 else .word t.1

section
variable {F : Type _} [LinearOrder F]

theorem mem_topOf {α : Type _} (topK : Option Int) (l : List α) (e : α) (h : e ∈ topOf topK l) : e ∈ l := by
  unfold topOf sliceTo at h
  repeat' split at h
  all_goals first | exact h | exact List.mem_of_mem_take h

theorem pairfilter_iff (K : KSys F) (allow stop : List Str) (t : Pair) :
    pairfilter K allow stop t = true ↔ AcceptsPair K.lower stop allow t := by
  unfold pairfilter AcceptsPair Accepts
  rw [← two_le_strip isSpace]
  simp [and_assoc]

/-- The pairs of keywords that are counted. -/
def pairsOf (R : RSys F) (p : PWorld) (x : TextRank) (s : PyText) (allow : List Str) (withFlag io : Bool) : List (Key × Key) :=
  windowPairs (pairfilter R.k allow x.stop) (nodeOf allow withFlag) x.span (toks R p x s io).out

theorem textrank_eq (R : RSys F) (p : PWorld) (x : TextRank) (s : PyText) (topK : Option Int) (withWeight : Bool)
    (allow : List Str) (withFlag io : Bool) :
    (textrank R p x s topK withWeight allow withFlag io).2 =
      match (toks R p x s io).err with
      | some e => .error e
      | none => match rank R (buildGraph (counts (pairsOf R p x s allow withFlag io))) with
        | .error e => .error e
        | .ok ws => (rankTags ws withWeight).map (topOf topK) := by
  unfold textrank
  simp only [cooccur_eq]
  rfl

/-- C54: what is counted, in terms of positions in the text. -/
theorem mem_ends_pairsOf (R : RSys F) (p : PWorld) (x : TextRank) (s : PyText) (allow : List Str) (withFlag io : Bool) (k : Key) :
    k ∈ ends (pairsOf R p x s allow withFlag io) ↔
      ∃ i j a b, Near R.k.lower x.stop allow x.span (toks R p x s io).out i j a b ∧ (k = asKey withFlag a ∨ k = asKey withFlag b) := by
  have hnode : ∀ t, AcceptsPair R.k.lower x.stop allow t → nodeOf allow withFlag t = asKey withFlag t := by
    intro t ht
    have : allow ≠ [] := by rintro rfl; cases ht.1
    unfold nodeOf asKey
    cases withFlag <;> simp [this]
  rw [mem_ends]
  constructor
  · rintro ⟨⟨u, v⟩, hp, hk⟩
    obtain ⟨i, j, a, b, h1, h2, h3, h4, h5, h6, rfl, rfl⟩ := (mem_windowPairs _ _ _ _ _ _).mp hp
    rw [pairfilter_iff] at h5 h6
    refine ⟨i, j, a, b, ⟨h1, h2, h3, h4, h5, h6⟩, ?_⟩
    rw [hnode a h5, hnode b h6] at hk
    exact hk
  · rintro ⟨i, j, a, b, ⟨h1, h2, h3, h4, h5, h6⟩, hk⟩
    refine ⟨(nodeOf allow withFlag a, nodeOf allow withFlag b), (mem_windowPairs _ _ _ _ _ _).mpr
      ⟨i, j, a, b, h1, h2, h3, h4, (pairfilter_iff _ _ _ _).mpr h5, (pairfilter_iff _ _ _ _).mpr h6, rfl, rfl⟩, ?_⟩
    rw [hnode a h5, hnode b h6]
    exact hk

theorem keys_of_textrank (R : RSys F) (p : PWorld) (x : TextRank) (s : PyText) (topK : Option Int) (withWeight : Bool)
    (allow : List Str) (withFlag io : Bool) (l : List (Key × Option F))
    (h : (textrank R p x s topK withWeight allow withFlag io).2 = .ok l) :
    ∃ d : PyDict Key F, rank R (buildGraph (counts (pairsOf R p x s allow withFlag io))) = .ok d ∧
      d.keys = firsts (ends (pairsOf R p x s allow withFlag io)) ∧
      l = topOf topK ((sortBy (fun a b => decide (b.2 ≤ a.2)) d).map (fun e => (e.1, if withWeight then some e.2 else none))) := by
  rw [textrank_eq] at h
  split at h
  · cases h
  · split at h
    · cases h
    · next ws hs =>
      have hk := rank_keys _ _ _ hs
      rw [buildGraph_keys] at hk
      refine ⟨ws, hs, hk, ?_⟩
      cases withWeight
      · rw [rankTags_words _ (by rw [hk]; exact firsts_nodup _)] at h
        simp only [Except.map, Except.ok.injEq] at h
        exact h.symm
      · rw [rankTags_weights] at h
        simp only [Except.map, Except.ok.injEq] at h
        exact h.symm

/-- C54: every TextRank keyword, whatever `topK` and `withWeight`, is an accepted token that lies fewer than `span` positions
from another accepted token. -/
theorem C54_keywords_cooccur (R : RSys F) (p : PWorld) (x : TextRank) (s : PyText) (topK : Option Int) (withWeight : Bool)
    (allow : List Str) (withFlag io : Bool) (l : List (Key × Option F))
    (h : (textrank R p x s topK withWeight allow withFlag io).2 = .ok l) (e : Key × Option F) (he : e ∈ l) :
    ∃ i j a b, Near R.k.lower x.stop allow x.span (toks R p x s io).out i j a b ∧ (e.1 = asKey withFlag a ∨ e.1 = asKey withFlag b) := by
  obtain ⟨d, -, hd, rfl⟩ := keys_of_textrank R p x s topK withWeight allow withFlag io l h
  rw [← mem_ends_pairsOf, ← mem_firsts, ← hd]
  have he : e ∈ (sortBy (fun a b => decide (b.2 ≤ a.2)) d).map (fun e => (e.1, if withWeight then some e.2 else none)) := by
    exact mem_topOf topK _ _ he
  obtain ⟨e', he', rfl⟩ := List.mem_map.mp he
  exact List.mem_map_of_mem ((sortBy_perm _ _).mem_iff.mp he')

/-- C54: and with `topK=None` every such token is returned. -/
theorem C54_all_cooccurring_words (R : RSys F) (p : PWorld) (x : TextRank) (s : PyText) (withWeight : Bool)
    (allow : List Str) (withFlag io : Bool) (l : List (Key × Option F))
    (h : (textrank R p x s none withWeight allow withFlag io).2 = .ok l) (i j : Nat) (a b : Str × Str)
    (hab : Near R.k.lower x.stop allow x.span (toks R p x s io).out i j a b) :
    asKey withFlag a ∈ l.map Prod.fst ∧ asKey withFlag b ∈ l.map Prod.fst := by
  obtain ⟨d, -, hd, rfl⟩ := keys_of_textrank R p x s none withWeight allow withFlag io l h
  have key : ∀ k, k ∈ ends (pairsOf R p x s allow withFlag io) →
      k ∈ (topOf none ((sortBy (fun a b => decide (b.2 ≤ a.2)) d).map (fun e => (e.1, if withWeight then some e.2 else none)))).map Prod.fst := by
    intro k hk
    rw [← mem_firsts, ← hd] at hk
    obtain ⟨e, he, rfl⟩ := List.mem_map.mp hk
    simp only [topOf, List.map_map]
    exact List.mem_map.mpr ⟨e, (sortBy_perm _ _).mem_iff.mpr he, rfl⟩
  exact ⟨key _ ((mem_ends_pairsOf _ _ _ _ _ _ _ _).mpr ⟨i, j, a, b, hab, Or.inl rfl⟩),
    key _ ((mem_ends_pairsOf _ _ _ _ _ _ _ _).mpr ⟨i, j, a, b, hab, Or.inr rfl⟩)⟩

/-- C48 for TextRank: distinct keywords, by decreasing weight; those of equal weight in the order in which they first occur in
the counted pairs. -/
theorem C48_textrank_sorted (R : RSys F) (p : PWorld) (x : TextRank) (s : PyText) (allow : List Str) (withFlag io : Bool)
    (l : List (Key × Option F)) (h : (textrank R p x s none true allow withFlag io).2 = .ok l) :
    (l.map Prod.fst).Nodup ∧ l.Pairwise (Ahead (ends (pairsOf R p x s allow withFlag io))) := by
  obtain ⟨d, -, hd, rfl⟩ := keys_of_textrank R p x s none true allow withFlag io l h
  constructor
  · simp only [topOf, List.map_map]
    show ((sortBy _ d).map Prod.fst).Nodup
    rw [((sortBy_perm _ d).map Prod.fst).nodup_iff]
    have := firsts_nodup (ends (pairsOf R p x s allow withFlag io))
    rwa [← hd] at this
  · simp only [topOf, List.pairwise_map]
    have ho := firsts_order (ends (pairsOf R p x s allow withFlag io))
    rw [← hd, PyDict.keys, List.pairwise_map] at ho
    refine (sortBy_pairwise (fun e : Key × F => e.2) _ d ho).imp ?_
    intro a b hab
    exact ⟨a.2, b.2, rfl, rfl, hab⟩

/-- C48 for TextRank: `topK=k` returns the first `k` of all keywords. -/
theorem C48_textrank_topK (R : RSys F) (p : PWorld) (x : TextRank) (s : PyText) (withWeight : Bool) (allow : List Str)
    (withFlag io : Bool) (k : Nat) (hk : 0 < k) :
    textrank R p x s (some k) withWeight allow withFlag io =
      ((textrank R p x s none withWeight allow withFlag io).1,
        (textrank R p x s none withWeight allow withFlag io).2.map (List.take k)) := by
  refine Prod.ext rfl ?_
  simp only [textrank_eq]
  repeat' split
  all_goals try rfl
  rename_i freq hs
  cases rankTags freq withWeight with
  | error e => rfl
  | ok l =>
    simp only [Except.map, topOf, sliceTo]
    rw [if_neg (by omega), if_pos (by omega)]
    rfl

/-- C49 for TextRank. -/
theorem C49_textrank_with_weight_only_adds_weights (R : RSys F) (p : PWorld) (x : TextRank) (s : PyText) (topK : Option Int)
    (allow : List Str) (withFlag io : Bool) :
    textrank R p x s topK false allow withFlag io =
      ((textrank R p x s topK true allow withFlag io).1,
        (textrank R p x s topK true allow withFlag io).2.map (fun l => l.map (fun e => (e.1, none)))) := by
  refine Prod.ext rfl ?_
  simp only [textrank_eq]
  cases (toks R p x s io).err with
  | some e => rfl
  | none =>
    simp only []
    split
    · rfl
    · next ws hs =>
      have hk := rank_keys _ _ _ hs
      rw [buildGraph_keys] at hk
      rw [rankTags_weights, rankTags_words _ (by rw [hk]; exact firsts_nodup _)]
      simp only [Except.map]
      rw [topOf_map, topOf_map, List.map_map]
      rfl

end

section
variable {F : Type} [Field F] [LinearOrder F] [IsStrictOrderedRing F]

/-- C53, C55: in exact arithmetic (`0 ≤ d < 1`, `sys.float_info.min` below `1 - d`, `sys.float_info.max` above twice the number
of pairs of positions in a window), TextRank returns a result for every text that can be segmented: no division by zero, no
missing key; every weight is in (0, 1]. -/
theorem C53_weights_normalised (R : RSys F) (hA : Exact R.k.pos.sys.A) (hd0 : 0 ≤ R.d) (hd1 : R.d < 1) (hmin : R.fmin < 1 - R.d)
    (p : PWorld) (x : TextRank) (s : PyText) (allow : List Str) (withFlag io : Bool)
    (hmax : (2 * ((x.span - 1) * (toks R p x s io).out.length) : Nat) < R.fmax)
    (hc : (toks R p x s io).err = none) :
    ∃ l, (textrank R p x s none true allow withFlag io).2 = .ok l ∧
      (∀ e ∈ l, ∃ v, e.2 = some v ∧ 0 < v ∧ v ≤ 1) ∧
      (∀ e, l.head? = some e → e.2 = some 1) := by
  have hg := buildGraph_ok _ (counts_pos (pairsOf R p x s allow withFlag io))
  have hb : ∀ n, (outWeight (buildGraph (counts (pairsOf R p x s allow withFlag io))) n : F) < R.fmax := by
    intro n
    refine lt_of_le_of_lt ?_ hmax
    have h1 := buildGraph_weight (counts (pairsOf R p x s allow withFlag io)) n
    rw [counts_sum] at h1
    have h2 := windowPairs_length (pairfilter R.k allow x.stop) (nodeOf allow withFlag) x.span (toks R p x s io).out
    have : outWeight (buildGraph (counts (pairsOf R p x s allow withFlag io))) n ≤
        2 * ((x.span - 1) * (toks R p x s io).out.length) := le_trans h1 (Nat.mul_le_mul_left 2 h2)
    exact_mod_cast this
  obtain ⟨ws, h1, h2, h3, h4⟩ := rank_ok R hA hd0 hd1 hmin _ hg hb
  rw [textrank_eq, hc, h1]
  simp only [rankTags_weights, Except.map, topOf]
  refine ⟨_, rfl, ?_, ?_⟩
  · intro e he
    obtain ⟨e', he', rfl⟩ := List.mem_map.mp he
    exact ⟨e'.2, rfl, h3 e' ((sortBy_perm _ _).mem_iff.mp he')⟩
  · intro e he
    rw [List.head?_map] at he
    cases hl : sortBy (fun a b : Key × F => decide (b.2 ≤ a.2)) ws with
    | nil => rw [hl] at he; simp at he
    | cons a l =>
      rw [hl] at he
      simp only [List.head?_cons, Option.map_some, Option.some.injEq] at he
      subst he
      have hperm := sortBy_perm (fun a b : Key × F => decide (b.2 ≤ a.2)) ws
      rw [hl] at hperm
      have hne : buildGraph (counts (pairsOf R p x s allow withFlag io)) ≠ [] := by
        intro h0
        rw [h0] at h2
        have : ws = [] := by simpa [PyDict.keys] using h2
        subst this
        exact absurd hperm.length_eq (by simp)
      obtain ⟨m, hm, hm1⟩ := h4 hne
      have hp := sortBy_pairwise (fun e : Key × F => e.2) (fun _ _ => True) ws (List.pairwise_of_forall (fun _ _ => trivial))
      rw [hl, List.pairwise_cons] at hp
      have ha := (h3 a (hperm.mem_iff.mp List.mem_cons_self)).2
      rcases List.mem_cons.mp (hperm.mem_iff.mpr hm) with rfl | hml
      · simp only [hm1]
      · have := hp.1 m hml
        unfold Before at this
        simp only [hm1] at this
        have hone : a.2 = 1 := by
          rcases this with h | h
          · exact absurd h (not_lt.mpr ha)
          · exact h.1
        simp only [hone]

/-- C55: whatever the text and the settings, TextRank raises only what the segmentation raises. -/
theorem C55_never_divides_by_zero (R : RSys F) (hA : Exact R.k.pos.sys.A) (hd0 : 0 ≤ R.d) (hd1 : R.d < 1) (hmin : R.fmin < 1 - R.d)
    (p : PWorld) (x : TextRank) (s : PyText) (topK : Option Int) (withWeight : Bool) (allow : List Str) (withFlag io : Bool)
    (hmax : (2 * ((x.span - 1) * (toks R p x s io).out.length) : Nat) < R.fmax) (e : PyErr) :
    (textrank R p x s topK withWeight allow withFlag io).2 = .error e ↔ (toks R p x s io).err = some e := by
  cases hc : (toks R p x s io).err with
  | some e' => rw [textrank_eq, hc]; simp
  | none =>
    simp only [reduceCtorEq, iff_false]
    obtain ⟨l, hl, -⟩ := C53_weights_normalised R hA hd0 hd1 hmin p x s allow withFlag io hmax hc
    have htop : ∀ w, (textrank R p x s topK w allow withFlag io).2 = (textrank R p x s none w allow withFlag io).2.map (topOf topK) := by
      intro w
      simp only [textrank_eq]
      repeat' split
      all_goals try rfl
      rename_i freq hs
      cases rankTags freq w <;> rfl
    rw [htop]
    cases withWeight
    · rw [C49_textrank_with_weight_only_adds_weights]
      simp only [hl, Except.map]
      simp
    · rw [hl]
      simp [Except.map]

end

def ratRSys : RSys ℚ := ⟨ratKSys, 17 / 20, 10 ^ 300, 1 / 10 ^ 300⟩

def ratTextRank : TextRank := ⟨0, [lit ['t', 'h', 'e']], 5⟩

example : 0 ≤ ratRSys.d ∧ ratRSys.d < 1 ∧ ratRSys.fmin < 1 - ratRSys.d := by decide +kernel

/-- 大学。北京大学。THE -/
def rankedText : PyText := .str (lit ['大', '学', '。', '北', '京', '大', '学', '。', 'T', 'H', 'E'])

/-- The hypotheses of `C53_weights_normalised` for this text. -/
example : (toks ratRSys ratPWorld ratTextRank rankedText true).err = none ∧
    ((2 * ((ratTextRank.span - 1) * (toks ratRSys ratPWorld ratTextRank rankedText true).out.length) : Nat) : ℚ) < ratRSys.fmax := by
  decide +kernel

/-- 大学 is next to 北京 and near another 大学; the weights are 1 and something smaller. -/
example : (match (textrank ratRSys ratPWorld ratTextRank rankedText none true [lit ['n'], lit ['n', 's']] false true).2 with
    | .ok [(.word a, some x), (.word b, some y)] => decide (a = lit ['大', '学'] ∧ b = lit ['北', '京'] ∧ x = 1 ∧ 0 < y ∧ y < 1)
    | _ => false) = true := by decide +kernel

/-- Tokens 0 and 3 of the text are both 大学, 3 positions apart. -/
example : Near asciiLower ratTextRank.stop [lit ['n']] 5 (toks ratRSys ratPWorld ratTextRank rankedText true).out 0 3
    (lit ['大', '学'], lit ['n']) (lit ['大', '学'], lit ['n']) := by
  refine ⟨by decide, by decide, by decide +kernel, by decide +kernel, ⟨by decide, ?_⟩, ⟨by decide, ?_⟩⟩ <;>
  · rw [Accepts]; decide +kernel

/-- With a window of 3 there is no pair, so no keyword, and no error for the empty graph. -/
example : (textrank ratRSys ratPWorld { ratTextRank with span := 3 } rankedText none true [lit ['n']] false true).2 = .ok [] := by
  decide +kernel

/-- `withFlag` returns pairs. -/
example : (textrank ratRSys ratPWorld { ratTextRank with span := 3 } rankedText none false [lit ['n'], lit ['n', 's']] true true).2 =
    .ok [(.pair (lit ['大', '学']) (lit ['n']), none), (.pair (lit ['北', '京']) (lit ['n', 's']), none)] := by
  decide +kernel

end Jieba.Props
