import Verif.Props.RankValues
import Verif.Props.Repetition
/-!
# C89: TextRank sees nothing but the links between words
-/

set_option linter.unusedSectionVars false

namespace Jieba.Props
open Jieba Jieba.Spec Jieba.Pos Jieba.Analyse

theorem together_pos {κ : Type _} (n span : Nat) (at_ : Nat → κ → Prop) (u v : κ) :
    together n span at_ u v ≠ 0 ↔ ∃ i j, i < n ∧ j < n ∧ i < j ∧ j < i + span ∧ at_ i u ∧ at_ j v := by
  unfold together
  rw [Ne, Finset.sum_eq_zero_iff]
  push Not
  constructor
  · rintro ⟨i, hi, h⟩
    rw [Ne, Finset.sum_eq_zero_iff] at h
    push Not at h
    obtain ⟨j, hj, h⟩ := h
    split at h
    · next hc => exact ⟨i, j, Finset.mem_range.mp hi, Finset.mem_range.mp hj, hc⟩
    · exact absurd rfl h
  · rintro ⟨i, j, hi, hj, hc⟩
    refine ⟨i, Finset.mem_range.mpr hi, ?_⟩
    rw [Ne, Finset.sum_eq_zero_iff]
    push Not
    exact ⟨j, Finset.mem_range.mpr hj, by rw [if_pos hc]; exact Nat.one_ne_zero⟩

/-- The keywords are those that are linked to something. -/
theorem near_iff_linked (lower : Str → Str) (stop allow : List Str) (withFlag : Bool) (span : Nat) (ts : List (Str × Str)) (k : Key) :
    (∃ i j a b, Near lower stop allow span ts i j a b ∧ (k = asKey withFlag a ∨ k = asKey withFlag b)) ↔
      ∃ v, linked lower stop allow withFlag span ts k v ≠ 0 := by
  constructor
  · rintro ⟨i, j, a, b, ⟨h1, h2, h3, h4, h5, h6⟩, h7 | h7⟩
    · refine ⟨asKey withFlag b, ?_⟩
      unfold linked
      have : together ts.length span (KeywordAt lower stop allow withFlag ts) k (asKey withFlag b) ≠ 0 :=
        (together_pos _ _ _ _ _).mpr ⟨i, j, (List.getElem?_eq_some_iff.mp h3).1, (List.getElem?_eq_some_iff.mp h4).1, h1, h2,
          ⟨a, h3, h5, h7.symm⟩, ⟨b, h4, h6, rfl⟩⟩
      omega
    · refine ⟨asKey withFlag a, ?_⟩
      unfold linked
      have : together ts.length span (KeywordAt lower stop allow withFlag ts) (asKey withFlag a) k ≠ 0 :=
        (together_pos _ _ _ _ _).mpr ⟨i, j, (List.getElem?_eq_some_iff.mp h3).1, (List.getElem?_eq_some_iff.mp h4).1, h1, h2,
          ⟨a, h3, h5, rfl⟩, ⟨b, h4, h6, h7.symm⟩⟩
      omega
  · rintro ⟨v, h⟩
    unfold linked at h
    have : together ts.length span (KeywordAt lower stop allow withFlag ts) k v ≠ 0 ∨
        together ts.length span (KeywordAt lower stop allow withFlag ts) v k ≠ 0 := by omega
    rcases this with h | h
    · obtain ⟨i, j, -, -, h1, h2, ⟨a, h3, h5, h7⟩, ⟨b, h4, h6, h8⟩⟩ := (together_pos _ _ _ _ _).mp h
      exact ⟨i, j, a, b, ⟨h1, h2, h3, h4, h5, h6⟩, Or.inl h7.symm⟩
    · obtain ⟨i, j, -, -, h1, h2, ⟨a, h3, h5, h7⟩, ⟨b, h4, h6, h8⟩⟩ := (together_pos _ _ _ _ _).mp h
      exact ⟨i, j, a, b, ⟨h1, h2, h3, h4, h5, h6⟩, Or.inr h8.symm⟩

theorem sorted_nodes_eq (a b : List Key) (ha : a.Pairwise (fun x y => x.text < y.text)) (hb : b.Pairwise (fun x y => x.text < y.text))
    (h : ∀ k, k ∈ a ↔ k ∈ b) : a = b := by
  have hna : a.Nodup := ha.imp (fun h he => absurd (he ▸ h) (lt_irrefl _))
  have hnb : b.Nodup := hb.imp (fun h he => absurd (he ▸ h) (lt_irrefl _))
  have hp : a.Perm b := (List.perm_ext_iff_of_nodup hna hnb).mpr h
  exact List.Perm.eq_of_pairwise (fun x y _ _ h1 h2 => absurd (lt_trans h1 h2) (lt_irrefl _)) ha hb hp

/-! ## paragraphs -/

theorem filter_take_gap (f : Pair → Bool) (k : Nat) (a sep b : List Pair) (hsep : ∀ t ∈ sep, f t = false) (hk : k ≤ sep.length) :
    ((a ++ (sep ++ b)).take k).filter f = (a.take k).filter f := by
  rw [List.take_append, List.filter_append, List.take_append_of_le_length (by omega : k - a.length ≤ sep.length)]
  have : (sep.take (k - a.length)).filter f = [] := by
    rw [List.filter_eq_nil_iff]
    intro t ht
    simp [hsep t (List.mem_of_mem_take ht)]
  rw [this, List.append_nil]

theorem windowPairs_skip (f : Pair → Bool) (mk : Pair → Key) (span : Nat) (sep b : List Pair) (hsep : ∀ t ∈ sep, f t = false) :
    windowPairs f mk span (sep ++ b) = windowPairs f mk span b := by
  induction sep with
  | nil => rfl
  | cons t sep ih =>
    rw [List.cons_append, windowPairs, hsep t (by simp), ih (fun t ht => hsep t (by simp [ht]))]
    simp

theorem windowPairs_gap (f : Pair → Bool) (mk : Pair → Key) (span : Nat) (a sep b : List Pair) (hsep : ∀ t ∈ sep, f t = false)
    (hk : span - 1 ≤ sep.length) : windowPairs f mk span (a ++ (sep ++ b)) = windowPairs f mk span a ++ windowPairs f mk span b := by
  induction a with
  | nil => rw [List.nil_append, windowPairs_skip f mk span sep b hsep]; rfl
  | cons t a ih =>
    rw [List.cons_append, windowPairs, windowPairs, filter_take_gap f _ a sep b hsep hk, ih, List.append_assoc]

/-- Characters that `posseg` yields one by one with tag x: neither word characters nor CR or LF. -/
def Separators (d : Str) : Prop := ∀ c ∈ d, isWordChPos c = false ∧ c ≠ 0x0D ∧ c ≠ 0x0A

theorem posCut_separators {F : Type _} [LinearOrder F] (E : PEnv F) (hm : Bool) (a d b : Str) (hd : Separators d) (hne : d ≠ []) :
    Pos.cut E hm (a ++ (d ++ b)) = Gen.andThen (Pos.cut E hm a) (Gen.andThen (Gen.ok (d.map (fun c => ([c], lit ['x'])))) (Pos.cut E hm b)) := by
  have key : ∀ d : Str, Separators d → Pos.cut E hm (d ++ b) = Gen.andThen (Gen.ok (d.map (fun c => ([c], lit ['x'])))) (Pos.cut E hm b) := by
    intro d hd
    induction d with
    | nil => simp [Gen.andThen, Gen.ok]
    | cons c d ih =>
      have hc := hd c (by simp)
      have := C15_posseg_around_separator E hm [] (d ++ b) c hc.1 (by simp) (fun h => hc.2.1 h.1)
      rw [List.nil_append] at this
      rw [List.cons_append, this, ih (fun x hx => hd x (by simp [hx]))]
      have h0 : Pos.cut E hm [] = Gen.ok [] := by
        rw [Pos.cut_eq_scan, scan_nil]
      rw [h0]
      simp [Gen.andThen, Gen.ok]
  cases d with
  | nil => exact absurd rfl hne
  | cons c d =>
    have hc := hd c (by simp)
    rw [List.cons_append, C15_posseg_around_separator E hm a (d ++ b) c hc.1 (fun h => hc.2.2 h.2) (fun h => hc.2.1 h.1),
      key d (fun x hx => hd x (by simp [hx]))]
    congr 1

/-- The texts `parts` with `d` between them. -/
def paragraphs (d : Str) : List Str → Str
  | [] => []
  | [a] => a
  | a :: b :: parts => a ++ (d ++ paragraphs d (b :: parts))

theorem windowPairs_paragraphs {F : Type _} [LinearOrder F] (E : PEnv F) (hm : Bool) (f : Pair → Bool) (mk : Pair → Key) (span : Nat) (d : Str)
    (hd : Separators d) (hne : d ≠ []) (hk : span - 1 ≤ d.length) (hf : ∀ c ∈ d, f ([c], lit ['x']) = false) (parts : List Str)
    (he : (Pos.cut E hm (paragraphs d parts)).err = none) :
    windowPairs f mk span (Pos.cut E hm (paragraphs d parts)).out = parts.flatMap (fun a => windowPairs f mk span (Pos.cut E hm a).out) := by
  induction parts with
  | nil =>
    have h0 : Pos.cut E hm [] = Gen.ok [] := by rw [Pos.cut_eq_scan, scan_nil]
    simp [paragraphs, h0, Gen.ok, windowPairs]
  | cons a parts ih =>
    cases parts with
    | nil => simp [paragraphs]
    | cons b parts =>
      rw [paragraphs, posCut_separators E hm a d _ hd hne] at he ⊢
      have h1 : (Pos.cut E hm a).err = none := by
        cases h : (Pos.cut E hm a).err with
        | none => rfl
        | some e => simp [Gen.andThen, h] at he
      have h2 : (Pos.cut E hm (paragraphs d (b :: parts))).err = none := by
        simpa [Gen.andThen, h1, Gen.ok] using he
      have hout : (Gen.andThen (Pos.cut E hm a) (Gen.andThen (Gen.ok (d.map (fun c => ([c], lit ['x'])))) (Pos.cut E hm (paragraphs d (b :: parts))))).out =
          (Pos.cut E hm a).out ++ (d.map (fun c => ([c], lit ['x'])) ++ (Pos.cut E hm (paragraphs d (b :: parts))).out) := by
        simp [Gen.andThen, h1, Gen.ok]
      rw [hout, windowPairs_gap f mk span _ _ _ (by simpa using hf) (by simpa using hk), ih h2]
      rfl

open Classical in
theorem linked_eq_count (lower : Str → Str) (stop allow : List Str) (withFlag : Bool) (span : Nat) (ts : List (Str × Str)) (u v : Key) :
    linked lower stop allow withFlag span ts u v =
      (windowPairs (fun t => decide (AcceptsPair lower stop allow t)) (asKey withFlag) span ts).count (u, v) +
      (windowPairs (fun t => decide (AcceptsPair lower stop allow t)) (asKey withFlag) span ts).count (v, u) := by
  unfold linked
  have : KeywordAt lower stop allow withFlag ts =
      (fun i k => ∃ t, ts[i]? = some t ∧ decide (AcceptsPair lower stop allow t) = true ∧ asKey withFlag t = k) := by
    funext i k
    simp only [KeywordAt, decide_eq_true_eq]
  rw [windowPairs_count, windowPairs_count, this]

section
variable {F : Type} [Field F] [LinearOrder F] [IsStrictOrderedRing F]

/-- Only the proportions of the strengths matter. -/
theorem _root_.Jieba.Spec.Ranking.scale {κ : Type _} [DecidableEq κ] {nodes : List κ} {w w' : κ → κ → Nat} {d : F} {S : Nat → κ → F} (c c' : Nat) (hc : c ≠ 0)
    (hc' : c' ≠ 0) (h : ∀ u v, c * w u v = c' * w' u v) (hr : Ranking nodes w d S) : Ranking nodes w' d S := by
  refine ⟨hr.start, ?_⟩
  intro t before n after hn
  rw [hr.round t before n after hn]
  congr 3
  refine List.map_congr_left ?_
  intro v _
  congr 1
  have h1 : (c : F) ≠ 0 := by exact_mod_cast hc
  have h2 : (c' : F) ≠ 0 := by exact_mod_cast hc'
  have hsum : c * (nodes.map (fun u => w v u)).sum = c' * (nodes.map (fun u => w' v u)).sum := by
    rw [← List.sum_map_mul_left, ← List.sum_map_mul_left]
    simp only [h]
  have e1 : (c : F) * (w n v : F) = (c' : F) * (w' n v : F) := by exact_mod_cast h n v
  have e2 : (c : F) * ((nodes.map (fun u => w v u)).sum : Nat) = (c' : F) * ((nodes.map (fun u => w' v u)).sum : Nat) := by exact_mod_cast hsum
  rw [← mul_div_mul_left _ _ h1, e1, e2, mul_div_mul_left _ _ h2]

/-- C89: in exact arithmetic and for plain words, the weight of a keyword depends on nothing but the proportions in which each two words
are linked: two runs, on whatever texts and with whatever settings, in which the links are proportional give each word the same weight;
and the same keywords, if all are asked for. -/
theorem C89_links_decide (R R' : RSys F) (hA : Exact R.k.pos.sys.A) (hA' : Exact R'.k.pos.sys.A) (hd0 : 0 ≤ R.d) (hd1 : R.d < 1) (hdd : R'.d = R.d)
    (hmin : R.fmin < 1 - R.d) (hmin' : R'.fmin < 1 - R.d) (p p' : PWorld) (x x' : TextRank) (s s' : PyText) (topK topK' : Option Int)
    (allow allow' : List Str) (io io' : Bool)
    (hmax : (2 * ((x.span - 1) * (toks R p x s io).out.length) : Nat) < R.fmax)
    (hmax' : (2 * ((x'.span - 1) * (toks R' p' x' s' io').out.length) : Nat) < R'.fmax) (l l' : List (Key × Option F))
    (h : (textrank R p x s topK true allow false io).2 = .ok l) (h' : (textrank R' p' x' s' topK' true allow' false io').2 = .ok l')
    (c c' : Nat) (hc : c ≠ 0) (hc' : c' ≠ 0)
    (hlink : ∀ u v, c * linked R.k.lower x.stop allow false x.span (toks R p x s io).out u v =
      c' * linked R'.k.lower x'.stop allow' false x'.span (toks R' p' x' s' io').out u v) :
    (∀ k v v', (k, v) ∈ l → (k, v') ∈ l' → v = v') ∧ (topK = none → topK' = none → l.Perm l') := by
  obtain ⟨nodes, S, hn, hm, ho, hr, hv⟩ := C76_weights R hA hd0 hd1 hmin p x s topK allow false io hmax l h
  obtain ⟨nodes', S', hn', hm', ho', hr', hv'⟩ :=
    C76_weights R' hA' (hdd ▸ hd0) (hdd ▸ hd1) (hdd ▸ hmin') p' x' s' topK' allow' false io' hmax' l' h'
  have hword : ∀ {R : RSys F} {x : TextRank} {allow ts} {k : Key}, (∃ i j a b, Near R.k.lower x.stop allow x.span ts i j a b ∧
      (k = asKey false a ∨ k = asKey false b)) → k = .word k.text := by
    rintro R x allow ts k ⟨i, j, a, b, -, h | h⟩ <;> rw [h] <;> rfl
  have strict : ∀ (nodes : List Key) (q : Key → Nat), nodes.Nodup → (∀ k ∈ nodes, k = .word k.text) →
      nodes.Pairwise (fun a b => a.text < b.text ∨ (a.text = b.text ∧ q a < q b)) → nodes.Pairwise (fun a b => a.text < b.text) := by
    intro nodes q hn hw ho
    have := hn.and ho
    refine List.Pairwise.imp_of_mem ?_ this
    rintro a b ha hb ⟨hne, h | ⟨h, -⟩⟩
    · exact h
    · exact absurd (by rw [hw a ha, hw b hb, h]) hne
  have hnodes : nodes = nodes' := by
    refine sorted_nodes_eq _ _ (strict nodes _ hn (fun k hk => hword ((hm k).mp hk)) ho)
      (strict nodes' _ hn' (fun k hk => hword ((hm' k).mp hk)) ho') ?_
    intro k
    rw [hm, hm', near_iff_linked, near_iff_linked]
    refine exists_congr (fun v => ?_)
    have := hlink k v
    constructor
    · intro h h0
      rw [h0, Nat.mul_zero] at this
      rcases Nat.mul_eq_zero.mp this with h1 | h1
      · exact hc h1
      · exact h h1
    · intro h h0
      rw [h0, Nat.mul_zero] at this
      rcases Nat.mul_eq_zero.mp this.symm with h1 | h1
      · exact hc' h1
      · exact h h1
  subst hnodes
  rw [hdd] at hr'
  have hS : ∀ n ∈ nodes, S 10 n = S' 10 n := (hr.scale c c' hc hc' hlink).unique hr' 10
  have hmem : ∀ e ∈ l, e.1 ∈ nodes := by
    intro e he
    exact (hm _).mpr (C54_keywords_cooccur R p x s topK true allow false io l h e he)
  have hmem' : ∀ e ∈ l', e.1 ∈ nodes := by
    intro e he
    exact (hm' _).mpr (C54_keywords_cooccur R' p' x' s' topK' true allow' false io' l' h' e he)
  have hw : ∀ k v v', (k, v) ∈ l → (k, v') ∈ l' → v = v' := by
    intro k v v' hk hk'
    have hk0 := hmem _ hk
    have hne : (nodes.map (S 10)) ≠ [] := by
      intro he
      rw [List.map_eq_nil_iff] at he
      simp [he] at hk0
    have hset : {y | ∃ n ∈ nodes, y = S 10 n} = {y | y ∈ (nodes.map (S 10)).toFinset} := by
      ext y; simp [eq_comm]
    have hset' : {y | ∃ n ∈ nodes, y = S' 10 n} = {y | ∃ n ∈ nodes, y = S 10 n} := by
      ext y
      constructor
      · rintro ⟨n, h1, h2⟩; exact ⟨n, h1, by rw [h2, hS n h1]⟩
      · rintro ⟨n, h1, h2⟩; exact ⟨n, h1, by rw [h2, hS n h1]⟩
    have hfne : (nodes.map (S 10)).toFinset.Nonempty := by
      obtain ⟨y, hy⟩ := List.exists_mem_of_ne_nil _ hne
      exact ⟨y, List.mem_toFinset.mpr hy⟩
    have hmn : IsLeast {y | ∃ n ∈ nodes, y = S 10 n} ((nodes.map (S 10)).toFinset.min' hfne) := by
      rw [hset]; exact Finset.isLeast_min' _ hfne
    have hmx : IsGreatest {y | ∃ n ∈ nodes, y = S 10 n} ((nodes.map (S 10)).toFinset.max' hfne) := by
      rw [hset]; exact Finset.isGreatest_max' _ hfne
    have h1 := hv _ _ hmn hmx _ hk
    have h2 := hv' _ _ (hset' ▸ hmn) (hset' ▸ hmx) _ hk'
    simp only at h1 h2
    rw [h1, h2, hS k hk0]
  refine ⟨hw, ?_⟩
  rintro rfl rfl
  obtain ⟨hk, -⟩ := C48_textrank_sorted R p x s allow false io l h
  obtain ⟨hk', -⟩ := C48_textrank_sorted R' p' x' s' allow' false io' l' h'
  have all : ∀ k ∈ nodes, k ∈ l.map Prod.fst := by
    intro k hk
    obtain ⟨i, j, a, b, hab, h1⟩ := (hm k).mp hk
    obtain ⟨h2, h3⟩ := C54_all_cooccurring_words R p x s true allow false io l h i j a b hab
    rcases h1 with rfl | rfl
    · exact h2
    · exact h3
  have all' : ∀ k ∈ nodes, k ∈ l'.map Prod.fst := by
    intro k hk
    obtain ⟨i, j, a, b, hab, h1⟩ := (hm' k).mp hk
    obtain ⟨h2, h3⟩ := C54_all_cooccurring_words R' p' x' s' true allow' false io' l' h' i j a b hab
    rcases h1 with rfl | rfl
    · exact h2
    · exact h3
  refine (List.perm_ext_iff_of_nodup (List.Nodup.of_map _ hk) (List.Nodup.of_map _ hk')).mpr ?_
  rintro ⟨k, v⟩
  constructor
  · intro he
    obtain ⟨⟨k', v'⟩, he', hkk⟩ := List.mem_map.mp (all' k (hmem _ he))
    simp only at hkk
    subst hkk
    rwa [hw _ _ _ he he']
  · intro he
    obtain ⟨⟨k', v'⟩, he', hkk⟩ := List.mem_map.mp (all k (hmem' _ he))
    simp only at hkk
    subst hkk
    rwa [← hw _ _ _ he' he]

/-- C89: for texts made of paragraphs with at least `span - 1` separators between them, neither the order of the paragraphs nor repeating
all of them changes the keywords and their weights. -/
theorem C89_paragraphs (R : RSys F) (hA : Exact R.k.pos.sys.A) (hd0 : 0 ≤ R.d) (hd1 : R.d < 1) (hmin : R.fmin < 1 - R.d) (p : PWorld)
    (x : TextRank) (hi : (p.w.tok (p.pos x.pos).tok).initialized = true) (d : Str) (hd : Separators d) (hne : d ≠ []) (hk : x.span - 1 ≤ d.length)
    (parts parts' : List Str) (n : Nat) (hp : parts'.Perm (List.replicate (n + 1) parts).flatten) (allow : List Str) (io : Bool)
    (hmax : (2 * ((x.span - 1) * (toks R p x (.str (paragraphs d parts)) io).out.length) : Nat) < R.fmax)
    (hmax' : (2 * ((x.span - 1) * (toks R p x (.str (paragraphs d parts')) io).out.length) : Nat) < R.fmax) (l l' : List (Key × Option F))
    (h : (textrank R p x (.str (paragraphs d parts)) none true allow false io).2 = .ok l)
    (h' : (textrank R p x (.str (paragraphs d parts')) none true allow false io).2 = .ok l') : l.Perm l' := by
  classical
  have herr : ∀ s l, (textrank R p x s none true allow false io).2 = .ok l → (toks R p x s io).err = none := by
    intro s l h
    rw [textrank_eq] at h
    cases he : (toks R p x s io).err with
    | none => rfl
    | some e => simp [he] at h
  have htoks : ∀ s, toks R p x (.str s) io = Pos.cut ((moveTags p x.pos).env R.k.pos x.pos) true s := by
    intro s
    unfold toks
    rw [cutPW_of_init R.k.pos p x.pos true io _ hi]
    rfl
  have hf : ∀ c ∈ d, decide (AcceptsPair R.k.lower x.stop allow ([c], lit ['x'])) = false := by
    intro c _
    rw [decide_eq_false_iff_not]
    rintro ⟨-, h, -⟩
    have := List.length_filter_le (fun c => !isSpace c) [c]
    simp only [List.length_singleton] at this h
    omega
  have e1 := herr _ _ h
  have e2 := herr _ _ h'
  rw [htoks] at e1 e2
  have w1 := windowPairs_paragraphs _ true (fun t => decide (AcceptsPair R.k.lower x.stop allow t)) (asKey false) x.span d hd hne hk hf parts e1
  have w2 := windowPairs_paragraphs _ true (fun t => decide (AcceptsPair R.k.lower x.stop allow t)) (asKey false) x.span d hd hne hk hf parts' e2
  refine (C89_links_decide R R hA hA hd0 hd1 rfl hmin hmin p p x x _ _ none none allow allow io io hmax hmax' l l' h h' (n + 1) 1
    (Nat.succ_ne_zero n) Nat.one_ne_zero ?_).2 rfl rfl
  intro u v
  have key : ∀ e, (windowPairs (fun t => decide (AcceptsPair R.k.lower x.stop allow t)) (asKey false) x.span
        (Pos.cut ((moveTags p x.pos).env R.k.pos x.pos) true (paragraphs d parts')).out).count e =
      (n + 1) * (windowPairs (fun t => decide (AcceptsPair R.k.lower x.stop allow t)) (asKey false) x.span
        (Pos.cut ((moveTags p x.pos).env R.k.pos x.pos) true (paragraphs d parts)).out).count e := by
    intro e
    rw [w1, w2, (hp.flatMap_right _).count_eq]
    simp only [List.flatMap, List.map_flatten, List.map_replicate, List.count_flatten, List.sum_flatten, List.sum_replicate, smul_eq_mul]
  rw [linked_eq_count, linked_eq_count, htoks, htoks, key, key, Nat.one_mul, Nat.mul_add]

end

/-- C89, negative part: with fewer separators the order of the paragraphs matters. -/
theorem C89_short_separators : ∃ (R : RSys ℚ) (p : PWorld) (x : TextRank) (parts parts' : List Str) (allow : List Str),
    Exact R.k.pos.sys.A ∧ (p.w.tok (p.pos x.pos).tok).initialized = true ∧ Separators (lit ['。']) ∧ parts.Perm parts' ∧
    ∃ k v v', v ≠ v' ∧
      (textrank R p x (.str (paragraphs (lit ['。']) parts)) none true allow false true).2.toOption.any (fun l => decide ((k, some v) ∈ l)) = true ∧
      (textrank R p x (.str (paragraphs (lit ['。']) parts')) none true allow false true).2.toOption.any (fun l => decide ((k, some v') ∈ l)) = true := by
  refine ⟨ratRSys, readyRat, ratTextRank, [lit ['大', '学', '。', '北', '京', '大', '学'], lit ['大', '学', '。', '北', '京', '大', '学'], lit ['北', '京'], lit ['北', '京']],
    [lit ['大', '学', '。', '北', '京', '大', '学'], lit ['北', '京'], lit ['北', '京'], lit ['大', '学', '。', '北', '京', '大', '学']], [lit ['n'], lit ['n', 's']], ratArith_exact, by decide +kernel,
    by unfold Separators; decide +kernel, by decide +kernel, .word (lit ['大', '学']), 1,
    9507816302496989735963888490231 / 10943586384537847337318155278091, by norm_num, by decide +kernel, by decide +kernel⟩

/-- The hypotheses of `C89_paragraphs`: 大学。北京大学 and 北京 with four full stops between, in both orders, twice the second time. -/
example : Exact ratRSys.k.pos.sys.A ∧ 0 ≤ ratRSys.d ∧ ratRSys.d < 1 ∧ ratRSys.fmin < 1 - ratRSys.d ∧
    (readyRat.w.tok (readyRat.pos ratTextRank.pos).tok).initialized = true ∧ Separators (lit ['。', '。', '。', '。']) ∧ ratTextRank.span - 1 ≤ (lit ['。', '。', '。', '。']).length ∧
    [lit ['北', '京'], lit ['大', '学', '。', '北', '京', '大', '学'], lit ['大', '学', '。', '北', '京', '大', '学'], lit ['北', '京']].Perm (List.replicate (1 + 1) [lit ['大', '学', '。', '北', '京', '大', '学'], lit ['北', '京']]).flatten ∧
    ((2 * ((ratTextRank.span - 1) *
      (toks ratRSys readyRat ratTextRank (.str (paragraphs (lit ['。', '。', '。', '。']) [lit ['北', '京'], lit ['大', '学', '。', '北', '京', '大', '学'], lit ['大', '学', '。', '北', '京', '大', '学'], lit ['北', '京']])) true).out.length) : Nat) : ℚ) < ratRSys.fmax ∧
    (textrank ratRSys readyRat ratTextRank (.str (paragraphs (lit ['。', '。', '。', '。']) [lit ['大', '学', '。', '北', '京', '大', '学'], lit ['北', '京']]))
      none true [lit ['n'], lit ['n', 's']] false true).2 = .ok [(.word (lit ['大', '学']), some 1), (.word (lit ['北', '京']), some (18 / 35))] ∧
    (textrank ratRSys readyRat ratTextRank (.str (paragraphs (lit ['。', '。', '。', '。']) [lit ['北', '京'], lit ['大', '学', '。', '北', '京', '大', '学'], lit ['大', '学', '。', '北', '京', '大', '学'], lit ['北', '京']]))
      none true [lit ['n'], lit ['n', 's']] false true).2 = .ok [(.word (lit ['大', '学']), some 1), (.word (lit ['北', '京']), some (18 / 35))] :=
  ⟨ratArith_exact, by decide +kernel, by decide +kernel, by decide +kernel, by decide +kernel, by unfold Separators; decide +kernel, by decide,
    by decide +kernel, by decide +kernel, by decide +kernel, by decide +kernel⟩

end Jieba.Props
