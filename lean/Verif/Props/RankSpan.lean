import Verif.Props.RankGraph
/-!
# C142: the window, the stop words and the tags of TextRank; texts with two keywords
-/

namespace Jieba.Props
open Jieba Jieba.Spec Jieba.Pos Jieba.Analyse

section
variable {F : Type} [LinearOrder F]

/-- A window of one position (or none) gives no keywords. -/
theorem C142_no_window (R : RSys F) (p : PWorld) (x : TextRank) (hx : x.span ≤ 1) (s : PyText) (topK : Option Int) (withWeight : Bool) (allow : List Str)
    (withFlag io : Bool) (l : List (Key × Option F)) (h : (textrank R p x s topK withWeight allow withFlag io).2 = .ok l) : l = [] := by
  refine List.eq_nil_iff_forall_not_mem.mpr fun e he => ?_
  obtain ⟨i, j, a, b, ⟨h1, h2, -⟩, -⟩ := C54_keywords_cooccur R p x s topK withWeight allow withFlag io l h e he
  omega

/-- A wider window, fewer stop words and more tags lose no keyword. -/
theorem C142_grows (R : RSys F) (p : PWorld) (x x' : TextRank) (hp : x.pos = x'.pos) (hspan : x.span ≤ x'.span) (hstop : x'.stop ⊆ x.stop)
    (s : PyText) (topK : Option Int) (withWeight withWeight' : Bool) (allow allow' : List Str) (hallow : allow ⊆ allow') (withFlag io : Bool)
    (l l' : List (Key × Option F)) (h : (textrank R p x s topK withWeight allow withFlag io).2 = .ok l)
    (h' : (textrank R p x' s none withWeight' allow' withFlag io).2 = .ok l') : l.map Prod.fst ⊆ l'.map Prod.fst := by
  intro k hk
  obtain ⟨e, he, rfl⟩ := List.mem_map.mp hk
  obtain ⟨i, j, a, b, ⟨h1, h2, h3, h4, h5, h6⟩, h7⟩ := C54_keywords_cooccur R p x s topK withWeight allow withFlag io l h e he
  have ht : toks R p x s io = toks R p x' s io := by unfold toks; rw [hp]
  have hacc : ∀ t, AcceptsPair R.k.lower x.stop allow t → AcceptsPair R.k.lower x'.stop allow' t := fun t ⟨g1, g2, g3⟩ =>
    ⟨hallow g1, g2, fun g => g3 (hstop g)⟩
  have := C54_all_cooccurring_words R p x' s withWeight' allow' withFlag io l' h' i j a b
    ⟨h1, by omega, by rw [← ht]; exact h3, by rw [← ht]; exact h4, hacc a h5, hacc b h6⟩
  rcases h7 with g | g <;> rw [g]
  · exact this.1
  · exact this.2

theorem cooccur_wide (f : Pair → Bool) (mk : Pair → Key) (m n : Nat) (ts : List Pair) (hm : ts.length ≤ m) (hn : ts.length ≤ n)
    (cm : PyDict (Key × Key) Nat) : cooccur f mk m ts cm = cooccur f mk n ts cm := by
  induction ts generalizing cm with
  | nil => rfl
  | cons t ts ih =>
    rw [List.length_cons] at hm hn
    simp only [cooccur, List.take_of_length_le (show ts.length ≤ m - 1 by omega), List.take_of_length_le (show ts.length ≤ n - 1 by omega)]
    exact ih (by omega) (by omega) _

/-- All windows that are as wide as the text (in tokens) give the same. -/
theorem C142_wide (R : RSys F) (p : PWorld) (x : TextRank) (m n : Nat) (s : PyText) (topK : Option Int) (withWeight : Bool) (allow : List Str)
    (withFlag io : Bool) (hm : (toks R p x s io).out.length ≤ m) (hn : (toks R p x s io).out.length ≤ n) :
    textrank R p { x with span := m } s topK withWeight allow withFlag io = textrank R p { x with span := n } s topK withWeight allow withFlag io := by
  unfold textrank
  simp only []
  rw [cooccur_wide (pairfilter R.k allow x.stop) (nodeOf allow withFlag) m n (cutPW R.k.pos p x.pos true s io).2.out hm hn]

end

section
variable {F : Type} [Field F] [LinearOrder F] [IsStrictOrderedRing F]

theorem linked_comm (lower : Str → Str) (stop allow : List Str) (withFlag : Bool) (span : Nat) (ts : List (Str × Str)) (u v : Key) :
    linked lower stop allow withFlag span ts u v = linked lower stop allow withFlag span ts v u := Nat.add_comm _ _

theorem two_rounds (w : Key → Key → Nat) (d : F) (u v : Key) (S : Nat → Key → F) (h : Ranking [u, v] w d S) (huu : w u u = 0) (hvv : w v v = 0)
    (hs : w u v = w v u) (hw : w u v ≠ 0) (t : Nat) : S t v = 1 - d ^ (2 * t) / 2 ∧ S (t + 1) u = 1 - d ^ (2 * t + 1) / 2 := by
  have hc : (w u v : F) ≠ 0 := by exact_mod_cast hw
  have hu : ∀ t, S (t + 1) u = (1 - d) + d * S t v := fun t => by
    have := h.round t [] u [v] rfl
    simp only [List.map_cons, List.map_nil, List.sum_cons, List.sum_nil, huu, hvv, ← hs, Nat.cast_zero, zero_div, zero_mul, zero_add, add_zero,
      List.not_mem_nil, if_false, div_self hc, one_mul] at this
    exact this
  have hv : ∀ t, S (t + 1) v = (1 - d) + d * S (t + 1) u := fun t => by
    have := h.round t [u] v [] rfl
    simp only [List.map_cons, List.map_nil, List.sum_cons, List.sum_nil, huu, hvv, ← hs, Nat.cast_zero, zero_div, zero_mul, zero_add, add_zero,
      List.mem_singleton, if_true, div_self hc, one_mul] at this
    exact this
  have h0 : S 0 v = 1 / 2 := by
    have := h.start v (by simp)
    simpa using this
  have key : ∀ t, S t v = 1 - d ^ (2 * t) / 2 := fun t => by
    induction t with
    | zero => rw [h0]; norm_num
    | succ t ih => rw [hv, hu, ih]; ring
  exact ⟨key t, by rw [hu, key]; ring⟩

/-- If there are just two keywords and neither is near itself, the later one in the order of code points comes first, with weight 1, however often and in which
order they occur; the weight of the other depends on `d` only. -/
theorem C142_two_keywords (R : RSys F) (hA : Exact R.k.pos.sys.A) (hd0 : 0 < R.d) (hd1 : R.d < 1) (hmin : R.fmin < 1 - R.d)
    (p : PWorld) (x : TextRank) (s : PyText) (allow : List Str) (withFlag io : Bool)
    (hmax : (2 * ((x.span - 1) * (toks R p x s io).out.length) : Nat) < R.fmax) (l : List (Key × Option F))
    (h : (textrank R p x s none true allow withFlag io).2 = .ok l) (u v : Key) (huv : u.text < v.text)
    (hkeys : ∀ i j a b, Near R.k.lower x.stop allow x.span (toks R p x s io).out i j a b →
      asKey withFlag a = u ∧ asKey withFlag b = v ∨ asKey withFlag a = v ∧ asKey withFlag b = u)
    (hsome : ∃ i j a b, Near R.k.lower x.stop allow x.span (toks R p x s io).out i j a b) :
    l = [(v, some 1), (u, some ((1 - R.d ^ 19 / 2) * (9 / 10) / (1 - R.d ^ 20 / 2 - (1 - R.d ^ 19 / 2) / 10)))] := by
  have hne : u ≠ v := by rintro rfl; exact lt_irrefl _ huv
  obtain ⟨nodes, S, hnd, hmem, hord, hS, hw⟩ := C76_weights R hA hd0.le hd1 hmin p x s none allow withFlag io hmax l h
  have hlk : ∀ a b, linked R.k.lower x.stop allow withFlag x.span (toks R p x s io).out a b ≠ 0 → a ≠ b := fun a b g => by
    unfold linked at g
    have : together (toks R p x s io).out.length x.span (KeywordAt R.k.lower x.stop allow withFlag (toks R p x s io).out) a b ≠ 0 ∨
        together (toks R p x s io).out.length x.span (KeywordAt R.k.lower x.stop allow withFlag (toks R p x s io).out) b a ≠ 0 := by omega
    rcases this with g | g
    all_goals
      obtain ⟨i, j, -, -, h1, h2, ⟨a', h3, h5, h7⟩, ⟨b', h4, h6, h8⟩⟩ := (together_pos _ _ _ _ _).mp g
      rintro rfl
      rcases hkeys i j a' b' ⟨h1, h2, h3, h4, h5, h6⟩ with ⟨g1, g2⟩ | ⟨g1, g2⟩
      · exact hne (g1.symm.trans (h7.trans (h8.symm.trans g2)))
      · exact hne (g2.symm.trans (h8.trans (h7.symm.trans g1)))
  have hmem' : ∀ k, k ∈ nodes ↔ k = u ∨ k = v := fun k => by
    rw [hmem]
    constructor
    · rintro ⟨i, j, a, b, hab, rfl | rfl⟩ <;> rcases hkeys i j a b hab with ⟨g1, g2⟩ | ⟨g1, g2⟩ <;> simp [g1, g2]
    · obtain ⟨i, j, a, b, hab⟩ := hsome
      rintro (rfl | rfl) <;> rcases hkeys i j a b hab with ⟨g1, g2⟩ | ⟨g1, g2⟩ <;> refine ⟨i, j, a, b, hab, ?_⟩ <;> simp [g1, g2]
  have hnodes : nodes = [u, v] := by
    have hperm : nodes.Perm [u, v] := (List.perm_ext_iff_of_nodup hnd (by simp [hne])).mpr (fun k => by rw [hmem']; simp)
    have hlen := hperm.length_eq
    match nodes, hlen with
    | [a, b], _ =>
      have ha := (hmem' a).mp (by simp)
      have hb := (hmem' b).mp (by simp)
      have hab : a ≠ b := by
        rintro rfl
        simp at hnd
      have ho := (List.pairwise_cons.mp hord).1 b (by simp)
      rcases ha with rfl | rfl <;> rcases hb with rfl | rfl
      · exact absurd rfl hab
      · rfl
      · rcases ho with ho | ⟨ho, -⟩
        · exact absurd ho (lt_asymm huv)
        · rw [ho] at huv; exact absurd huv (lt_irrefl _)
      · exact absurd rfl hab
  subst hnodes
  have hzero : ∀ a, linked R.k.lower x.stop allow withFlag x.span (toks R p x s io).out a a = 0 := fun a => by
    by_contra g
    exact hlk a a g rfl
  have hpos : linked R.k.lower x.stop allow withFlag x.span (toks R p x s io).out u v ≠ 0 := by
    obtain ⟨k, hk⟩ := (near_iff_linked R.k.lower x.stop allow withFlag x.span (toks R p x s io).out u).mp ((hmem u).mp (by simp))
    have : k ∈ [u, v] := (hmem k).mpr ((near_iff_linked _ _ _ _ _ _ k).mpr ⟨u, by rw [linked_comm]; exact hk⟩)
    simp only [List.mem_cons, List.not_mem_nil, or_false] at this
    rcases this with rfl | rfl
    · exact absurd (hzero k) hk
    · exact hk
  have hSv : S 10 v = 1 - R.d ^ 20 / 2 := (two_rounds _ _ u v S hS (hzero u) (hzero v) (linked_comm _ _ _ _ _ _ _ _) hpos 10).1
  have hSu : S 10 u = 1 - R.d ^ 19 / 2 := (two_rounds _ _ u v S hS (hzero u) (hzero v) (linked_comm _ _ _ _ _ _ _ _) hpos 9).2
  have hlt : S 10 u < S 10 v := by
    rw [hSu, hSv]
    have : R.d ^ 20 < R.d ^ 19 := pow_lt_pow_right_of_lt_one₀ hd0 hd1 (by norm_num)
    linarith
  have hSpos : 0 < S 10 u := by
    rw [hSu]
    have : R.d ^ 19 < 1 := pow_lt_one₀ hd0.le hd1 (by norm_num)
    linarith
  have hwt := hw (S 10 u) (S 10 v) ⟨⟨u, by simp, rfl⟩, by rintro y ⟨n, hn, rfl⟩; simp at hn; rcases hn with rfl | rfl <;> [exact le_rfl; exact hlt.le]⟩
    ⟨⟨v, by simp, rfl⟩, by rintro y ⟨n, hn, rfl⟩; simp at hn; rcases hn with rfl | rfl <;> [exact hlt.le; exact le_rfl]⟩
  obtain ⟨hn, hsort⟩ := C48_textrank_sorted R p x s allow withFlag io l h
  have hD : 0 < S 10 v - S 10 u / 10 := by linarith
  have hlm : ∀ k, k ∈ l.map Prod.fst ↔ k = u ∨ k = v := fun k => by
    rw [← hmem', hmem]
    constructor
    · intro hk
      obtain ⟨e, he, rfl⟩ := List.mem_map.mp hk
      exact C54_keywords_cooccur R p x s none true allow withFlag io l h e he
    · rintro ⟨i, j, a, b, hab, rfl | rfl⟩
      · exact (C54_all_cooccurring_words R p x s true allow withFlag io l h i j a b hab).1
      · exact (C54_all_cooccurring_words R p x s true allow withFlag io l h i j a b hab).2
  have hperm : (l.map Prod.fst).Perm [u, v] := (List.perm_ext_iff_of_nodup hn (by simp [hne])).mpr (fun k => by rw [hlm]; simp)
  have hlen := hperm.length_eq
  rw [List.length_map] at hlen
  match l, hlen with
  | [(a, xa), (b, xb)], _ =>
    have ea := hwt (a, xa) (by simp)
    have eb := hwt (b, xb) (by simp)
    simp only at ea eb
    subst ea; subst eb
    have ha := (hlm a).mp (by simp)
    have hb := (hlm b).mp (by simp)
    have hab : a ≠ b := by rintro rfl; simp at hn
    obtain ⟨y, z, ey, ez, hyz⟩ := (List.pairwise_cons.mp hsort).1 _ List.mem_cons_self
    cases ey; cases ez
    rcases ha with rfl | rfl <;> rcases hb with rfl | rfl
    · exact absurd rfl hab
    · exfalso
      have : (S 10 a - S 10 a / 10) / (S 10 b - S 10 a / 10) < (S 10 b - S 10 a / 10) / (S 10 b - S 10 a / 10) := div_lt_div_of_pos_right (by linarith) hD
      rcases hyz with g | ⟨g, -⟩
      · exact lt_asymm this g
      · exact this.ne g
    · rw [div_self hD.ne', hSu, hSv]
      have e : ∀ y z : F, (y - y / 10) / z = y * (9 / 10) / z := fun y z => by ring
      rw [e]
    · exact absurd rfl hab

end

/-- 大学北京。。。。。, `n` times. -/
def twoWords (n : Nat) : PyText := .str ((List.replicate n (lit ['大', '学', '北', '京', '。', '。', '。', '。', '。'])).flatten)

theorem twoWords_toks : (toks ratRSys ratPWorld ratTextRank (twoWords 1) true).out = (lit ['大', '学'], lit ['n']) :: (lit ['北', '京'], lit ['n', 's']) ::
    List.replicate 5 (lit ['。'], lit ['x']) := by decide +kernel

/-- The hypotheses of `C142_two_keywords` are met. -/
example : Exact ratRSys.k.pos.sys.A ∧ 0 < ratRSys.d ∧ ratRSys.d < 1 ∧ ratRSys.fmin < 1 - ratRSys.d ∧
    ((2 * ((ratTextRank.span - 1) * (toks ratRSys ratPWorld ratTextRank (twoWords 1) true).out.length) : Nat) : ℚ) < ratRSys.fmax ∧
    (Key.word (lit ['北', '京'])).text < (Key.word (lit ['大', '学'])).text ∧
    (∀ i j a b, Near asciiLower ratTextRank.stop [lit ['n'], lit ['n', 's']] ratTextRank.span (toks ratRSys ratPWorld ratTextRank (twoWords 1) true).out i j a b →
      asKey false a = .word (lit ['北', '京']) ∧ asKey false b = .word (lit ['大', '学']) ∨
      asKey false a = .word (lit ['大', '学']) ∧ asKey false b = .word (lit ['北', '京'])) ∧
    (∃ i j a b, Near asciiLower ratTextRank.stop [lit ['n'], lit ['n', 's']] ratTextRank.span (toks ratRSys ratPWorld ratTextRank (twoWords 1) true).out i j a b) := by
  rw [twoWords_toks]
  refine ⟨ratArith_exact, by decide +kernel, by decide +kernel, by decide +kernel, by decide +kernel, by decide, ?_, ?_⟩
  · rintro i j a b ⟨h1, -, h3, h4, ⟨h5, -⟩, ⟨h6, -⟩⟩
    have hn : ∀ (k : Nat) (t : Str × Str), (List.replicate 5 (lit ['。'], lit ['x']))[k]? = some t → t.2 ∈ [lit ['n'], lit ['n', 's']] → False := fun k t g g' => by
      have := List.eq_of_mem_replicate (List.mem_of_getElem? g)
      subst this
      revert g'
      decide
    match i, j with
    | 0, 1 =>
      cases h3; cases h4
      exact Or.inr ⟨rfl, rfl⟩
    | _, j + 2 => exact (hn j b h4 h6).elim
    | i + 2, 1 => omega
    | 1, 1 => omega
    | _, 0 => omega
  · refine ⟨0, 1, _, _, by decide, by decide, rfl, rfl, ⟨by decide, ?_⟩, ⟨by decide, ?_⟩⟩ <;>
    · rw [Accepts]; decide +kernel

/-- More occurrences change nothing. -/
example : (textrank ratRSys ratPWorld ratTextRank (twoWords 3) none true [lit ['n'], lit ['n', 's']] false true).2 =
    (textrank ratRSys ratPWorld ratTextRank (twoWords 1) none true [lit ['n'], lit ['n', 's']] false true).2 := by
  decide +kernel

/-- A new stop word can take other words with it, unlike with TF-IDF (C141): with 北京 as a stop word 大学 has no neighbour left. -/
theorem C142_neighbour_lost :
    ((textrank ratRSys ratPWorld ratTextRank (twoWords 1) none true [lit ['n'], lit ['n', 's']] false true).2.map (·.map Prod.fst)) =
      .ok [.word (lit ['大', '学']), .word (lit ['北', '京'])] ∧
    (textrank ratRSys ratPWorld { ratTextRank with stop := lit ['北', '京'] :: ratTextRank.stop } (twoWords 1) none true [lit ['n'], lit ['n', 's']] false true).2 =
      .ok [] := by
  decide +kernel

end Jieba.Props
