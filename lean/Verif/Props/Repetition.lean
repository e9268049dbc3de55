import Verif.Props.Keywords
import Verif.Props.Segmentation
/-!
# C15 for `jieba.posseg`; C79: TF-IDF keywords of a repeated text
-/

set_option linter.unusedSectionVars false

namespace Jieba.Props
open Jieba Jieba.Spec Jieba.Pos Jieba.Analyse

section
variable {F : Type _} [LinearOrder F]

/-! ## C15 for `jieba.posseg` -/

/-- C15 for `posseg.cut` (general form): if cutting between `a` and `b` separates neither two word characters (of `posseg`) nor a CR LF
pair, then tagging the whole is tagging the parts. -/
theorem C15_posseg_local (E : PEnv F) (hmm : Bool) (a b : Str) (h : CleanBoundary isWordChPos a b) :
    Pos.cut E hmm (a ++ b) = Gen.andThen (Pos.cut E hmm a) (Pos.cut E hmm b) := by
  simp only [Pos.cut_eq_scan]
  exact scan_append (Pos.cutBlock E hmm) (fun w => (w, flagX)) isWordChPos a b h

/-- C15 for `posseg.cut`: around a separator character `c`, which is tagged `x`. -/
theorem C15_posseg_around_separator (E : PEnv F) (hmm : Bool) (a b : Str) (c : Ch) (hc : isWordChPos c = false)
    (h1 : ¬ (a.getLast? = some 0x0D ∧ c = 0x0A)) (h2 : ¬ (c = 0x0D ∧ b.head? = some 0x0A)) :
    Pos.cut E hmm (a ++ c :: b) =
      Gen.andThen (Pos.cut E hmm a) (Gen.andThen (Gen.ok [([c], lit ['x'])]) (Pos.cut E hmm b)) := by
  have hcut : Pos.cut E hmm [c] = Gen.ok [([c], lit ['x'])] := by
    rw [Pos.cut_eq_scan]
    have := scan_nonword isWordChPos (Pos.cutBlock E hmm) (fun b => Gen.ok ((charTokens b).map (fun w => (w, flagX)))) [c] [] (by simp)
      (by simpa using hc) (by simp)
    rw [List.append_nil] at this
    rw [this, scan_nil, charTokens.eq_2 c [] (by simp)]
    rfl
  rw [C15_posseg_local E hmm a (c :: b), show c :: b = [c] ++ b from rfl, C15_posseg_local E hmm [c] b, hcut]
  · intro x y hx hy
    simp at hx; subst hx
    exact ⟨by simp [hc], fun h => h2 ⟨h.1, h.2 ▸ hy⟩⟩
  · intro x y hx hy
    simp at hy; subst hy
    exact ⟨by simp [hc], fun h => h1 ⟨h.1 ▸ hx, h.2⟩⟩

/-- C15 for `posseg.cut`: a CR LF pair is one token, and separates what is before it from what is after it. -/
theorem C15_posseg_around_crlf (E : PEnv F) (hmm : Bool) (a b : Str) :
    Pos.cut E hmm (a ++ 0x0D :: 0x0A :: b) =
      Gen.andThen (Pos.cut E hmm a) (Gen.andThen (Gen.ok [([0x0D, 0x0A], lit ['x'])]) (Pos.cut E hmm b)) := by
  have hcut : Pos.cut E hmm [0x0D, 0x0A] = Gen.ok [([0x0D, 0x0A], lit ['x'])] := by
    rw [Pos.cut_eq_scan]
    have := scan_nonword isWordChPos (Pos.cutBlock E hmm) (fun b => Gen.ok ((charTokens b).map (fun w => (w, flagX)))) [0x0D, 0x0A] []
      (by simp) (by decide) (by simp)
    rw [List.append_nil] at this
    rw [this, scan_nil]
    rfl
  rw [C15_posseg_local E hmm a (0x0D :: 0x0A :: b), show (0x0D :: 0x0A :: b : Str) = [0x0D, 0x0A] ++ b from rfl,
    C15_posseg_local E hmm [0x0D, 0x0A] b, hcut]
  · intro x y hx hy
    simp at hx; subst hx
    exact ⟨fun h => absurd h.1 (by decide), fun h => absurd h.1 (by decide)⟩
  · intro x y hx hy
    simp at hy; subst hy
    exact ⟨fun h => absurd h.2 (by decide), fun h => absurd h.2 (by decide)⟩

/-- For `posseg` a percent sign separates (for `cut` it does not). -/
example : isWordChPos 0x25 = false ∧ isWordCh 0x25 = true ∧
    (Pos.cut samplePEnv true (lit ['北', '京', '%', '大', '学'])).out =
      (Pos.cut samplePEnv true (lit ['北', '京'])).out ++ (lit ['%'], lit ['x']) :: (Pos.cut samplePEnv true (lit ['大', '学'])).out := by
  decide +kernel

/-! ## The result is determined by the accepted occurrences -/

/-- `topK` and `withWeight` only select from the result with all keywords and weights. -/
theorem extractTags_select (K : KSys F) (p : PWorld) (x : Tfidf F) (s : PyText) (topK : Option Int) (withWeight : Bool)
    (allow : List Str) (withFlag io : Bool) :
    (extractTags K p x s topK withWeight allow withFlag io).2 =
      (extractTags K p x s none true allow withFlag io).2.map
        (fun l => topOf topK (l.map (fun e => (e.1, if withWeight then e.2 else none)))) := by
  have htrue : (extractTags K p x s topK true allow withFlag io).2 =
      (extractTags K p x s none true allow withFlag io).2.map (topOf topK) := by
    simp only [extractTags_eq]
    repeat' split
    all_goals try rfl
    rename_i freq hs
    cases rankTags freq true <;> rfl
  cases withWeight with
  | true =>
    rw [htrue]
    cases (extractTags K p x s none true allow withFlag io).2 with
    | error e => rfl
    | ok l => simp [Except.map]
  | false =>
    rw [C49_with_weight_only_adds_weights, htrue]
    cases (extractTags K p x s none true allow withFlag io).2 with
    | error e => rfl
    | ok l => simp [Except.map, topOf_map]

theorem eq_of_ahead (ks ks' : List Key) (horder : ∀ a ∈ ks, ∀ b ∈ ks, ks'.idxOf a < ks'.idxOf b → ks.idxOf a < ks.idxOf b)
    (l l' : List (Key × Option F)) (hmem : ∀ e, e ∈ l ↔ e ∈ l') (hks : ∀ e ∈ l, e.1 ∈ ks)
    (hl : l.Pairwise (Ahead ks)) (hl' : l'.Pairwise (Ahead ks')) : l = l' := by
  have irr : ∀ (ks : List Key) (e : Key × Option F), ¬ Ahead ks e e := by
    rintro ks e ⟨u, v, h1, h2, h⟩
    rw [h1] at h2; cases h2
    rcases h with h | ⟨-, h⟩
    · exact lt_irrefl _ h
    · exact lt_irrefl _ h
  have hl'' : l'.Pairwise (Ahead ks) := by
    refine hl'.imp_of_mem ?_
    rintro a b ha hb ⟨u, v, h1, h2, h⟩
    refine ⟨u, v, h1, h2, h.imp_right (fun h => ⟨h.1, ?_⟩)⟩
    exact horder _ (hks a ((hmem a).mpr ha)) _ (hks b ((hmem b).mpr hb)) h.2
  have nd : ∀ l : List (Key × Option F), l.Pairwise (Ahead ks) → l.Nodup := by
    intro l h
    refine h.imp ?_
    rintro a b hab rfl
    exact irr ks _ hab
  refine ((List.perm_ext_iff_of_nodup (nd l hl) (nd l' hl'')).mpr hmem).eq_of_pairwise ?_ hl hl''
  rintro a b - - ⟨u, v, h1, h2, h⟩ ⟨v', u', h3, h4, h'⟩
  rw [h1] at h4; cases h4
  rw [h2] at h3; cases h3
  exfalso
  rcases h with h | ⟨h, h5⟩ <;> rcases h' with h' | ⟨h', h6⟩
  · exact lt_asymm h h'
  · rw [h'] at h; exact lt_irrefl _ h
  · rw [h] at h'; exact lt_irrefl _ h'
  · omega

end

section
variable {F : Type} [Field F] [LinearOrder F] [IsStrictOrderedRing F]

/-- C79: the result of `extract_tags` is determined by the order in which the accepted words first occur and by the proportions in which
they occur. -/
theorem C79_proportions (K : KSys F) (hA : Exact K.pos.sys.A) (p p' : PWorld) (x : Tfidf F) (s s' : PyText) (topK : Option Int)
    (withWeight : Bool) (allow : List Str) (withFlag io io' : Bool)
    (he : cutErr K p x s allow io = none) (he' : cutErr K p' x s' allow io' = none)
    (hmem : ∀ k, k ∈ occ K p x s allow withFlag io ↔ k ∈ occ K p' x s' allow withFlag io')
    (horder : ∀ a ∈ occ K p x s allow withFlag io, ∀ b ∈ occ K p x s allow withFlag io,
      (occ K p' x s' allow withFlag io').idxOf a < (occ K p' x s' allow withFlag io').idxOf b →
      (occ K p x s allow withFlag io).idxOf a < (occ K p x s allow withFlag io).idxOf b)
    (hcount : ∀ k, (occ K p x s allow withFlag io).count k * (occ K p' x s' allow withFlag io').length =
      (occ K p' x s' allow withFlag io').count k * (occ K p x s allow withFlag io).length) :
    (extractTags K p x s topK withWeight allow withFlag io).2 = (extractTags K p' x s' topK withWeight allow withFlag io').2 := by
  rw [extractTags_select, extractTags_select K p']
  obtain ⟨l, h1, h2⟩ := C50_weights K hA p x s allow withFlag io he
  obtain ⟨l', h1', h2'⟩ := C50_weights K hA p' x s' allow withFlag io' he'
  have hl := C48_sorted K p x s allow withFlag io l h1
  have hl' := C48_sorted K p' x s' allow withFlag io' l' h1'
  rw [h1, h1']
  have : l = l' := by
    refine eq_of_ahead _ _ horder l l' ?_ (fun e he => ((h2 e.1 e.2).mp he).1) hl hl'
    rintro ⟨k, v⟩
    rw [h2, h2', hmem]
    refine and_congr_right (fun hk => ?_)
    have hk' := (hmem k).mpr hk
    have n1 : ((occ K p x s allow withFlag io).length : F) ≠ 0 := by
      exact_mod_cast (List.length_pos_of_mem hk').ne'
    have n2 : ((occ K p' x s' allow withFlag io').length : F) ≠ 0 := by
      exact_mod_cast (List.length_pos_of_mem hk).ne'
    have hc : ((occ K p x s allow withFlag io).count k : F) * ((occ K p' x s' allow withFlag io').length : F) =
      ((occ K p' x s' allow withFlag io').count k : F) * ((occ K p x s allow withFlag io).length : F) := by exact_mod_cast hcount k
    have : ((occ K p x s allow withFlag io).count k : F) * ((x.idf.get? k.text).getD x.median) / (occ K p x s allow withFlag io).length =
        ((occ K p' x s' allow withFlag io').count k : F) * ((x.idf.get? k.text).getD x.median) / (occ K p' x s' allow withFlag io').length := by
      rw [div_eq_div_iff n1 n2, mul_right_comm, hc, mul_right_comm]
    rw [this]
  rw [this]

/-- `n + 1` copies of `s` with `c` between them. -/
def copies (s : Str) (c : Ch) : Nat → Str
  | 0 => s
  | n + 1 => s ++ c :: copies s c n

theorem copies_head (s : Str) (c : Ch) (n : Nat) (d : Ch) (h : (copies s c n).head? = some d) : s.head? = some d ∨ d = c := by
  cases n with
  | zero => exact Or.inl h
  | succ n =>
    cases s with
    | nil => simp [copies] at h; exact Or.inr h.symm
    | cons e s => simp [copies] at h; exact Or.inl (by simp [h])

/-- A generator on the copies, when it splits at `c` and yields `t` for it. -/
theorem gen_copies {β : Type _} (g : Str → Gen β) (t : β) (s : Str) (c : Ch)
    (hg : ∀ n, g (s ++ c :: copies s c n) = Gen.andThen (g s) (Gen.andThen (Gen.ok [t]) (g (copies s c n)))) (n : Nat) :
    (g (copies s c n)).err = (g s).err ∧
      ((g s).err = none → (g (copies s c n)).out = (g s).out ++ (List.replicate n (t :: (g s).out)).flatten) := by
  induction n with
  | zero => exact ⟨rfl, fun _ => by simp [copies]⟩
  | succ n ih =>
    show (g (s ++ c :: copies s c n)).err = _ ∧ (_ → (g (s ++ c :: copies s c n)).out = _)
    rw [hg n]
    cases he : (g s).err with
    | some e => exact ⟨by simp [Gen.andThen, he], fun h => by cases h⟩
    | none =>
      obtain ⟨h1, h2⟩ := ih
      rw [he] at h1
      refine ⟨by simp [Gen.andThen, he, Gen.ok, h1], fun _ => ?_⟩
      simp [Gen.andThen, he, Gen.ok, h2 he, List.replicate_succ]

theorem idxOf_append_left (ks : List Key) (m : List Key) (a : Key) (h : a ∈ ks) : (ks ++ m).idxOf a = ks.idxOf a :=
  List.idxOf_append_of_mem h

/-- C79: the keywords of a text and their weights do not change when the text is repeated any number of times with a separator
between the copies. -/
theorem C79_repeated_text (K : KSys F) (hA : Exact K.pos.sys.A) (p : PWorld) (x : Tfidf F)
    (hi : (p.w.tok x.tok).initialized = true) (hi' : (p.w.tok (p.pos x.pos).tok).initialized = true)
    (s : Str) (c : Ch) (hc : isWordCh c = false) (h1 : ¬ (s.getLast? = some 0x0D ∧ c = 0x0A))
    (h2 : ¬ (c = 0x0D ∧ s.head? = some 0x0A)) (n : Nat) (topK : Option Int) (withWeight : Bool) (allow : List Str) (withFlag io : Bool) :
    (extractTags K p x (.str (copies s c n)) topK withWeight allow withFlag io).2 =
      (extractTags K p x (.str s) topK withWeight allow withFlag io).2 := by
  have hc' : isWordChPos c = false := by
    simp only [isWordCh, isWordChPos, Bool.or_eq_false_iff] at *
    tauto
  have h2' : ∀ n, ¬ (c = 0x0D ∧ (copies s c n).head? = some 0x0A) := by
    rintro n ⟨rfl, h⟩
    rcases copies_head s _ n _ h with h | h
    · exact h2 ⟨rfl, h⟩
    · exact absurd h (by decide)
  have short : ∀ stop, ¬ Accepts K.lower stop [c] := by
    rintro stop ⟨h, -⟩
    have := List.length_filter_le (fun c => !isSpace c) [c]
    simp only [List.length_singleton] at this
    omega
  -- what is known about the copies
  have key : cutErr K p x (.str (copies s c n)) allow io = cutErr K p x (.str s) allow io ∧
      (cutErr K p x (.str s) allow io = none →
        occ K p x (.str (copies s c n)) allow withFlag io =
          occ K p x (.str s) allow withFlag io ++ (List.replicate n (occ K p x (.str s) allow withFlag io)).flatten) := by
    unfold cutErr occ
    by_cases ha : allow = []
    · simp only [if_pos ha, cutW_of_init K.pos.sys p.w x.tok false true io _ hi]
      have hcp := gen_copies (fun s => Jieba.cut (p.w.env K.pos.sys x.tok) false true (strdecode K.pos.sys.gbk (.str s))) [c] s c
        (fun n => C15_cut_around_separator _ true s (copies s c n) c hc h1 (h2' n)) n
      refine ⟨hcp.1, fun he => ?_⟩
      rw [hcp.2 he]
      unfold acceptedWords
      rw [List.filter_append, List.map_append, List.filter_flatten, List.map_flatten, List.map_replicate, List.map_replicate,
        List.filter_cons_of_neg (by simpa using short x.stop)]
    · simp only [if_neg ha, cutPW_of_init K.pos p x.pos true io _ hi']
      have hcp := gen_copies (fun s => Pos.cut ((moveTags p x.pos).env K.pos x.pos) true (strdecode K.pos.sys.gbk (.str s))) ([c], lit ['x']) s c
        (fun n => C15_posseg_around_separator _ true s (copies s c n) c hc' h1 (h2' n)) n
      refine ⟨hcp.1, fun he => ?_⟩
      rw [hcp.2 he]
      unfold acceptedPairs
      rw [List.filter_append, List.map_append, List.filter_flatten, List.map_flatten, List.map_replicate, List.map_replicate,
        List.filter_cons_of_neg]
      simp only [decide_eq_true_eq, not_and]
      exact fun _ => short x.stop
  cases he : cutErr K p x (.str s) allow io with
  | some e =>
    rw [C50_segmentation_fails K p x _ topK withWeight allow withFlag io e he,
      C50_segmentation_fails K p x _ topK withWeight allow withFlag io e (key.1.trans he)]
  | none =>
    have ho := key.2 he
    symm
    refine C79_proportions K hA p p x _ _ topK withWeight allow withFlag io io he (key.1.trans he) ?_ ?_ ?_
    · intro k
      rw [ho, List.mem_append]
      constructor
      · exact Or.inl
      · rintro (h | h)
        · exact h
        · obtain ⟨l, hl, hk⟩ := List.mem_flatten.mp h
          rw [List.mem_replicate] at hl
          rw [← hl.2]; exact hk
    · intro a ha b hb h
      rwa [ho, idxOf_append_left _ _ a ha, idxOf_append_left _ _ b hb] at h
    · intro k
      rw [ho]
      simp only [List.count_append, List.length_append, List.count_flatten, List.length_flatten, List.map_replicate, List.sum_replicate,
        smul_eq_mul]
      ring

/-- The initialised sample tokenizers. -/
def readyRat : PWorld := { ratPWorld with w := (initTok ratSys ratPWorld.w 0 none true).1 }

/-- 北京大学，大学 once and three times, separated by spaces. -/
example : Exact ratKSys.pos.sys.A ∧ (readyRat.w.tok ratTfidf.tok).initialized = true ∧
    (readyRat.w.tok (readyRat.pos ratTfidf.pos).tok).initialized = true ∧ isWordCh 0x20 = false ∧
    copies (lit ['北', '京', '大', '学', '，', '大', '学']) 0x20 2 = lit ['北', '京', '大', '学', '，', '大', '学', ' ',
      '北', '京', '大', '学', '，', '大', '学', ' ', '北', '京', '大', '学', '，', '大', '学'] ∧
    (extractTags ratKSys readyRat ratTfidf (.str (lit ['北', '京', '大', '学', '，', '大', '学'])) none true [] false true).2 =
      .ok [(.word (lit ['大', '学']), some (10 / 3)), (.word (lit ['北', '京']), some 1)] :=
  ⟨ratArith_exact, by decide +kernel, by decide +kernel, by decide +kernel, by decide +kernel, by decide +kernel⟩

end
end Jieba.Props
