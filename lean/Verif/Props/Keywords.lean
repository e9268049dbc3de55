import Mathlib.Data.List.Dedup
import Mathlib.Algebra.BigOperators.Group.Finset.Basic
import Verif.Proofs.Keywords
import Verif.Proofs.Fields
import Verif.Proofs.WorldLossless
import Verif.Props.SampleKeywords
/-!
# C47–C52: keyword extraction with TF-IDF
-/

set_option linter.unusedSectionVars false

namespace Jieba.Props
open Jieba Jieba.Spec Jieba.Pos Jieba.Analyse

/-- The accepted occurrences of words in a text. -/
def occ {F : Type _} [LinearOrder F] (K : KSys F) (p : PWorld) (x : Tfidf F) (s : PyText) (allow : List Str) (withFlag io : Bool) : List Key :=
  if allow = [] then acceptedWords K.lower x.stop (cutW K.pos.sys p.w x.tok false true s io).2.out
  else acceptedPairs K.lower x.stop allow withFlag (cutPW K.pos p x.pos true s io).2.out

/-- How the segmentation that `extract_tags` uses ends. -/
def cutErr {F : Type _} [LinearOrder F] (K : KSys F) (p : PWorld) (x : Tfidf F) (s : PyText) (allow : List Str) (io : Bool) : Option PyErr :=
  if allow = [] then (cutW K.pos.sys p.w x.tok false true s io).2.err else (cutPW K.pos p x.pos true s io).2.err

section
variable {F : Type _} [LinearOrder F]

theorem candidates_occ (K : KSys F) (p : PWorld) (x : Tfidf F) (s : PyText) (allow : List Str) (withFlag io : Bool) :
    (candidates K p x.tok x.pos s allow withFlag io).2.out.filter (keeps K x.stop) = occ K p x s allow withFlag io := by
  unfold occ
  split
  · next h => subst h; exact candidates_words _ _ _ _ _ _ _ _
  · next h => exact candidates_pairs _ _ _ _ _ _ h _ _ _

theorem candidates_err (K : KSys F) (p : PWorld) (x : Tfidf F) (s : PyText) (allow : List Str) (withFlag io : Bool) :
    (candidates K p x.tok x.pos s allow withFlag io).2.err = cutErr K p x s allow io := by
  unfold cutErr candidates
  split <;> rfl

/-- The result of `extract_tags` in terms of the accepted occurrences. -/
theorem extractTags_eq (K : KSys F) (p : PWorld) (x : Tfidf F) (s : PyText) (topK : Option Int) (withWeight : Bool)
    (allow : List Str) (withFlag io : Bool) :
    (extractTags K p x s topK withWeight allow withFlag io).2 =
      match cutErr K p x s allow io with
      | some e => .error e
      | none => match scaleBy K.pos.sys.A x.idf x.median
            ((countKeys K.pos.sys.A (occ K p x s allow withFlag io)).values.foldl K.pos.sys.A.add K.pos.sys.A.zero)
            (countKeys K.pos.sys.A (occ K p x s allow withFlag io)) with
        | .error e => .error e
        | .ok freq => (rankTags freq withWeight).map (topOf topK) := by
  unfold extractTags
  simp only [candidates_occ, candidates_err]
  cases cutErr K p x s allow io <;> rfl

theorem topOf_map {α β : Type _} (f : α → β) (k : Option Int) (l : List α) : topOf k (l.map f) = (topOf k l).map f := by
  unfold topOf sliceTo
  cases k with
  | none => rfl
  | some k => simp only []; repeat' split
              all_goals simp [List.map_take]

/-! ## C49 -/

/-- C49: without weights, `extract_tags` returns the words that it returns with weights, in the same order, or raises the same
exception, and leaves the process in the same state. -/
theorem C49_with_weight_only_adds_weights (K : KSys F) (p : PWorld) (x : Tfidf F) (s : PyText) (topK : Option Int)
    (allow : List Str) (withFlag io : Bool) :
    extractTags K p x s topK false allow withFlag io =
      ((extractTags K p x s topK true allow withFlag io).1,
        (extractTags K p x s topK true allow withFlag io).2.map (fun l => l.map (fun e => (e.1, none)))) := by
  refine Prod.ext rfl ?_
  simp only [extractTags_eq]
  cases cutErr K p x s allow io with
  | some e => rfl
  | none =>
    simp only []
    split
    · rfl
    · next freq h =>
      have hk := scaleBy_keys _ _ _ _ _ _ h
      rw [rankTags_weights, rankTags_words _ (by rw [hk]; exact countKeys_nodup _ _)]
      simp only [Except.map]
      rw [topOf_map, topOf_map, List.map_map]
      rfl

/-! ## C48 -/

theorem keys_of_result (K : KSys F) (p : PWorld) (x : Tfidf F) (s : PyText) (allow : List Str) (withFlag io : Bool)
    (l : List (Key × Option F)) (h : (extractTags K p x s none true allow withFlag io).2 = .ok l) :
    ∃ d : PyDict Key F, d.keys = (countKeys K.pos.sys.A (occ K p x s allow withFlag io)).keys ∧
      l = (sortBy (fun a b => decide (b.2 ≤ a.2)) d).map (fun e => (e.1, some e.2)) := by
  rw [extractTags_eq] at h
  split at h
  · cases h
  · split at h
    · cases h
    · next freq hs =>
      rw [rankTags_weights] at h
      simp only [Except.map, topOf, Except.ok.injEq] at h
      exact ⟨freq, scaleBy_keys _ _ _ _ _ _ hs, h.symm⟩

/-- C48: no keyword is returned twice. -/
theorem C48_distinct (K : KSys F) (p : PWorld) (x : Tfidf F) (s : PyText) (allow : List Str) (withFlag io : Bool)
    (l : List (Key × Option F)) (h : (extractTags K p x s none true allow withFlag io).2 = .ok l) : (l.map Prod.fst).Nodup := by
  obtain ⟨d, hd, rfl⟩ := keys_of_result K p x s allow withFlag io l h
  rw [List.map_map]
  have : (Prod.fst ∘ fun e : Key × F => (e.1, some e.2)) = Prod.fst := rfl
  rw [this, ((sortBy_perm _ d).map Prod.fst).nodup_iff]
  have := countKeys_nodup K.pos.sys.A (occ K p x s allow withFlag io)
  rwa [← hd] at this

/-- C48: keywords come in order of decreasing weight, and those of equal weight in order of their first occurrence. -/
theorem C48_sorted (K : KSys F) (p : PWorld) (x : Tfidf F) (s : PyText) (allow : List Str) (withFlag io : Bool)
    (l : List (Key × Option F)) (h : (extractTags K p x s none true allow withFlag io).2 = .ok l) :
    l.Pairwise (Ahead (occ K p x s allow withFlag io)) := by
  obtain ⟨d, hd, rfl⟩ := keys_of_result K p x s allow withFlag io l h
  rw [List.pairwise_map]
  have ho := countKeys_order K.pos.sys.A (occ K p x s allow withFlag io)
  rw [← hd, PyDict.keys, List.pairwise_map] at ho
  refine (sortBy_pairwise (fun e : Key × F => e.2) _ d ho).imp ?_
  intro a b hab
  exact ⟨a.2, b.2, rfl, rfl, hab⟩

/-- C48: `topK=k` returns the first `k` of all keywords. -/
theorem C48_topK (K : KSys F) (p : PWorld) (x : Tfidf F) (s : PyText) (withWeight : Bool) (allow : List Str) (withFlag io : Bool)
    (k : Nat) (hk : 0 < k) :
    extractTags K p x s (some k) withWeight allow withFlag io =
      ((extractTags K p x s none withWeight allow withFlag io).1,
        (extractTags K p x s none withWeight allow withFlag io).2.map (List.take k)) := by
  refine Prod.ext rfl ?_
  simp only [extractTags_eq]
  repeat' split
  all_goals try rfl
  rename_i freq hs
  cases rankTags freq withWeight with
  | error e => rfl
  | ok l =>
    simp only [Except.map, topOf, sliceTo]
    rw [if_neg (by omega), if_pos (by omega)]
    rfl

/-- C48: `topK=0` means all keywords, like `topK=None`. -/
theorem C48_topK_zero (K : KSys F) (p : PWorld) (x : Tfidf F) (s : PyText) (withWeight : Bool) (allow : List Str) (withFlag io : Bool) :
    extractTags K p x s (some 0) withWeight allow withFlag io = extractTags K p x s none withWeight allow withFlag io := rfl

/-- C48: a negative `topK` drops that many keywords at the end. -/
theorem C48_topK_negative (K : KSys F) (p : PWorld) (x : Tfidf F) (s : PyText) (withWeight : Bool) (allow : List Str) (withFlag io : Bool)
    (k : Nat) (hk : 0 < k) :
    extractTags K p x s (some (-k)) withWeight allow withFlag io =
      ((extractTags K p x s none withWeight allow withFlag io).1,
        (extractTags K p x s none withWeight allow withFlag io).2.map (fun l => l.take (l.length - k))) := by
  refine Prod.ext rfl ?_
  simp only [extractTags_eq]
  repeat' split
  all_goals try rfl
  rename_i freq hs
  cases rankTags freq withWeight with
  | error e => rfl
  | ok l =>
    simp only [Except.map, topOf, sliceTo]
    rw [if_neg (by omega), if_neg (by omega)]
    simp

/-- Two keywords of equal weight (in order of occurrence) behind one of higher weight. -/
example : (extractTags ratKSys ratPWorld { ratTfidf with idf := [] }
      (.str (lit ['大', '学', '和', '北', '京', 'i', 'd', 'I', 'D', '大', '学', ' ', 't', 'h', 'E'])) none true [] false true).2 =
    .ok [(.word (lit ['大', '学']), some (5 / 2)), (.word (lit ['北', '京']), some (5 / 4)), (.word (lit ['i', 'd', 'I', 'D']), some (5 / 4))] := by
  decide +kernel

/-! ## C47 -/

theorem result_mem (K : KSys F) (p : PWorld) (x : Tfidf F) (s : PyText) (topK : Option Int) (withWeight : Bool)
    (allow : List Str) (withFlag io : Bool) (l : List (Key × Option F))
    (h : (extractTags K p x s topK withWeight allow withFlag io).2 = .ok l) (e : Key × Option F) (he : e ∈ l) :
    e.1 ∈ occ K p x s allow withFlag io := by
  rw [extractTags_eq] at h
  split at h
  · cases h
  · split at h
    · cases h
    · next freq hs =>
      have hk := scaleBy_keys _ _ _ _ _ _ hs
      have hn : freq.keys.Nodup := by rw [hk]; exact countKeys_nodup _ _
      have htop : ∀ r : List (Key × Option F), e ∈ topOf topK r → e ∈ r := by
        intro r hr
        unfold topOf sliceTo at hr
        repeat' split at hr
        all_goals first | exact hr | exact List.mem_of_mem_take hr
      have hkey : ∀ f : F → Option F, e ∈ (sortBy (fun a b => decide (b.2 ≤ a.2)) freq).map (fun e => (e.1, f e.2)) →
          e.1 ∈ occ K p x s allow withFlag io := by
        intro f hf
        obtain ⟨e', he', rfl⟩ := List.mem_map.mp hf
        have : e'.1 ∈ freq.keys := List.mem_map_of_mem ((sortBy_perm _ _).mem_iff.mp he')
        rw [hk] at this
        exact (countKeys_mem _ _ _).mp this
      cases withWeight
      · rw [rankTags_words _ hn] at h
        simp only [Except.map, Except.ok.injEq] at h
        subst h
        exact hkey (fun _ => none) (htop _ he)
      · rw [rankTags_weights] at h
        simp only [Except.map, Except.ok.injEq] at h
        subst h
        exact hkey some (htop _ he)

theorem infix_of_lossless {g : Gen Str} {s w : Str} (h : Lossless g s) (hw : w ∈ g.out) : w <:+: s := by
  have h1 : w <:+: g.out.flatten := by
    obtain ⟨a, b, hab⟩ := List.append_of_mem hw
    exact ⟨a.flatten, b.flatten, by rw [hab]; simp⟩
  exact h1.trans h.isPrefix.isInfix

/-- C47: without `allowPOS`, every keyword is a token of the text (hence a part of it), contains at least two characters that are
not white space, and is not a stop word in lower case; whatever `topK` and `withWeight`. -/
theorem C47_keywords_pass_filter (K : KSys F) (p : PWorld) (x : Tfidf F) (s : PyText) (topK : Option Int) (withWeight : Bool)
    (withFlag io : Bool) (l : List (Key × Option F)) (h : (extractTags K p x s topK withWeight [] withFlag io).2 = .ok l)
    (e : Key × Option F) (he : e ∈ l) :
    ∃ w, e.1 = .word w ∧ w ∈ (cutW K.pos.sys p.w x.tok false true s io).2.out ∧ w <:+: strdecode K.pos.sys.gbk s ∧
      2 ≤ (w.filter (fun c => !isSpace c)).length ∧ K.lower w ∉ x.stop := by
  have := result_mem K p x s topK withWeight [] withFlag io l h e he
  simp only [occ, if_true, acceptedWords, List.mem_map, List.mem_filter, decide_eq_true_eq] at this
  obtain ⟨w, ⟨h1, h2⟩, h3⟩ := this
  exact ⟨w, h3.symm, h1, infix_of_lossless (cutW_lossless _ _ _ _ _ _) h1, h2⟩

/-- C47 with `allowPOS`: moreover the keyword is a token that the POS tokenizer gives an allowed flag. -/
theorem C47_keywords_pass_filter_flags (K : KSys F) (hT : PosData.Shipped K.pos.tables) (hσ : ∀ s t l, (K.pos.σ s t l).Perm l)
    (p : PWorld) (x : Tfidf F) (s : PyText) (topK : Option Int) (withWeight : Bool)
    (allow : List Str) (ha : allow ≠ []) (withFlag io : Bool) (l : List (Key × Option F))
    (h : (extractTags K p x s topK withWeight allow withFlag io).2 = .ok l) (e : Key × Option F) (he : e ∈ l) :
    ∃ w flag, (w, flag) ∈ (cutPW K.pos p x.pos true s io).2.out ∧ flag ∈ allow ∧
      e.1 = (if withFlag then Key.pair w flag else Key.word w) ∧ w <:+: strdecode K.pos.sys.gbk s ∧
      2 ≤ (w.filter (fun c => !isSpace c)).length ∧ K.lower w ∉ x.stop := by
  have := result_mem K p x s topK withWeight allow withFlag io l h e he
  simp only [occ, if_neg ha, acceptedPairs, List.mem_map, List.mem_filter, decide_eq_true_eq] at this
  obtain ⟨w, ⟨h1, h2⟩, h3⟩ := this
  refine ⟨w.1, w.2, h1, h2.1, h3.symm, infix_of_lossless (cutPW_lossless K.pos hT hσ p x.pos true s io) ?_, h2.2⟩
  exact List.mem_map_of_mem (f := Prod.fst) h1

/-- Only 大学 (n) passes the filter for 'n', and THE, thE and 和 are never accepted. -/
example : (extractTags ratKSys ratPWorld ratTfidf
      (.str (lit ['大', '学', '和', '北', '京', '大', '学', 'T', 'H', 'E', ' ', 't', 'h', 'E'])) none true [lit ['n']] true true).2 =
    .ok [(.pair (lit ['大', '学']) (lit ['n']), some 5)] := by decide +kernel

example : (extractTags ratKSys ratPWorld ratTfidf
      (.str (lit ['大', '学', '和', '北', '京', '大', '学', 'T', 'H', 'E', ' ', 't', 'h', 'E'])) (some 1) false [] false true).2 =
    .ok [(.word (lit ['大', '学']), none)] := by decide +kernel

/-! ## C51 -/

/-- A sequence of `set_stop_words` calls, each with the files as they are at that time. -/
def stopHistory (K : KSys F) (stop : List Str) (calls : List (World × Path)) : List Str :=
  calls.foldl (fun stop c => (setStopWords K c.1 stop c.2).1) stop

theorem mem_addLines (ls : List Str) (stop : List Str) (v : Str) :
    v ∈ ls.foldl (fun s l => if l ∈ s then s else s ++ [l]) stop ↔ v ∈ stop ∨ v ∈ ls := by
  induction ls generalizing stop with
  | nil => simp
  | cons l ls ih =>
    rw [List.foldl_cons, ih]
    split
    · next h =>
      simp only [List.mem_cons]
      constructor
      · rintro (h1 | h1) <;> simp [h1]
      · rintro (h1 | rfl | h1) <;> simp [*]
    · simp only [List.mem_append, List.mem_cons, List.not_mem_nil, or_false, or_assoc]

/-- C51: whatever calls of `set_stop_words` are made, successful or not, no stop word is lost. -/
theorem C51_stop_words_accumulate (K : KSys F) (stop : List Str) (calls : List (World × Path)) (v : Str) (hv : v ∈ stop) :
    v ∈ stopHistory K stop calls := by
  unfold stopHistory
  induction calls generalizing stop with
  | nil => exact hv
  | cons c calls ih =>
    rw [List.foldl_cons]
    apply ih
    unfold setStopWords
    repeat' split
    all_goals try exact hv
    exact (mem_addLines _ _ _).mpr (Or.inl hv)

/-- C51: hence what is accepted after the calls was accepted before. -/
theorem C51_filtered_stay_filtered (K : KSys F) (stop : List Str) (calls : List (World × Path)) (w : Str)
    (h : Accepts K.lower (stopHistory K stop calls) w) : Accepts K.lower stop w :=
  ⟨h.1, fun hs => h.2 (C51_stop_words_accumulate K stop calls _ hs)⟩

/-- C51: a successful call adds exactly the lines of the file. -/
theorem C51_adds_lines (K : KSys F) (w : World) (stop : List Str) (path : Path) (h : (setStopWords K w stop path).2 = .ok ()) :
    ∃ f content ls, w.files (K.pos.sys.abspath path) = some f ∧ utf8Encode content = some f.data ∧ TextLines content ls ∧
      ∀ v, v ∈ (setStopWords K w stop path).1 ↔ v ∈ stop ∨ v ∈ ls := by
  unfold setStopWords at h ⊢
  split at h
  · cases h
  · next f hf =>
    split at h
    · cases h
    · next content hc =>
      refine ⟨f, content, _, hf, utf8_encode_decode _ _ hc, splitlines_spec content, ?_⟩
      intro v
      exact mem_addLines _ _ _

/-- C51: a call fails exactly when the file is missing or not UTF-8, and then no stop word is added. -/
theorem C51_raises (K : KSys F) (w : World) (stop : List Str) (path : Path) (e : PyErr) (h : (setStopWords K w stop path).2 = .error e) :
    (setStopWords K w stop path).1 = stop ∧
      ((e = .exception ∧ w.files (K.pos.sys.abspath path) = none) ∨
       (e = .unicodeDecodeError ∧ ∃ f, w.files (K.pos.sys.abspath path) = some f ∧ ∀ content, utf8Encode content ≠ some f.data)) := by
  unfold setStopWords at h ⊢
  split at h
  · next hf =>
    cases h
    simp only [hf, and_self, true_or]
  · next f hf =>
    split at h
    · next hd =>
      cases h
      simp only [hf, true_and]
      refine Or.inr ⟨f, rfl, ?_⟩
      intro content hc
      rw [utf8_decode_encode _ _ hc] at hd
      cases hd
    · cases h

/-- C51, negative part: a stop word containing an ASCII capital letter has no effect on the filter, for any words. -/
theorem C51_capital_stop_word_no_effect (K : KSys F) (stop : List Str) (v : Str) (c : Ch) (hc : c ∈ v) (hu : isUpper c = true) (w : Str) :
    Accepts K.lower (v :: stop) w ↔ Accepts K.lower stop w := by
  unfold Accepts
  have : K.lower w ≠ v := by
    rintro rfl
    have := K.lower_upper w c hc
    rw [hu] at this; cases this
  simp [this]

/-- The same for whole results: adding such stop words changes nothing. -/
theorem C51_capital_stop_words_same_result (K : KSys F) (p : PWorld) (x : Tfidf F) (vs : List Str)
    (hv : ∀ v ∈ vs, ∃ c ∈ v, isUpper c = true) (s : PyText) (topK : Option Int) (withWeight : Bool) (allow : List Str) (withFlag io : Bool) :
    extractTags K p { x with stop := vs ++ x.stop } s topK withWeight allow withFlag io =
      extractTags K p x s topK withWeight allow withFlag io := by
  have hacc : ∀ w, Accepts K.lower (vs ++ x.stop) w ↔ Accepts K.lower x.stop w := by
    intro w
    induction vs with
    | nil => rfl
    | cons v vs ih =>
      obtain ⟨c, hc, hu⟩ := hv v List.mem_cons_self
      rw [List.cons_append, C51_capital_stop_word_no_effect K _ v c hc hu w]
      exact ih (fun v h => hv v (List.mem_cons_of_mem _ h))
  refine Prod.ext rfl ?_
  have ho : occ K p { x with stop := vs ++ x.stop } s allow withFlag io = occ K p x s allow withFlag io := by
    unfold occ acceptedWords acceptedPairs
    simp only [hacc]
  rw [extractTags_eq, extractTags_eq, ho]
  rfl

example : (extractTags ratKSys ratPWorld { ratTfidf with stop := [lit ['I', 'D']] } (.str (lit ['I', 'D'])) none false [] false true).2 =
    .ok [(.word (lit ['I', 'D']), none)] := by decide +kernel

example : (setStopWords ratKSys { sampleWorld with files := fun _ => some ⟨[0x49, 0x44, 10, 0xE5, 0x92, 0x8C, 13, 10], 0⟩ }
    [lit ['t', 'h', 'e']] (lit ['s'])).1 = [lit ['t', 'h', 'e'], lit ['I', 'D'], lit ['和']] := by decide +kernel

/-! ## C52 -/

/-- The value on the last line for `v`. -/
def lastIdf (es : List (Str × F)) (v : Str) : Option F := (es.reverse.find? (fun e => e.1 == v)).map Prod.snd

/-- `m` is an upper median of the values: at most half of them are below `m`, and more than half are not above it. -/
def IsMedian (m : F) (vs : List F) : Prop :=
  m ∈ vs ∧ 2 * (vs.filter (fun v => v < m)).length ≤ vs.length ∧ vs.length < 2 * (vs.filter (fun v => v ≤ m)).length

theorem insertBy_sorted (x : F) (l : List F) (h : l.Pairwise (· ≤ ·)) :
    (insertBy (fun a b => decide (a ≤ b)) x l).Pairwise (· ≤ ·) := by
  induction l with
  | nil => exact List.pairwise_singleton _ _
  | cons y l ih =>
    rw [List.pairwise_cons] at h
    simp only [insertBy]
    split
    · next hxy =>
      have hxy : x ≤ y := by simpa using hxy
      refine List.pairwise_cons.mpr ⟨?_, List.pairwise_cons.mpr h⟩
      intro z hz
      rcases List.mem_cons.mp hz with rfl | hz
      · exact hxy
      · exact le_trans hxy (h.1 z hz)
    · next hxy =>
      have hyx : y ≤ x := le_of_lt (by simpa using hxy)
      refine List.pairwise_cons.mpr ⟨?_, ih h.2⟩
      intro z hz
      rcases List.mem_cons.mp ((insertBy_perm _ x l).mem_iff.mp hz) with rfl | hz
      · exact hyx
      · exact h.1 z hz

theorem sortBy_sorted (l : List F) : (sortBy (fun a b => decide (a ≤ b)) l).Pairwise (· ≤ ·) := by
  induction l with
  | nil => exact List.Pairwise.nil
  | cons x l ih => exact insertBy_sorted x _ ih

theorem isMedian_of_sorted (m : F) (vs : List F) (h : (sortBy (fun a b => decide (a ≤ b)) vs)[vs.length / 2]? = some m) :
    IsMedian m vs := by
  have hp := sortBy_perm (fun a b : F => decide (a ≤ b)) vs
  have hs := sortBy_sorted vs
  generalize sortBy (fun a b : F => decide (a ≤ b)) vs = l at h hp hs
  have hlen := hp.length_eq
  obtain ⟨hi, hm⟩ := List.getElem?_eq_some_iff.mp h
  refine ⟨hp.mem_iff.mp (hm ▸ List.getElem_mem hi), ?_, ?_⟩
  · rw [← (hp.filter _).length_eq]
    have : l.filter (fun v => v < m) = (l.take (vs.length / 2)).filter (fun v => v < m) := by
      conv_lhs => rw [← List.take_append_drop (vs.length / 2) l]
      rw [List.filter_append]
      convert List.append_nil _
      rw [List.filter_eq_nil_iff]
      intro v hv
      obtain ⟨j, hj, rfl⟩ := List.getElem_of_mem hv
      rw [List.getElem_drop]
      have : m ≤ l[vs.length / 2 + j]'(by rw [List.length_drop] at hj; omega) := by
        rw [← hm]
        by_cases h0 : j = 0
        · subst h0; simp
        · exact List.pairwise_iff_getElem.mp hs _ _ _ _ (by omega)
      simpa using this
    rw [this]
    have := List.length_filter_le (fun v => decide (v < m)) (l.take (vs.length / 2))
    rw [List.length_take] at this
    omega
  · rw [← (hp.filter _).length_eq]
    have h1 : (l.take (vs.length / 2 + 1)).filter (fun v => decide (v ≤ m)) = l.take (vs.length / 2 + 1) := by
      rw [List.filter_eq_self]
      intro v hv
      obtain ⟨j, hj, rfl⟩ := List.getElem_of_mem hv
      rw [List.getElem_take]
      rw [List.length_take] at hj
      have : l[j]'(by omega) ≤ m := by
        rw [← hm]
        by_cases h0 : j = vs.length / 2
        · subst h0; exact le_refl _
        · exact List.pairwise_iff_getElem.mp hs _ _ _ _ (by omega)
      simpa using this
    have h2 : ((l.take (vs.length / 2 + 1)).filter (fun v => decide (v ≤ m))).length ≤ (l.filter (fun v => decide (v ≤ m))).length :=
      ((List.take_sublist _ _).filter _).length_le
    rw [h1, List.length_take] at h2
    omega

theorem idfLoop_ok (K : KSys F) (ls : List Str) (es : List (Str × F)) (h : ls.map (idfLine K) = es.map some) (d : PyDict Str F) :
    (idfLoop K ls d).2 = .ok () ∧ ∀ v, (idfLoop K ls d).1.get? v = (lastIdf es v).or (d.get? v) := by
  induction ls generalizing es d with
  | nil =>
    cases es with
    | nil => exact ⟨rfl, fun v => rfl⟩
    | cons e es => simp at h
  | cons l ls ih =>
    cases es with
    | nil => simp at h
    | cons e es =>
      simp only [List.map_cons, List.cons.injEq] at h
      obtain ⟨w, x⟩ := e
      simp only [idfLoop, h.1]
      obtain ⟨h1, h2⟩ := ih es h.2 (d.set w x)
      refine ⟨h1, fun v => ?_⟩
      rw [h2 v, PyDict.get?_set]
      unfold lastIdf
      rw [List.reverse_cons, List.find?_append]
      cases es.reverse.find? (fun e => e.1 == v) with
      | some y => rfl
      | none => by_cases hv : w = v <;> simp [hv]

theorem idfLoop_err (K : KSys F) (ls : List Str) (l : Str) (hl : l ∈ ls) (h : idfLine K l = none) (d : PyDict Str F) :
    (idfLoop K ls d).2 = .error .valueError := by
  induction ls generalizing d with
  | nil => cases hl
  | cons a ls ih =>
    simp only [idfLoop]
    cases ha : idfLine K a with
    | none => rfl
    | some e =>
      rcases List.mem_cons.mp hl with rfl | hl
      · rw [h] at ha; cases ha
      · exact ih hl _

/-- The lines either all parse or not. -/
theorem idf_lines (K : KSys F) (ls : List Str) :
    (∃ es : List (Str × F), ls.map (idfLine K) = es.map some) ∨ ∃ l ∈ ls, idfLine K l = none := by
  induction ls with
  | nil => exact Or.inl ⟨[], rfl⟩
  | cons l ls ih =>
    cases hl : idfLine K l with
    | none => exact Or.inr ⟨l, List.mem_cons_self, hl⟩
    | some e =>
      rcases ih with ⟨es, h⟩ | ⟨a, ha, h⟩
      · exact Or.inl ⟨e :: es, by simp [hl, h]⟩
      · exact Or.inr ⟨a, List.mem_cons_of_mem _ ha, h⟩

/-- A line of an idf file: exactly a word and a number (`float()` accepts it), with one space between them. -/
def IdfEntry (K : KSys F) (line : Str) (word : Str) (x : F) : Prop :=
  ∃ mid n, TrimmedBy isSpace line mid ∧ FieldsOf 0x20 mid [word, n] ∧ K.float n = some x

/-- `set_new_path` when it loads a file and returns. -/
theorem setNewPath_ok (K : KSys F) (L L' : Loader F) (path : Path) (data : Bytes) (hp : L.path ≠ path)
    (h : setNewPath K L path data = (L', .ok ())) :
    L'.path = path ∧ ∃ (content : Str) (ls : List Str) (es : List (Str × F)),
      utf8Encode content = some data ∧ TextLines content ls ∧ List.Forall₂ (fun l e => IdfEntry K l e.1 e.2) ls es ∧
      (∀ v, L'.freq.get? v = lastIdf es v) ∧ IsMedian L'.median L'.freq.values := by
  unfold setNewPath at h
  rw [if_neg hp] at h
  cases hc : utf8Decode data with
  | none => rw [hc] at h; cases h
  | some content =>
    rw [hc] at h
    simp only [] at h
    rcases idf_lines K (splitlines content) with ⟨es, hes⟩ | ⟨l, hl, hn⟩
    · obtain ⟨h1, h2⟩ := idfLoop_ok K _ es hes []
      generalize idfLoop K (splitlines content) [] = r at h h1 h2
      obtain ⟨d, r⟩ := r
      simp only [] at h1 h2
      subst h1
      simp only [] at h
      cases hm : (sortBy (fun a b => decide (a ≤ b)) d.values)[d.length / 2]? with
      | none => rw [hm] at h; cases h
      | some m =>
        rw [hm] at h
        cases h
        refine ⟨rfl, content, _, es, utf8_encode_decode _ _ hc, splitlines_spec content,
          ((map_some_iff _ _ _).mp hes).imp (fun l e h => (idfLine_iff K l e.1 e.2).mpr h), fun v => by rw [h2 v]; simp, ?_⟩
        apply isMedian_of_sorted
        rw [show d.values.length = d.length from List.length_map _]
        exact hm
    · have := idfLoop_err K _ l hl hn []
      generalize idfLoop K (splitlines content) [] = r at h this
      obtain ⟨d, r⟩ := r
      simp only [] at this
      subst this
      cases h

/-- The ways in which the contents of an idf file are refused. -/
def IdfRefused (K : KSys F) (data : Bytes) (e : PyErr) : Prop :=
  ((∀ content, utf8Encode content ≠ some data) ∧ e = .unicodeDecodeError) ∨
  ∃ content ls, utf8Encode content = some data ∧ TextLines content ls ∧
    (((∃ l ∈ ls, ∀ v y, ¬ IdfEntry K l v y) ∧ e = .valueError) ∨ (ls = [] ∧ e = .indexError))

theorem setNewPath_error (K : KSys F) (L : Loader F) (path : Path) (data : Bytes) (hp : L.path ≠ path) (e : PyErr) :
    (setNewPath K L path data).2 = .error e ↔ IdfRefused K data e := by
  unfold setNewPath IdfRefused
  simp only [if_neg hp, utf8_iff, textLines_iff, ne_eq]
  cases hc : utf8Decode data with
  | none =>
    simp only [reduceCtorEq, not_false_eq_true, implies_true, true_and, false_and, exists_false, or_false, Except.error.injEq]
    exact eq_comm
  | some content =>
    have hne : ¬ ∀ c, ¬ content = c := fun h => h content rfl
    simp only [Option.some.injEq, hne, false_and, false_or]
    have hex : (∃ c ls, content = c ∧ splitlines c = ls ∧
        (((∃ l ∈ ls, ∀ v y, ¬ IdfEntry K l v y) ∧ e = .valueError) ∨ (ls = [] ∧ e = .indexError))) ↔
        (((∃ l ∈ splitlines content, ∀ v y, ¬ IdfEntry K l v y) ∧ e = .valueError) ∨ (splitlines content = [] ∧ e = .indexError)) := by
      constructor
      · rintro ⟨_, _, rfl, rfl, h⟩; exact h
      · intro h; exact ⟨_, _, rfl, rfl, h⟩
    rw [hex]
    clear hex
    generalize splitlines content = ls
    have hentry : ∀ l, (∀ v y, ¬ IdfEntry K l v y) ↔ idfLine K l = none := by
      intro l
      constructor
      · intro h
        cases hl : idfLine K l with
        | none => rfl
        | some a => exact (h a.1 a.2 ((idfLine_iff K l a.1 a.2).mpr hl)).elim
      · intro h v y hy
        have := (idfLine_iff K l v y).mp hy
        rw [h] at this; cases this
    simp only [hentry]
    rcases idf_lines K ls with ⟨es, hes⟩ | ⟨l, hl, hn⟩
    · have hbad : ¬ ∃ l ∈ ls, idfLine K l = none := by
        rintro ⟨l, hl, hn⟩
        have : idfLine K l ∈ es.map some := by rw [← hes]; exact List.mem_map_of_mem hl
        rw [hn] at this; simp at this
      simp only [hbad, false_and, false_or]
      obtain ⟨r1, r2⟩ := idfLoop_ok K ls es hes []
      generalize hr : idfLoop K ls [] = r at r1 r2
      obtain ⟨d, r⟩ := r
      simp only [] at r1 r2
      subst r1
      simp only []
      have hlen : (sortBy (fun a b => decide (a ≤ b)) d.values).length = d.length := by
        rw [(sortBy_perm _ _).length_eq]; exact List.length_map _
      have hd : d.length = 0 ↔ ls = [] := by
        constructor
        · intro h0
          cases ls with
          | nil => rfl
          | cons l ls =>
            cases es with
            | nil => simp at hes
            | cons a es =>
              have h1 := r2 a.1
              have : ((a :: es).reverse.find? (fun e' => e'.1 == a.1)).isSome := by
                rw [List.find?_isSome]; exact ⟨a, by simp, by simp⟩
              obtain ⟨y, hy⟩ := Option.isSome_iff_exists.mp this
              rw [List.length_eq_zero_iff.mp h0] at h1
              simp only [lastIdf, hy] at h1
              simp [PyDict.get?] at h1
        · rintro rfl
          simp only [idfLoop, Prod.mk.injEq] at hr
          rw [← hr.1]; rfl
      by_cases h0 : d.length = 0
      · rw [List.getElem?_eq_none (by omega)]
        simp only [hd.mp h0, true_and, Except.error.injEq]
        exact eq_comm
      · rw [List.getElem?_eq_getElem (by rw [hlen]; omega)]
        simp [← hd, h0]
    · have hls : ls ≠ [] := by rintro rfl; simp at hl
      have h1 := idfLoop_err K ls l hl hn []
      generalize idfLoop K ls [] = r at h1
      obtain ⟨d, r⟩ := r
      simp only [] at h1
      subst h1
      simp only [Except.error.injEq, hls, false_and, or_false]
      exact ⟨fun h => ⟨⟨l, hl, hn⟩, h.symm⟩, fun h => h.2.symm⟩

/-- C52: a call of `set_idf_path` that really loads a file and returns leaves exactly the entries of the file in use, the last one
of each word counting, and the median of the values as default. -/
theorem C52_set_idf_path (K : KSys F) (w : World) (x : Tfidf F) (path : Path) (hp : x.loader.path ≠ K.pos.sys.abspath path)
    (h : (setIdfPath K w x path).2 = .ok ()) :
    ∃ (f : File) (content : Str) (ls : List Str) (es : List (Str × F)), w.files (K.pos.sys.abspath path) = some f ∧
      utf8Encode content = some f.data ∧ TextLines content ls ∧ List.Forall₂ (fun l e => IdfEntry K l e.1 e.2) ls es ∧
      (∀ v, (setIdfPath K w x path).1.idf.get? v = lastIdf es v) ∧
      IsMedian (setIdfPath K w x path).1.median (setIdfPath K w x path).1.idf.values := by
  unfold setIdfPath at h ⊢
  cases hf : w.files (K.pos.sys.abspath path) with
  | none => rw [hf] at h; cases h
  | some f =>
    rw [hf] at h
    simp only [] at h ⊢
    rcases hL : setNewPath K x.loader (K.pos.sys.abspath path) f.data with ⟨L, r⟩
    rw [hL] at h
    cases r with
    | error e => cases h
    | ok u =>
      obtain ⟨-, content, ls, es, h1, h2, h3, h4, h5⟩ := setNewPath_ok K _ L _ _ hp hL
      exact ⟨f, content, ls, es, rfl, h1, h2, h3, h4, h5⟩

/-- A field of an idf file. -/
def WritableIdf (s : Str) : Prop := s ≠ [] ∧ ∀ c ∈ s, isSpace c = false

/-- The text of an idf file with the given lines `word number`. -/
def idfText (es : List (Str × Str)) : Str := (es.map (fun e => e.1 ++ 0x20 :: e.2 ++ [0x0A])).flatten

theorem lineBreak_space (c : Nat) (h : isLineBreak c = true) : isSpace c = true := by
  have h : ((0x0A ≤ c ∧ c ≤ 0x0D) ∨ (0x1C ≤ c ∧ c ≤ 0x1E) ∨ c = 0x85 ∨ c = 0x2028 ∨ c = 0x2029) := by
    simpa [isLineBreak, or_assoc] using h
  have : (0x09 ≤ c ∧ c ≤ 0x0D) ∨ (0x1C ≤ c ∧ c ≤ 0x20) ∨ c = 0x85 ∨ c = 0x2028 ∨ c = 0x2029 := by omega
  rcases this with h | h | h | h | h <;> simp [isSpace, h]

theorem splitlines_line (l : Str) (h : ∀ c ∈ l, isLineBreak c = false) (s acc : Str) :
    splitlines.go (l ++ 0x0A :: s) acc = (acc ++ l) :: splitlines.go s [] := by
  induction l generalizing acc with
  | nil => rw [List.nil_append, splitlines.go, if_pos (by decide), List.append_nil]; simp
  | cons c l ih =>
    have hc := h c List.mem_cons_self
    rw [List.cons_append, splitlines.go.eq_3]
    · rw [hc, if_neg (by simp), ih (fun c hc => h c (List.mem_cons_of_mem _ hc))]
      simp
    · intro s' h1 _
      subst h1
      simp [isLineBreak] at hc

/-- Lines without line breaks come back from `splitlines`. -/
theorem splitlines_unlines (ls : List Str) (h : ∀ l ∈ ls, ∀ c ∈ l, isLineBreak c = false) :
    splitlines ((ls.map (· ++ [0x0A])).flatten) = ls := by
  unfold splitlines
  induction ls with
  | nil => rfl
  | cons l ls ih =>
    rw [List.map_cons, List.flatten_cons, List.append_assoc]
    show splitlines.go (l ++ 0x0A :: (ls.map (· ++ [0x0A])).flatten) [] = _
    rw [splitlines_line l (h l List.mem_cons_self), ih (fun l hl => h l (List.mem_cons_of_mem _ hl))]
    rfl

/-- C51: the lines of a file that holds one stop word per line are exactly those stop words. -/
theorem C51_load_file (K : KSys F) (w : World) (stop : List Str) (path : Path) (ls : List Str)
    (hl : ∀ l ∈ ls, ∀ c ∈ l, isLineBreak c = false) (f : File) (hf : w.files (K.pos.sys.abspath path) = some f)
    (hd : utf8Encode ((ls.map (· ++ [0x0A])).flatten) = some f.data) :
    (setStopWords K w stop path).2 = .ok () ∧ ∀ v, v ∈ (setStopWords K w stop path).1 ↔ v ∈ stop ∨ v ∈ ls := by
  unfold setStopWords
  rw [hf]
  simp only [utf8_decode_encode _ _ hd, splitlines_unlines ls hl, mem_addLines]
  simp

theorem idfLine_render (K : KSys F) (w n : Str) (x : F) (hw : WritableIdf w) (hn : WritableIdf n) (hx : K.float n = some x) :
    idfLine K (w ++ 0x20 :: n) = some (w, x) := by
  have hs : stripBy isSpace (w ++ 0x20 :: n) = w ++ 0x20 :: n := by
    have := stripBy_append isSpace (w ++ 0x20 :: n) [] (by simp) ?_ ?_ (by simp)
    · simpa using this
    · intro c hc
      apply hw.2
      cases hw' : w with
      | nil => exact absurd hw' hw.1
      | cons d u => rw [hw'] at hc; simp at hc; simp [hc]
    · intro c hc
      apply hn.2
      rw [List.getLast?_append, List.getLast?_cons] at hc
      have h0 := List.getLast?_eq_some_getLast hn.1
      rw [h0] at hc
      simp at hc
      rw [← hc]; exact List.getLast_mem _
  have hsp : ∀ u : Str, WritableIdf u → (0x20 : Nat) ∉ u := by
    intro u hu h
    have := hu.2 _ h
    simp [isSpace] at this
  unfold idfLine
  rw [hs, splitOn1_cons _ _ _ (hsp w hw), splitOn1_none _ _ (hsp n hn)]
  simp [hx]

/-- C52, round trip: any file consisting of lines `word number` (without further blanks, at least one line) is accepted, and then
its entries are in use. -/
theorem C52_load_file (K : KSys F) (w : World) (x : Tfidf F) (path : Path) (hp : x.loader.path ≠ K.pos.sys.abspath path)
    (es : List (Str × Str × F)) (hne : es ≠ [])
    (he : ∀ e ∈ es, WritableIdf e.1 ∧ WritableIdf e.2.1 ∧ K.float e.2.1 = some e.2.2)
    (f : File) (hf : w.files (K.pos.sys.abspath path) = some f)
    (hd : utf8Encode (idfText (es.map (fun e => (e.1, e.2.1)))) = some f.data) :
    (setIdfPath K w x path).2 = .ok () ∧
      (∀ v, (setIdfPath K w x path).1.idf.get? v = lastIdf (es.map (fun e => (e.1, e.2.2))) v) ∧
      IsMedian (setIdfPath K w x path).1.median (setIdfPath K w x path).1.idf.values := by
  have hc := utf8_decode_encode _ _ hd
  have hlines : splitlines (idfText (es.map (fun e => (e.1, e.2.1)))) = es.map (fun e => e.1 ++ 0x20 :: e.2.1) := by
    have := splitlines_unlines (es.map (fun e => e.1 ++ 0x20 :: e.2.1)) ?_
    · rw [List.map_map] at this
      unfold idfText
      rw [List.map_map]
      exact this
    · intro l hl c hcl
      obtain ⟨e, hel, rfl⟩ := List.mem_map.mp hl
      obtain ⟨h1, h2, -⟩ := he e hel
      rcases List.mem_append.mp hcl with h | h
      · by_contra hb
        have := lineBreak_space c (by simpa using hb)
        rw [h1.2 c h] at this; cases this
      · rcases List.mem_cons.mp h with rfl | h
        · decide
        · by_contra hb
          have := lineBreak_space c (by simpa using hb)
          rw [h2.2 c h] at this; cases this
  have hparse : (splitlines (idfText (es.map (fun e => (e.1, e.2.1))))).map (idfLine K) =
      (es.map (fun e => (e.1, e.2.2))).map some := by
    rw [hlines, List.map_map, List.map_map]
    apply List.map_congr_left
    intro e hel
    obtain ⟨h1, h2, h3⟩ := he e hel
    exact idfLine_render K e.1 e.2.1 e.2.2 h1 h2 h3
  obtain ⟨r1, r2⟩ := idfLoop_ok K _ _ hparse []
  have hok : (setIdfPath K w x path).2 = .ok () := by
    unfold setIdfPath setNewPath
    rw [hf]
    simp only [if_neg hp, hc]
    generalize idfLoop K (splitlines (idfText (es.map (fun e => (e.1, e.2.1))))) [] = r at r1 r2
    obtain ⟨d, r⟩ := r
    simp only [] at r1 r2
    subst r1
    simp only []
    have hpos : 0 < d.length := by
      obtain ⟨e, hel⟩ := List.exists_mem_of_ne_nil es hne
      have h1 := r2 e.1
      have h2 : ∃ y, lastIdf (es.map (fun e => (e.1, e.2.2))) e.1 = some y := by
        unfold lastIdf
        have : ((es.map (fun e => (e.1, e.2.2))).reverse.find? (fun e' => e'.1 == e.1)).isSome := by
          rw [List.find?_isSome]
          exact ⟨(e.1, e.2.2), List.mem_reverse.mpr (List.mem_map_of_mem (f := fun e => (e.1, e.2.2)) hel), by simp⟩
        obtain ⟨y, hy⟩ := Option.isSome_iff_exists.mp this
        exact ⟨y.2, by rw [hy]; rfl⟩
      obtain ⟨y, hy⟩ := h2
      rw [hy] at h1
      cases d with
      | nil => simp [PyDict.get?] at h1
      | cons a d => simp
    have hlen : (sortBy (fun a b => decide (a ≤ b)) d.values).length = d.length := by
      rw [(sortBy_perm _ _).length_eq]; exact List.length_map _
    rw [List.getElem?_eq_getElem (by rw [hlen]; omega)]
  refine ⟨hok, ?_⟩
  obtain ⟨f', content, ls, es', h1, h2, hl, h3, h4, h5⟩ := C52_set_idf_path K w x path hp hok
  refine ⟨?_, h5⟩
  rw [hf] at h1
  cases h1
  rw [utf8_iff, hc] at h2
  cases h2
  rw [textLines_iff] at hl
  subst hl
  replace h3 := (map_some_iff _ _ _).mpr (h3.imp (fun l e h => (idfLine_iff K l e.1 e.2).mp h))
  rw [hparse] at h3
  have : es' = es.map (fun e => (e.1, e.2.2)) := by
    have hinj : Function.Injective (some : Str × F → Option (Str × F)) := Option.some_injective _
    exact (List.map_injective_iff.mpr hinj h3).symm
  rw [← this]
  exact h4

/-- C52, negative part: after a call that failed while loading a file, repeating the call returns normally whatever the file
now contains, and what it puts into use is the table left over by the failure. -/
theorem C52_repeat_after_failure (K : KSys F) (w : World) (x : Tfidf F) (path : Path) (e : PyErr)
    (h : (setIdfPath K w x path).2 = .error e) (hf : (w.files (K.pos.sys.abspath path)).isSome)
    (w' : World) (hf' : (w'.files (K.pos.sys.abspath path)).isSome) :
    (setIdfPath K w' (setIdfPath K w x path).1 path).2 = .ok () ∧
      (setIdfPath K w' (setIdfPath K w x path).1 path).1.idf = (setIdfPath K w x path).1.loader.freq ∧
      (setIdfPath K w' (setIdfPath K w x path).1 path).1.median = x.loader.median := by
  obtain ⟨f, hf⟩ := Option.isSome_iff_exists.mp hf
  obtain ⟨f', hf'⟩ := Option.isSome_iff_exists.mp hf'
  have key : (setIdfPath K w x path).1.loader.path = K.pos.sys.abspath path ∧
      (setIdfPath K w x path).1.loader.median = x.loader.median := by
    unfold setIdfPath setNewPath at h ⊢
    rw [hf] at h ⊢
    simp only [] at h ⊢
    by_cases hp : x.loader.path = K.pos.sys.abspath path
    · rw [if_pos hp] at h; cases h
    · rw [if_neg hp] at h ⊢
      cases hc : utf8Decode f.data with
      | none => exact ⟨rfl, rfl⟩
      | some content =>
        rw [hc] at h
        simp only [] at h ⊢
        generalize idfLoop K (splitlines content) [] = r at h
        obtain ⟨d, r⟩ := r
        cases r with
        | error e => exact ⟨rfl, rfl⟩
        | ok u =>
          simp only [] at h ⊢
          cases hm : (sortBy (fun a b => decide (a ≤ b)) d.values)[d.length / 2]? with
          | none => exact ⟨rfl, rfl⟩
          | some m => rw [hm] at h; cases h
  obtain ⟨k1, k2⟩ := key
  generalize (setIdfPath K w x path).1 = y at k1 k2
  unfold setIdfPath setNewPath
  rw [hf']
  simp only [if_pos k1]
  exact ⟨trivial, trivial, k2⟩

/-- C52, negative part: a call with the path loaded last does not look at the file again. -/
theorem C52_same_path_not_reloaded (K : KSys F) (w : World) (x : Tfidf F) (path : Path)
    (hp : x.loader.path = K.pos.sys.abspath path) (hf : (w.files (K.pos.sys.abspath path)).isSome) :
    setIdfPath K w x path = ({ x with idf := x.loader.freq, median := x.loader.median }, .ok ()) := by
  obtain ⟨f, hf⟩ := Option.isSome_iff_exists.mp hf
  unfold setIdfPath setNewPath
  rw [hf]
  simp only [if_pos hp]

/-- C52: so after a call that returned, repeating it changes nothing, whatever the file now contains. -/
theorem C52_repeat (K : KSys F) (w : World) (x : Tfidf F) (path : Path) (h : (setIdfPath K w x path).2 = .ok ())
    (w' : World) (hf' : (w'.files (K.pos.sys.abspath path)).isSome) :
    setIdfPath K w' (setIdfPath K w x path).1 path = ((setIdfPath K w x path).1, .ok ()) := by
  have key : (setIdfPath K w x path).1.loader.path = K.pos.sys.abspath path ∧
      (setIdfPath K w x path).1.idf = (setIdfPath K w x path).1.loader.freq ∧
      (setIdfPath K w x path).1.median = (setIdfPath K w x path).1.loader.median := by
    unfold setIdfPath at h ⊢
    cases hf : w.files (K.pos.sys.abspath path) with
    | none => rw [hf] at h; cases h
    | some f =>
      rw [hf] at h
      simp only [] at h ⊢
      have hp : (setNewPath K x.loader (K.pos.sys.abspath path) f.data).1.path = K.pos.sys.abspath path := by
        unfold setNewPath
        split
        · assumption
        · simp only []
          cases utf8Decode f.data with
          | none => rfl
          | some content =>
            simp only []
            generalize idfLoop K (splitlines content) [] = r
            obtain ⟨d, r⟩ := r
            cases r with
            | error e => rfl
            | ok u =>
              simp only []
              cases (sortBy (fun a b => decide (a ≤ b)) d.values)[d.length / 2]? <;> rfl
      generalize setNewPath K x.loader (K.pos.sys.abspath path) f.data = r at h hp
      obtain ⟨L, r⟩ := r
      cases r with
      | error e => cases h
      | ok u => exact ⟨hp, rfl, rfl⟩
  generalize (setIdfPath K w x path).1 = y at key
  obtain ⟨k1, k2, k3⟩ := key
  rw [C52_same_path_not_reloaded K w' y path k1 hf', ← k2, ← k3]

/-- C52: an empty file is not accepted. -/
theorem C52_empty_file (K : KSys F) (w : World) (x : Tfidf F) (path : Path) (hp : x.loader.path ≠ K.pos.sys.abspath path)
    (f : File) (hf : w.files (K.pos.sys.abspath path) = some f) (hd : f.data = []) :
    (setIdfPath K w x path).2 = .error .indexError := by
  unfold setIdfPath setNewPath
  rw [hf]
  simp only [if_neg hp, hd]
  rfl

/-- C52: exactly when `set_idf_path` raises, for a path not loaded last: the file is missing, is not UTF-8, has a line that is not an
entry, or has no lines. -/
theorem C52_raises (K : KSys F) (w : World) (x : Tfidf F) (path : Path) (hp : x.loader.path ≠ K.pos.sys.abspath path) (e : PyErr) :
    (setIdfPath K w x path).2 = .error e ↔
      (w.files (K.pos.sys.abspath path) = none ∧ e = .exception) ∨
      ∃ f, w.files (K.pos.sys.abspath path) = some f ∧ IdfRefused K f.data e := by
  unfold setIdfPath
  cases hf : w.files (K.pos.sys.abspath path) with
  | none =>
    simp only [Except.error.injEq, true_and, reduceCtorEq, false_and, exists_false, or_false]
    exact eq_comm
  | some f =>
    simp only [reduceCtorEq, false_and, false_or, Option.some.injEq, exists_eq_left']
    rw [← setNewPath_error K x.loader _ f.data hp e]
    rcases setNewPath K x.loader (K.pos.sys.abspath path) f.data with ⟨L, r⟩
    cases r <;> simp

/-- C52: whenever `set_idf_path` raises, the extractor goes on with its table, median and stop words. -/
theorem C52_failure_keeps_table (K : KSys F) (w : World) (x : Tfidf F) (path : Path) (e : PyErr)
    (h : (setIdfPath K w x path).2 = .error e) :
    (setIdfPath K w x path).1 = { x with loader := (setIdfPath K w x path).1.loader } := by
  unfold setIdfPath at h ⊢
  split
  · rfl
  · next f hf =>
    rw [hf] at h
    simp only [] at h
    split
    · rfl
    · next L hL => rw [hL] at h; cases h

/-- `北京 3\nthe 12\n大学 7\n`, and the same with a last line that has no number. -/
def idfData : Bytes := [229, 140, 151, 228, 186, 172, 32, 51, 10, 116, 104, 101, 32, 49, 50, 10, 229, 164, 167, 229, 173, 166, 32, 55, 10]

example : utf8Encode (idfText [(lit ['北', '京'], lit ['3']), (lit ['t', 'h', 'e'], lit ['1', '2']), (lit ['大', '学'], lit ['7'])]) =
    some idfData := by decide +kernel

def withFile (data : Bytes) : World := { sampleWorld with files := fun _ => some ⟨data, 0⟩ }

example : (setIdfPath ratKSys (withFile idfData) ratTfidf (lit ['f'])).2 = .ok () ∧
    (setIdfPath ratKSys (withFile idfData) ratTfidf (lit ['f'])).1.idf = [(lit ['北', '京'], 3), (lit ['t', 'h', 'e'], 12), (lit ['大', '学'], 7)] ∧
    (setIdfPath ratKSys (withFile idfData) ratTfidf (lit ['f'])).1.median = 7 := by decide +kernel

/-- A line without a number, and one with two blanks. -/
example : (setIdfPath ratKSys (withFile [229, 140, 151, 32, 51, 10, 228, 186, 172, 10]) ratTfidf (lit ['f'])).2 = .error .valueError ∧
    (setIdfPath ratKSys (withFile [229, 140, 151, 32, 32, 51, 10]) ratTfidf (lit ['f'])).2 = .error .valueError := by decide +kernel

/-- The statement "if `set_idf_path` returned, the entries of the file are in use" is false: 大学 has idf 7 in the file, but after
the second call it has none. -/
theorem C52_returned_but_not_loaded :
    let x := (setIdfPath ratKSys (withFile (idfData.take 18)) ratTfidf (lit ['f'])).1
    (setIdfPath ratKSys (withFile (idfData.take 18)) ratTfidf (lit ['f'])).2 = .error .unicodeDecodeError ∧
    (setIdfPath ratKSys (withFile idfData) x (lit ['f'])).2 = .ok () ∧
    (setIdfPath ratKSys (withFile idfData) x (lit ['f'])).1.idf.get? (lit ['大', '学']) = none := by decide +kernel

/-! ## C50 -/
end

section
variable {F : Type} [Field F] [LinearOrder F] [IsStrictOrderedRing F]

theorem ones_exact (A : Arith F) (hA : Exact A) (n : Nat) : ones A n = n := by
  induction n with
  | zero => simp [ones, hA.zero]
  | succ n ih => simp [ones, hA.add, hA.ofInt, ih]

theorem foldl_add_exact (A : Arith F) (hA : Exact A) (l : List F) (x : F) : l.foldl A.add x = x + l.sum := by
  induction l generalizing x with
  | nil => simp
  | cons y l ih => rw [List.foldl_cons, ih, hA.add, List.sum_cons, add_assoc]

theorem total_exact (A : Arith F) (hA : Exact A) (ks : List Key) :
    (countKeys A ks).values.foldl A.add A.zero = ks.length := by
  rw [foldl_add_exact A hA, hA.zero, zero_add, PyDict.values, countKeys_eq A ks, List.map_map]
  have h1 : (Prod.snd ∘ fun k => (k, ones A (ks.count k))) = fun k => ((ks.count k : Nat) : F) := by
    funext k; exact ones_exact A hA _
  rw [h1]
  have h2 : (countKeys A ks).keys.Perm ks.dedup :=
    (List.perm_ext_iff_of_nodup (countKeys_nodup A ks) (List.nodup_dedup ks)).mpr (fun k => by
      rw [countKeys_mem, List.mem_dedup])
  rw [(h2.map _).sum_eq]
  have h3 := List.sum_map_count_dedup_eq_length ks
  have h4 : (ks.dedup.map (fun k => ((ks.count k : Nat) : F))).sum = (((ks.dedup.map (fun k => ks.count k)).sum : Nat) : F) := by
    rw [Nat.cast_list_sum, List.map_map]; rfl
  rw [h4, h3]

/-- C50: if the text can be segmented, `extract_tags(topK=None, withWeight=True)` returns every accepted word, and with each the
weight (number of its accepted occurrences) * (its idf, or the median idf) / (number of accepted tokens).  In particular it
never divides by zero. -/
theorem C50_weights (K : KSys F) (hA : Exact K.pos.sys.A) (p : PWorld) (x : Tfidf F) (s : PyText) (allow : List Str) (withFlag io : Bool)
    (hc : cutErr K p x s allow io = none) :
    ∃ l, (extractTags K p x s none true allow withFlag io).2 = .ok l ∧
      ∀ k v, (k, v) ∈ l ↔ k ∈ occ K p x s allow withFlag io ∧
        v = some (((occ K p x s allow withFlag io).count k : F) * ((x.idf.get? k.text).getD x.median) / (occ K p x s allow withFlag io).length) := by
  rw [extractTags_eq, hc]
  simp only []
  generalize occ K p x s allow withFlag io = ks
  rw [total_exact _ hA]
  by_cases hks : ks = []
  · subst hks
    exact ⟨[], rfl, by simp⟩
  · have hlen : (ks.length : F) ≠ 0 := by
      have : ks.length ≠ 0 := by simpa using hks
      exact_mod_cast this
    rw [scaleBy_ok _ _ _ _ (by rw [hA.zero]; exact hlen)]
    simp only [rankTags_weights, Except.map, topOf]
    refine ⟨_, rfl, ?_⟩
    intro k v
    rw [((sortBy_perm _ _).map _).mem_iff, countKeys_eq, List.map_map, List.map_map, List.mem_map]
    constructor
    · rintro ⟨k', hk', h⟩
      simp only [Function.comp, Prod.mk.injEq] at h
      obtain ⟨rfl, rfl⟩ := h
      refine ⟨(countKeys_mem _ _ _).mp hk', ?_⟩
      rw [ones_exact _ hA, hA.mul, hA.div, mul_div_assoc]
    · rintro ⟨hk, rfl⟩
      refine ⟨k, (countKeys_mem _ _ _).mpr hk, ?_⟩
      simp only [Function.comp, Prod.mk.injEq, true_and]
      rw [ones_exact _ hA, hA.mul, hA.div, mul_div_assoc]

/-- C50: otherwise it raises what the segmentation raises. -/
theorem C50_segmentation_fails (K : KSys F) (p : PWorld) (x : Tfidf F) (s : PyText) (topK : Option Int) (withWeight : Bool)
    (allow : List Str) (withFlag io : Bool) (e : PyErr) (hc : cutErr K p x s allow io = some e) :
    (extractTags K p x s topK withWeight allow withFlag io).2 = .error e := by
  rw [extractTags_eq, hc]

/-- 大学 occurs twice, 北京 once: weights 2 * 5 / 3 and 1 * 3 / 3. -/
example : (extractTags ratKSys ratPWorld ratTfidf
      (.str (lit ['大', '学', '和', '北', '京', '大', '学', 'T', 'H', 'E', ' ', 't', 'h', 'E'])) none true [] false true).2 =
    .ok [(.word (lit ['大', '学']), some (10 / 3)), (.word (lit ['北', '京']), some 1)] ∧
    cutErr ratKSys ratPWorld ratTfidf (.str (lit ['大', '学', '和', '北', '京', '大', '学', 'T', 'H', 'E', ' ', 't', 'h', 'E'])) [] true = none := by
  decide +kernel


end
end Jieba.Props
