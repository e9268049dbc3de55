import Verif.Model.Analyse
import Verif.Props.TextRank
import Verif.Props.Repetition
/-!
# C80: the extractors of `jieba.analyse`
-/

set_option linter.unusedSectionVars false

namespace Jieba.Props
open Jieba Jieba.Spec Jieba.Pos Jieba.Analyse

section
variable {F : Type _} [LinearOrder F]

theorem setStopWords_rest (K : KSys F) (w : World) (stop : List Str) (path : Path) (e : PyErr)
    (h : (setStopWords K w stop path).2 = .error e) : (setStopWords K w stop path).1 = stop := by
  unfold setStopWords at h ⊢
  cases hf : w.files (K.pos.sys.abspath path) with
  | none => rfl
  | some f =>
    cases hc : utf8Decode f.data with
    | none => simp [hc]
    | some content => simp [hf, hc] at h

/-- C80: `jieba.analyse.set_stop_words(path)` succeeds exactly if there is such a file and it is UTF-8, and then each line of it has been
added to the stop words of both extractors, and nothing else has changed; otherwise nothing has changed. -/
theorem C80_set_stop_words (K : KSys F) (w : World) (x x' : Extractors F) (path : Path) (r : Except PyErr Unit)
    (h : setBothStopWords K w x path = (x', r)) :
    (r = .ok () ↔ ∃ f content, w.files (K.pos.sys.abspath path) = some f ∧ utf8Encode content = some f.data) ∧
    (∀ e, r = .error e → x' = x) ∧
    (r = .ok () → ∃ f content ls, w.files (K.pos.sys.abspath path) = some f ∧ utf8Encode content = some f.data ∧ TextLines content ls ∧
      (∀ v, v ∈ x'.tfidf.stop ↔ v ∈ x.tfidf.stop ∨ v ∈ ls) ∧ (∀ v, v ∈ x'.textrank.stop ↔ v ∈ x.textrank.stop ∨ v ∈ ls) ∧
      x' = ⟨{ x.tfidf with stop := x'.tfidf.stop }, { x.textrank with stop := x'.textrank.stop }⟩) := by
  have hres : ∀ stop, (setStopWords K w stop path).2 = (setStopWords K w x.tfidf.stop path).2 := by
    intro stop
    unfold setStopWords
    repeat' split
    all_goals rfl
  unfold setBothStopWords at h
  cases hs : setStopWords K w x.tfidf.stop path with
  | mk stop r' =>
    have hr1 := congrArg Prod.snd hs
    have hr2 := hres x.textrank.stop
    rw [hr1] at hr2
    simp only at hr1 hr2
    rw [hs] at h
    cases r' with
    | error e =>
      simp only [Prod.mk.injEq] at h
      obtain ⟨rfl, rfl⟩ := h
      have h1 : stop = x.tfidf.stop := by
        have := setStopWords_rest K w x.tfidf.stop path e hr1
        rw [hs] at this; exact this
      subst h1
      refine ⟨⟨fun h => (by cases h), ?_⟩, fun _ _ => rfl, fun h => (by cases h)⟩
      rintro ⟨f, content, hf, hc⟩
      exfalso
      unfold setStopWords at hr1
      rw [hf] at hr1
      simp only [utf8_decode_encode _ _ hc] at hr1
      cases hr1
    | ok u =>
      simp only [Prod.mk.injEq] at h
      obtain ⟨rfl, rfl⟩ := h
      obtain ⟨f, content, ls, h1, h2, h3, h4⟩ := C51_adds_lines K w x.tfidf.stop path hr1
      obtain ⟨f', content', ls', h1', h2', h3', h4'⟩ := C51_adds_lines K w x.textrank.stop path hr2
      rw [h1] at h1'; cases h1'
      have hcc : content' = content := by
        have a := utf8_decode_encode _ _ h2
        have b := utf8_decode_encode _ _ h2'
        rw [a] at b; cases b; rfl
      subst hcc
      rw [hs] at h4
      rw [hr2]
      refine ⟨⟨fun _ => ⟨f, content', h1, h2⟩, fun _ => rfl⟩, fun e h => (by cases h), fun _ => ?_⟩
      refine ⟨f, content', ls, h1, h2, h3, h4, ?_, rfl⟩
      intro v
      rw [show ls = ls' from ((textLines_iff _ _).mp h3).symm.trans ((textLines_iff _ _).mp h3')]
      exact h4' v

/-- C80: the two extractors start with the same stop words, and no sequence of calls of `jieba.analyse.set_stop_words` and
`jieba.analyse.set_idf_path`, whatever the files contain at the time, makes them differ. -/
theorem C80_same_stop_words (K : KSys F) (defaultIdf : Path) (data : Bytes) (x : Extractors F) (h : importAnalyse K defaultIdf data = .ok x)
    (calls : List ACall) : (runACalls K x calls).tfidf.stop = (runACalls K x calls).textrank.stop := by
  have h0 : x.tfidf.stop = x.textrank.stop := by
    unfold importAnalyse newTfidf at h
    split at h
    · cases h
    · next y hy =>
      cases h
      split at hy
      · cases hy
      · cases hy; rfl
  clear h
  unfold runACalls
  induction calls generalizing x with
  | nil => exact h0
  | cons c calls ih =>
    rw [List.foldl_cons]
    refine ih _ ?_
    cases c with
    | stopWords w path =>
      show (setBothStopWords K w x path).1.tfidf.stop = (setBothStopWords K w x path).1.textrank.stop
      unfold setBothStopWords
      cases hs : setStopWords K w x.tfidf.stop path with
      | mk stop r =>
        cases r with
        | error e =>
          have := setStopWords_rest K w x.tfidf.stop path e (by rw [hs])
          rw [hs] at this
          simp only at this ⊢
          rw [this]; exact h0
        | ok u =>
          simp only
          rw [← h0, hs]
    | idf w path =>
      show (setIdfPath K w x.tfidf path).1.stop = x.textrank.stop
      rw [← h0]
      unfold setIdfPath
      repeat' split
      all_goals rfl

/-- C80: `import jieba.analyse` puts both extractors on `jieba.dt` and `jieba.posseg.dt`, with a window of 5 words, the words of
idf.txt and their median; it raises exactly if idf.txt cannot be loaded. -/
theorem C80_import (K : KSys F) (defaultIdf : Path) (hne : defaultIdf ≠ []) (data : Bytes) :
    (∀ x, importAnalyse K defaultIdf data = .ok x → x.tfidf.tok = 0 ∧ x.tfidf.pos = 0 ∧ x.textrank.pos = 0 ∧ x.textrank.span = 5 ∧
      x.tfidf.loader.path = defaultIdf ∧ x.tfidf.loader.freq = x.tfidf.idf ∧ x.tfidf.loader.median = x.tfidf.median ∧
      ∃ content ls es, utf8Encode content = some data ∧ TextLines content ls ∧ List.Forall₂ (fun l e => IdfEntry K l e.1 e.2) ls es ∧
        (∀ v, x.tfidf.idf.get? v = lastIdf es v) ∧ IsMedian x.tfidf.median x.tfidf.idf.values) ∧
    (∀ e, importAnalyse K defaultIdf data = .error e ↔ IdfRefused K data e) := by
  have hp : (⟨[], [], K.pos.sys.A.zero⟩ : Loader F).path ≠ defaultIdf := fun h => hne h.symm
  have h1 := fun L' => setNewPath_ok K ⟨[], [], K.pos.sys.A.zero⟩ L' defaultIdf data hp
  have h2 := setNewPath_error K ⟨[], [], K.pos.sys.A.zero⟩ defaultIdf data hp
  unfold importAnalyse newTfidf
  rcases hL : setNewPath K ⟨[], [], K.pos.sys.A.zero⟩ defaultIdf data with ⟨L, r⟩
  rw [hL] at h1 h2
  cases r with
  | error e =>
    refine ⟨fun x h => (by cases h), fun e' => ?_⟩
    rw [← h2 e']
    simp
  | ok u =>
    obtain ⟨h3, content, ls, es, h4⟩ := h1 L rfl
    refine ⟨fun x h => ?_, fun e' => ?_⟩
    · cases h
      exact ⟨rfl, rfl, rfl, rfl, h3, rfl, rfl, content, ls, es, h4⟩
    · rw [← h2 e']
      simp

/-- The 31 stop words of tfidf.py, in alphabetical order. -/
def englishStop : String := "all an and are as at be by can for from has have if in is it not of on one or that the then this to we which with you"

/-- C80: after the import the stop words of both extractors are those 31 words. Each is of two or more lower-case letters: a shorter one would be
without effect (single characters are dropped anyway), so would one with a capital (words are compared in lower case). -/
theorem C80_default_stop_words (K : KSys F) (defaultIdf : Path) (data : Bytes) (x : Extractors F) (h : importAnalyse K defaultIdf data = .ok x) :
    (∀ v, v ∈ x.tfidf.stop ↔ v ∈ splitOn1 0x20 (lit englishStop.toList)) ∧ (∀ v, v ∈ x.textrank.stop ↔ v ∈ splitOn1 0x20 (lit englishStop.toList)) ∧
      x.tfidf.stop.Nodup ∧ x.tfidf.stop.length = 31 ∧ ∀ v ∈ x.tfidf.stop, 2 ≤ v.length ∧ ∀ c ∈ v, isLower c = true := by
  have e : x.tfidf.stop = stopWords ∧ x.textrank.stop = stopWords := by
    unfold importAnalyse newTfidf at h
    split at h
    · cases h
    · next y hy =>
      cases h
      split at hy
      · cases hy
      · cases hy; exact ⟨rfl, rfl⟩
  have h1 : ∀ v ∈ stopWords, v ∈ splitOn1 0x20 (lit englishStop.toList) := by decide +kernel
  have h2 : ∀ v ∈ splitOn1 0x20 (lit englishStop.toList), v ∈ stopWords := by decide +kernel
  rw [e.1, e.2]
  exact ⟨fun v => ⟨h1 v, h2 v⟩, fun v => ⟨h1 v, h2 v⟩, by decide +kernel, by decide +kernel, by decide +kernel⟩

/-- C80: the idf table of the module has no influence on TextRank: `set_idf_path` leaves that extractor as it is. -/
theorem C80_idf_path_leaves_textrank (K : KSys F) (w : World) (x : Extractors F) (path : Path) :
    (setModuleIdf K w x path).1.textrank = x.textrank := rfl

theorem moveTags_idem (p : PWorld) (k : Nat) : moveTags (moveTags p k) k = moveTags p k := by
  have h1 := (moveTags_spec p k).1
  have h2 := (moveTags_spec p k).2.2.2
  generalize hq : moveTags p k = q at h1 h2
  unfold moveTags
  simp only []
  rw [if_pos]
  rw [h2, h1]
  simp

end

section
variable {F : Type} [Field F] [LinearOrder F] [IsStrictOrderedRing F]

/-- C80: every keyword that TextRank finds is found by TF-IDF with the same `allowPOS` and `withFlag`, if the extractors have the same stop
words and POS tokenizer (as those of the module have); TF-IDF having been called first. -/
theorem C80_textrank_keywords_are_tfidf_keywords (R : RSys F) (hA : Exact R.k.pos.sys.A) (p : PWorld) (x : Extractors F)
    (hs : x.tfidf.stop = x.textrank.stop) (hk : x.tfidf.pos = x.textrank.pos)
    (hi : (p.w.tok (p.pos x.tfidf.pos).tok).initialized = true) (s : PyText) (allow : List Str) (withFlag io io' : Bool)
    (topK : Option Int) (ww ww' : Bool) (l : List (Key × Option F))
    (h : (textrank R (extractTags R.k p x.tfidf s none ww' allow withFlag io).1 x.textrank s topK ww allow withFlag io').2 = .ok l) (e : Key × Option F)
    (he : e ∈ l) :
    ∃ l', (extractTags R.k p x.tfidf s none ww' allow withFlag io).2 = .ok l' ∧ e.1 ∈ l'.map Prod.fst := by
  obtain ⟨i, j, a, b, ⟨-, -, hia, hjb, ha, hb⟩, hab⟩ := C54_keywords_cooccur R _ x.textrank s topK ww allow withFlag io' l h e he
  have hallow : allow ≠ [] := by rintro rfl; simp [AcceptsPair] at ha
  have hstate : (extractTags R.k p x.tfidf s none ww' allow withFlag io).1 = moveTags p x.tfidf.pos := by
    show (candidates R.k p x.tfidf.tok x.tfidf.pos s allow withFlag io).1 = _
    unfold candidates
    rw [if_neg hallow, cutPW_of_init R.k.pos p x.tfidf.pos true io s hi]
  have hi' : ((moveTags p x.tfidf.pos).w.tok ((moveTags p x.tfidf.pos).pos x.tfidf.pos).tok).initialized = true := by
    rw [(moveTags_spec p x.tfidf.pos).1, moveTags_initialized]; exact hi
  have htoks : toks R (extractTags R.k p x.tfidf s none ww' allow withFlag io).1 x.textrank s io' =
      (cutPW R.k.pos p x.tfidf.pos true s io).2 := by
    unfold toks
    rw [hstate, ← hk, cutPW_of_init R.k.pos _ x.tfidf.pos true io' s hi', cutPW_of_init R.k.pos p x.tfidf.pos true io s hi, moveTags_idem]
  rw [htoks] at hia hjb
  have herr : cutErr R.k p x.tfidf s allow io = none := by
    unfold cutErr
    rw [if_neg hallow, ← htoks]
    rw [textrank_eq] at h
    split at h
    · cases h
    · next h' => exact h'
  obtain ⟨l0, h1, h2⟩ := C50_weights R.k hA p x.tfidf s allow withFlag io herr
  have hocc : e.1 ∈ occ R.k p x.tfidf s allow withFlag io := by
    unfold occ acceptedPairs
    rw [if_neg hallow, List.mem_map]
    rcases hab with hab | hab
    · exact ⟨a, List.mem_filter.mpr ⟨List.mem_of_getElem? hia, by rw [hs]; exact decide_eq_true ha⟩, hab.symm⟩
    · exact ⟨b, List.mem_filter.mpr ⟨List.mem_of_getElem? hjb, by rw [hs]; exact decide_eq_true hb⟩, hab.symm⟩
  have hm0 : e.1 ∈ l0.map Prod.fst := List.mem_map.mpr ⟨_, (h2 e.1 _).mpr ⟨hocc, rfl⟩, rfl⟩
  cases ww' with
  | true => exact ⟨l0, h1, hm0⟩
  | false =>
    rw [C49_with_weight_only_adds_weights]
    refine ⟨l0.map (fun e => (e.1, none)), by simp only [h1, Except.map], ?_⟩
    rw [List.map_map]
    exact hm0

end

/-- Importing the module with the small idf file, and adding the lines of a file to the stop words. -/
example : (importAnalyse ratKSys (lit ['i']) idfData).toOption.isSome = true ∧
    (match importAnalyse ratKSys (lit ['i']) idfData with
      | .ok x => decide ((lit ['大', '学']) ∈ (runACalls ratKSys x [.stopWords (withFile [229, 164, 167, 229, 173, 166]) (lit ['s'])]).textrank.stop)
      | .error _ => false) = true := by decide +kernel

/-- 大学。北京大学。THE: both keywords of TextRank are keywords of TF-IDF; with a text of one word TF-IDF has a keyword and TextRank none. -/
example : (readyRat.w.tok (readyRat.pos 0).tok).initialized = true ∧
    (match (textrank ratRSys (extractTags ratKSys readyRat ratTfidf rankedText none true [lit ['n'], lit ['n', 's']] false true).1
        ratTextRank rankedText none true [lit ['n'], lit ['n', 's']] false true).2 with
      | .ok l => l.map Prod.fst | .error _ => []) = [.word (lit ['大', '学']), .word (lit ['北', '京'])] ∧
    (extractTags ratKSys readyRat ratTfidf (.str (lit ['大', '学'])) none false [lit ['n']] false true).2 = .ok [(.word (lit ['大', '学']), none)] ∧
    (textrank ratRSys readyRat ratTextRank (.str (lit ['大', '学'])) none false [lit ['n']] false true).2 = .ok [] := by decide +kernel

end Jieba.Props
