import Verif.Data.StopWords
import Verif.Props.Analyse
/-!
# C127 — stop words that do nothing, and the list that is shipped
-/

namespace Jieba.Props
open Jieba Jieba.Spec Jieba.Pos Jieba.Analyse Jieba.StopData

variable {F : Type _} [LinearOrder F]

theorem extractTags_of_accepts (K : KSys F) (p : PWorld) (x : Tfidf F) (stop stop' : List Str)
    (h : ∀ w, Accepts K.lower stop w ↔ Accepts K.lower stop' w) (s : PyText) (topK : Option Int) (withWeight : Bool) (allow : List Str)
    (withFlag io : Bool) :
    extractTags K p { x with stop := stop } s topK withWeight allow withFlag io =
      extractTags K p { x with stop := stop' } s topK withWeight allow withFlag io := by
  refine Prod.ext rfl ?_
  have ho : occ K p { x with stop := stop } s allow withFlag io = occ K p { x with stop := stop' } s allow withFlag io := by
    unfold occ acceptedWords acceptedPairs
    simp only [h]
  rw [extractTags_eq, extractTags_eq, ho]
  rfl

theorem textrank_of_accepts (R : RSys F) (p : PWorld) (x : TextRank) (stop stop' : List Str)
    (h : ∀ w, Accepts R.k.lower stop w ↔ Accepts R.k.lower stop' w) (s : PyText) (topK : Option Int) (withWeight : Bool) (allow : List Str)
    (withFlag io : Bool) :
    textrank R p { x with stop := stop } s topK withWeight allow withFlag io =
      textrank R p { x with stop := stop' } s topK withWeight allow withFlag io := by
  have hf : pairfilter R.k allow stop = pairfilter R.k allow stop' := by
    funext t
    rw [Bool.eq_iff_iff, pairfilter_iff, pairfilter_iff]
    unfold AcceptsPair
    rw [h]
  unfold textrank
  simp only [hf]

theorem accepts_short (K : KSys F) (hlow : ∀ w, w.length ≤ (K.lower w).length) (stop vs : List Str) (hv : ∀ v ∈ vs, v.length < 2) (w : Str) :
    Accepts K.lower (vs ++ stop) w ↔ Accepts K.lower stop w := by
  unfold Accepts
  constructor
  · rintro ⟨h1, h2⟩
    exact ⟨h1, fun h => h2 (List.mem_append_right _ h)⟩
  · rintro ⟨h1, h2⟩
    refine ⟨h1, fun h => ?_⟩
    rcases List.mem_append.mp h with h | h
    · have := hv _ h
      have h3 := hlow w
      have h4 := List.length_filter_le (fun c => !isSpace c) w
      omega
    · exact h2 h

/-- C127: stop words of fewer than two characters have no effect on the keywords, neither of TF-IDF nor of TextRank, whatever the text and the settings
(`str.lower` never makes a word shorter). -/
theorem C127_short_stop_words (R : RSys F) (hlow : ∀ w, w.length ≤ (R.k.lower w).length) (vs : List Str) (hv : ∀ v ∈ vs, v.length < 2)
    (x : Tfidf F) (y : TextRank) (p : PWorld) (s : PyText) (topK : Option Int) (withWeight : Bool) (allow : List Str) (withFlag io : Bool) :
    extractTags R.k p { x with stop := vs ++ x.stop } s topK withWeight allow withFlag io =
      extractTags R.k p x s topK withWeight allow withFlag io ∧
    textrank R p { y with stop := vs ++ y.stop } s topK withWeight allow withFlag io =
      textrank R p y s topK withWeight allow withFlag io :=
  ⟨extractTags_of_accepts R.k p x _ _ (accepts_short R.k hlow x.stop vs hv) s topK withWeight allow withFlag io,
    textrank_of_accepts R p y _ _ (accepts_short R.k hlow y.stop vs hv) s topK withWeight allow withFlag io⟩

/-- The words of the shipped list that are not stop words from the start, and have two characters: 一個 沒有 我們 你們 妳們 他們 她們 是否. -/
def shippedPairs : List Str :=
  [lit ['一', '個'], lit ['沒', '有'], lit ['我', '們'], lit ['你', '們'], lit ['妳', '們'], lit ['他', '們'], lit ['她', '們'], lit ['是', '否']]

/-- The others: 的 了 和 是 就 都 而 及 與 著 或. -/
def shippedSingles : List Str :=
  [lit ['的'], lit ['了'], lit ['和'], lit ['是'], lit ['就'], lit ['都'], lit ['而'], lit ['及'], lit ['與'], lit ['著'], lit ['或']]

theorem shipped_lines : (utf8Decode stopFile).map splitlines = some (stopWords ++ [lit ['t', 'h', 'a', 't']] ++ shippedSingles ++ shippedPairs) := by
  decide +kernel

/-- C127: `set_stop_words` with the list that is shipped adds 19 words to the stop words of a new extractor: all else in it is there from the start. -/
theorem C127_shipped_list (K : KSys F) (w : World) (stop : List Str) (hs : ∀ v ∈ stopWords, v ∈ stop) (path : Path) (f : File)
    (hf : w.files (K.pos.sys.abspath path) = some f) (hd : f.data = stopFile) :
    (setStopWords K w stop path).2 = .ok () ∧
    ∀ v, v ∈ (setStopWords K w stop path).1 ↔ v ∈ stop ∨ v ∈ shippedSingles ∨ v ∈ shippedPairs := by
  have key := shipped_lines
  unfold setStopWords
  rw [hf]
  simp only [hd]
  cases hc : utf8Decode stopFile with
  | none => rw [hc] at key; cases key
  | some content =>
    rw [hc] at key
    have key : splitlines content = stopWords ++ [lit ['t', 'h', 'a', 't']] ++ shippedSingles ++ shippedPairs := by simpa using key
    refine ⟨rfl, fun v => ?_⟩
    show v ∈ List.foldl _ stop (splitlines content) ↔ _
    rw [mem_addLines, key, List.mem_append, List.mem_append, List.mem_append, List.mem_singleton]
    have hthat : lit ['t', 'h', 'a', 't'] ∈ stopWords := by decide +kernel
    constructor
    · rintro (h | ((h | h) | h) | h)
      · exact Or.inl h
      · exact Or.inl (hs v h)
      · exact Or.inl (hs v (h ▸ hthat))
      · exact Or.inr (Or.inl h)
      · exact Or.inr (Or.inr h)
    · rintro (h | h | h)
      · exact Or.inl h
      · exact Or.inr (Or.inl (Or.inr h))
      · exact Or.inr (Or.inr h)

/-- C127: of those 19 words the eleven single characters do nothing: with the list loaded by `jieba.analyse.set_stop_words`, both extractors give
for every text and all settings what they give with the other eight words alone. -/
theorem C127_shipped_effect (R : RSys F) (hlow : ∀ w, w.length ≤ (R.k.lower w).length) (w : World) (x : Extractors F)
    (h1 : ∀ v ∈ stopWords, v ∈ x.tfidf.stop) (h2 : ∀ v ∈ stopWords, v ∈ x.textrank.stop) (path : Path) (f : File)
    (hf : w.files (R.k.pos.sys.abspath path) = some f) (hd : f.data = stopFile) (p : PWorld) (s : PyText) (topK : Option Int) (withWeight : Bool)
    (allow : List Str) (withFlag io : Bool) :
    ∃ x', setBothStopWords R.k w x path = (x', .ok ()) ∧
      extractTags R.k p x'.tfidf s topK withWeight allow withFlag io =
        extractTags R.k p { x.tfidf with stop := shippedPairs ++ x.tfidf.stop } s topK withWeight allow withFlag io ∧
      textrank R p x'.textrank s topK withWeight allow withFlag io =
        textrank R p { x.textrank with stop := shippedPairs ++ x.textrank.stop } s topK withWeight allow withFlag io := by
  have acc : ∀ stop, (∀ v ∈ stopWords, v ∈ stop) → ∀ v,
      (Accepts R.k.lower (setStopWords R.k w stop path).1 v ↔ Accepts R.k.lower (shippedPairs ++ stop) v) := by
    intro stop hs v
    have e : Accepts R.k.lower (setStopWords R.k w stop path).1 v ↔ Accepts R.k.lower (shippedSingles ++ (shippedPairs ++ stop)) v := by
      unfold Accepts
      rw [(C127_shipped_list R.k w stop hs path f hf hd).2, List.mem_append, List.mem_append]
      tauto
    rw [e]
    exact accepts_short R.k hlow _ shippedSingles (by decide +kernel) v
  have o1 := (C127_shipped_list R.k w x.tfidf.stop h1 path f hf hd).1
  have o2 := (C127_shipped_list R.k w x.textrank.stop h2 path f hf hd).1
  have hb : setBothStopWords R.k w x path = (⟨{ x.tfidf with stop := (setStopWords R.k w x.tfidf.stop path).1 },
      { x.textrank with stop := (setStopWords R.k w x.textrank.stop path).1 }⟩, .ok ()) := by
    unfold setBothStopWords
    cases hc : setStopWords R.k w x.tfidf.stop path with
    | mk a b =>
      rw [hc] at o1
      cases o1
      simp only
      rw [o2]
  refine ⟨_, hb, ?_, ?_⟩
  · exact extractTags_of_accepts R.k p x.tfidf _ _ (acc x.tfidf.stop h1) s topK withWeight allow withFlag io
  · exact textrank_of_accepts R p x.textrank _ _ (acc x.textrank.stop h2) s topK withWeight allow withFlag io

/-- C127: the eight do something: 我們 is a keyword of 我們北京 before the list is loaded and not afterwards. -/
theorem C127_pairs_matter :
    (extractTags ratKSys ratPWorld { ratTfidf with stop := stopWords } (.str (lit ['我', '們', '北', '京'])) none false [] false true).2 =
      .ok [(.word (lit ['我', '們']), none), (.word (lit ['北', '京']), none)] ∧
    (extractTags ratKSys ratPWorld { ratTfidf with stop := (setStopWords ratKSys { sampleWorld with files := fun _ => some ⟨stopFile, 0⟩ } stopWords
      (lit ['s'])).1 } (.str (lit ['我', '們', '北', '京'])) none false [] false true).2 = .ok [(.word (lit ['北', '京']), none)] := by
  decide +kernel

/-- The hypotheses are met by the extractors after the import, and 的 really is in the list: it has an effect on neither. -/
example : (∀ v ∈ stopWords, v ∈ newTextRank.stop) ∧ lit ['的'] ∈ shippedSingles ∧ lit ['我', '們'] ∈ shippedPairs ∧
    (setStopWords ratKSys { sampleWorld with files := fun _ => some ⟨stopFile, 0⟩ } stopWords (lit ['s'])).1 =
      stopWords ++ shippedSingles ++ shippedPairs := by
  refine ⟨fun v h => h, by decide, by decide, by decide +kernel⟩

/-- `str.lower` on ASCII keeps the length. -/
example (w : Str) : w.length ≤ (ratKSys.lower w).length := by
  show w.length ≤ (asciiLower w).length
  simp [asciiLower]

end Jieba.Props
