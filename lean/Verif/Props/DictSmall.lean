import Verif.Proofs.DictSmall
import Verif.Proofs.DictSmallIndex
import Verif.Props.PosWorld
import Verif.Props.Doubles
import Verif.Props.Cost
import Verif.Props.CommandLineExact
import Mathlib.Analysis.Complex.ExponentialBounds
/-!
# C101: a tokenizer with the dictionary extra_dict/dict.txt.small
-/

set_option linter.unusedSectionVars false

namespace Jieba.Props
open Jieba Jieba.Spec Jieba.Pos Jieba.Lazy
open Jieba.DictSmall (entries text)

/-! ## The lines -/

theorem hanWord_spec (s : Str) (k : Nat) (h : DictSmall.hanWord s k = true) :
    (∀ c ∈ s, isHan c = true) ∧ 1 ≤ k + s.length ∧ k + s.length ≤ 15 := by
  induction s generalizing k with
  | nil =>
    simp only [DictSmall.hanWord, Bool.and_eq_true, Nat.ble_eq] at h
    exact ⟨by simp, by simpa using h.1, by simpa using h.2⟩
  | cons c s ih =>
    simp only [DictSmall.hanWord, Bool.and_eq_true, Nat.ble_eq] at h
    obtain ⟨h1, h2, h3⟩ := h
    obtain ⟨g1, g2, g3⟩ := ih _ h3
    simp only [Nat.add_eq] at g2 g3
    refine ⟨?_, by simp only [List.length_cons]; omega, by simp only [List.length_cons]; omega⟩
    intro d hd
    rcases List.mem_cons.mp hd with rfl | hd
    · simp only [isHan, Bool.and_eq_true, decide_eq_true_eq]; exact ⟨h1, h2⟩
    · exact g1 d hd

theorem goodBlocks_mem (bs : List Nat) (h : DictSmall.goodBlocks bs = true) (b : Nat) (hb : b ∈ bs) (e : Str × Nat × Nat)
    (he : e ∈ DictSmall.linesOf 100 b) : DictSmall.goodLine e = true := by
  have key : ∀ l, DictSmall.goodLines l = true → e ∈ l → DictSmall.goodLine e = true := by
    intro l
    induction l with
    | nil => intro _ h; simp at h
    | cons a l ih =>
      intro h he
      simp only [DictSmall.goodLines, Bool.and_eq_true] at h
      rcases List.mem_cons.mp he with rfl | he
      · exact h.1
      · exact ih h.2 he
  induction bs with
  | nil => simp at hb
  | cons a bs ih =>
    simp only [DictSmall.goodBlocks, Bool.and_eq_true] at h
    rcases List.mem_cons.mp hb with rfl | hb
    · exact key _ h.1 he
    · exact ih h.2 hb

/-- C101: dict.txt.small has 109750 lines with frequencies that add up to 62485586; each has a word of 1 to 15 Han characters, a frequency from
10 to 3188252 and a tag of 1 to 4 lower-case letters. -/
theorem C101_lines : entries.length = 109750 ∧ (entries.map (fun e => e.2.1)).sum = 62485586 ∧
    ∀ e ∈ entries, (∀ c ∈ e.1, isHan c = true) ∧ 1 ≤ e.1.length ∧ e.1.length ≤ 15 ∧ 10 ≤ e.2.1 ∧ e.2.1 ≤ 3188252 ∧
      1 ≤ e.2.2.length ∧ e.2.2.length ≤ 4 ∧ ∀ c ∈ e.2.2, isLower c = true := by
  have h := DictSmall.checked_all
  simp only [DictSmall.checked, Bool.and_eq_true, Nat.beq_eq] at h
  obtain ⟨h1, h2, h3⟩ := h
  refine ⟨?_, ?_, ?_⟩
  · rw [← h2]
    unfold entries
    generalize DictSmall.blocks = bs
    have key : ∀ l, DictSmall.countLines l = l.length := by
      intro l
      induction l with
      | nil => rfl
      | cons a l ih => simp only [DictSmall.countLines, ih, Nat.add_eq, List.length_cons]; omega
    induction bs with
    | nil => rfl
    | cons b bs ih => simp only [List.flatMap_cons, List.length_append, List.length_map, DictSmall.countBlocks, Nat.add_eq, ih, key]
  · rw [← h3]
    unfold entries
    generalize DictSmall.blocks = bs
    have key : ∀ l, DictSmall.sumLines l = (l.map (fun e => e.2.1)).sum := by
      intro l
      induction l with
      | nil => rfl
      | cons a l ih => simp only [DictSmall.sumLines, ih, Nat.add_eq, List.map_cons, List.sum_cons]
    induction bs with
    | nil => rfl
    | cons b bs ih =>
      simp only [List.flatMap_cons, List.map_append, List.sum_append, List.map_map, Function.comp_def, DictSmall.sumBlocks, Nat.add_eq, ih, key]
  · intro e he
    unfold entries at he
    obtain ⟨b, hb, he⟩ := List.mem_flatMap.mp he
    obtain ⟨x, hx, rfl⟩ := List.mem_map.mp he
    have hg := goodBlocks_mem _ h1 b hb x hx
    simp only [DictSmall.goodLine, Bool.and_eq_true, Nat.ble_eq, Nat.blt_eq] at hg
    obtain ⟨g1, g2, g3, g4⟩ := hg
    obtain ⟨k1, k2, k3⟩ := hanWord_spec _ _ g1
    rw [Nat.zero_add] at k2 k3
    have ht : ∀ i < 55, 1 ≤ (DictSmall.tags.getD i []).length ∧ (DictSmall.tags.getD i []).length ≤ 4 ∧
        ∀ c ∈ DictSmall.tags.getD i [], isLower c = true := by decide +kernel
    exact ⟨k1, k2, k3, g2, g3, ht _ g4⟩

/-! ## Reading the file -/

theorem han_encodes (s : Str) (h : ∀ c ∈ s, isHan c = true) : ∃ b, utf8Encode s = some b := by
  induction s with
  | nil => exact ⟨[], rfl⟩
  | cons c s ih =>
    obtain ⟨b, hb⟩ := ih (fun d hd => h d (List.mem_cons_of_mem _ hd))
    have hc := h c (by simp)
    simp only [isHan, Bool.and_eq_true, decide_eq_true_eq] at hc
    have : ∃ x, utf8EncodeCh c = some x := by
      unfold utf8EncodeCh
      rw [if_neg (by unfold Ch at *; omega), if_neg (by unfold Ch at *; omega),
        if_neg (by simp only [isSurrogate, Bool.and_eq_true, decide_eq_true_eq]; unfold Ch at *; omega), if_pos (by unfold Ch at *; omega)]
      exact ⟨_, rfl⟩
    obtain ⟨x, hx⟩ := this
    exact ⟨x ++ b, by simp [utf8Encode, hx, hb]⟩

/-- One line, with blanks behind it or not. -/
theorem line_decodes (w g : Str) (n : Nat) (b t : Bytes) (hb : utf8Encode w = some b) (hw : Writable w) (hg : WritableTag g)
    (ht : ∀ c ∈ t, isByteSpace c = true) :
    utf8Decode (stripBy isByteSpace (b ++ 0x20 :: (decimal n ++ 0x20 :: g) ++ t)) = some (w ++ 0x20 :: (decimal n ++ 0x20 :: g)) ∧
      splitOn1 0x20 (w ++ 0x20 :: (decimal n ++ 0x20 :: g)) = [w, decimal n, g] := by
  obtain ⟨w1, w2, w3, w4⟩ := hw
  have hstrip : stripBy isByteSpace (b ++ 0x20 :: (decimal n ++ 0x20 :: g) ++ t) = b ++ 0x20 :: (decimal n ++ 0x20 :: g) := by
    refine stripBy_append isByteSpace _ t (by simp) ?_ ?_ ht
    · intro c hc
      have hbn := utf8Encode_ne_nil w b hb w1
      obtain ⟨y, b', rfl⟩ := List.exists_cons_of_ne_nil hbn
      simp at hc; subst hc
      by_cases hy : y < 0x80
      · exact w4 y (utf8Encode_head w _ hb y (by simp) hy)
      · simp [isByteSpace]; omega
    · intro c hc
      have h1 : b ++ 0x20 :: (decimal n ++ 0x20 :: g) = (b ++ 0x20 :: decimal n ++ [0x20]) ++ g := by simp
      rw [h1] at hc
      exact (hg.2 c (getLast?_mem_of_append _ _ _ hg.1 hc)).2
  have henc : utf8Encode (w ++ 0x20 :: (decimal n ++ 0x20 :: g)) = some (b ++ 0x20 :: (decimal n ++ 0x20 :: g)) := by
    refine utf8Encode_append w _ b _ hb (utf8Encode_ascii _ ?_)
    intro c hc
    simp only [List.mem_cons, List.mem_append] at hc
    rcases hc with rfl | hc | rfl | hc
    · decide
    · exact digit_lt c (decimal_digits n c hc)
    · decide
    · exact (hg.2 c hc).1
  refine ⟨by rw [hstrip]; exact utf8_decode_encode _ _ henc, ?_⟩
  rw [splitOn1_cons _ _ _ w2, splitOn1_cons, splitOn1_none]
  · intro hm; have := (hg.2 _ hm).2; simp [isByteSpace] at this
  · intro hm
    have := decimal_digits n _ hm
    simp [isDigit] at this

theorem line_read (w g : Str) (n : Nat) (b t : Bytes) (hb : utf8Encode w = some b) (hw : Writable w) (hg : WritableTag g)
    (ht : ∀ c ∈ t, isByteSpace c = true) :
    dictLine (b ++ 0x20 :: (decimal n ++ 0x20 :: g) ++ t) = some (w, (n : Int)) ∧
      tagLine (b ++ 0x20 :: (decimal n ++ 0x20 :: g) ++ t) = some (some (w, g)) := by
  obtain ⟨h1, h2⟩ := line_decodes w g n b t hb hw hg ht
  constructor
  · unfold dictLine
    rw [h1]
    simp only [h2, pyInt_decimal, Option.map_some]
  · unfold tagLine
    rw [h1]
    obtain ⟨c, w', rfl⟩ := List.exists_cons_of_ne_nil hw.1
    simp only [List.cons_append] at h2 ⊢
    simp only [h2]

/-- The last line has no line feed. -/
theorem fileLines_last (a : Bytes) (hne : a ≠ []) (h : 0x0A ∉ a) : fileLines a = [a] := by
  have key : ∀ (a acc : Bytes), 0x0A ∉ a → acc ++ a ≠ [] → fileLines.go a acc = [acc ++ a] := by
    intro a
    induction a with
    | nil =>
      intro acc _ hn
      rw [List.append_nil] at hn ⊢
      cases acc with
      | nil => exact absurd rfl hn
      | cons c acc => simp [fileLines.go]
    | cons c a ih =>
      intro acc h hn
      simp only [List.mem_cons, not_or] at h
      rw [fileLines.go, if_neg (fun h' => h.1 h'.symm), ih _ h.2 (by simp)]
      simp
  unfold fileLines
  exact (key a [] h (by simpa using hne)).trans (by simp)

/-- A dictionary file without a line feed at the end. -/
theorem file_read (es : List (Str × Nat × Str)) (hw : ∀ e ∈ es, Writable e.1 ∧ WritableTag e.2.2) (data : Bytes)
    (h : utf8Encode ([0x0A].intercalate (es.map (fun e => e.1 ++ 0x20 :: decimal e.2.1 ++ 0x20 :: e.2.2))) = some data) :
    (fileLines data).map dictLine = (es.map (fun e => (e.1, (e.2.1 : Int)))).map some ∧
      (fileLines data).map tagLine = (es.map (fun e => some (e.1, e.2.2))).map some := by
  induction es generalizing data with
  | nil => simp [List.intercalate, utf8Encode] at h; subst h; exact ⟨rfl, rfl⟩
  | cons e es ih =>
    obtain ⟨w, n, g⟩ := e
    obtain ⟨hw1, hg1⟩ := hw (w, n, g) (by simp)
    have hasc : utf8Encode (0x20 :: (decimal n ++ 0x20 :: g)) = some (0x20 :: (decimal n ++ 0x20 :: g)) := by
      apply utf8Encode_ascii
      intro c hc
      simp only [List.mem_cons, List.mem_append] at hc
      rcases hc with rfl | hc | rfl | hc
      · decide
      · exact digit_lt c (decimal_digits n c hc)
      · decide
      · exact (hg1.2 c hc).1
    have hno : ∀ b, utf8Encode w = some b → 0x0A ∉ b ++ 0x20 :: (decimal n ++ 0x20 :: g) := by
      intro b hb hm
      simp only [List.mem_append, List.mem_cons] at hm
      rcases hm with hm | hm | hm | hm | hm
      · exact hw1.2.2.1 (utf8Encode_mem w b hb _ hm (by omega))
      · omega
      · have := decimal_digits n _ hm; simp [isDigit] at this
      · omega
      · have := (hg1.2 _ hm).2; simp [isByteSpace] at this
    cases es with
    | nil =>
      have e1 : [0x0A].intercalate ([(w, n, g)].map (fun e => e.1 ++ 0x20 :: decimal e.2.1 ++ 0x20 :: e.2.2)) =
          w ++ 0x20 :: (decimal n ++ 0x20 :: g) := by simp [List.intercalate]
      rw [e1] at h
      obtain ⟨b, y, hb, hy, rfl⟩ := utf8Encode_append_inv _ _ _ h
      rw [hasc] at hy; injection hy with hy; subst hy
      have hl : fileLines (b ++ 0x20 :: (decimal n ++ 0x20 :: g)) = [b ++ 0x20 :: (decimal n ++ 0x20 :: g)] := by
        exact fileLines_last _ (by simp) (hno b hb)
      obtain ⟨k1, k2⟩ := line_read w g n b [] hb hw1 hg1 (by simp)
      rw [List.append_nil] at k1 k2
      rw [hl]
      simp [k1, k2]
    | cons e' es =>
      have e1 : [0x0A].intercalate (((w, n, g) :: e' :: es).map (fun e => e.1 ++ 0x20 :: decimal e.2.1 ++ 0x20 :: e.2.2)) =
          w ++ (0x20 :: (decimal n ++ 0x20 :: g) ++
            0x0A :: [0x0A].intercalate ((e' :: es).map (fun e => e.1 ++ 0x20 :: decimal e.2.1 ++ 0x20 :: e.2.2))) := by
        simp [List.intercalate]
      rw [e1] at h
      obtain ⟨b, y, hb, hy, rfl⟩ := utf8Encode_append_inv _ _ _ h
      obtain ⟨y1, y2, h1, h2, rfl⟩ := utf8Encode_append_inv _ _ _ hy
      rw [hasc] at h1; injection h1 with h1; subst h1
      obtain ⟨y3, y4, h3, h4, rfl⟩ := utf8Encode_cons _ _ _ h2
      have : y3 = [0x0A] := by
        have h5 : utf8EncodeCh 0x0A = some [0x0A] := by decide
        rw [h5] at h3; injection h3 with h3; exact h3.symm
      subst this
      obtain ⟨g1, g2⟩ := ih (fun e he => hw e (List.mem_cons_of_mem _ he)) y4 h4
      obtain ⟨k1, k2⟩ := line_read w g n b [0x0A] hb hw1 hg1 (by simp [isByteSpace])
      have e2 : b ++ (0x20 :: (decimal n ++ 0x20 :: g) ++ ([0x0A] ++ y4)) = (b ++ 0x20 :: (decimal n ++ 0x20 :: g)) ++ 0x0A :: y4 := by simp
      rw [e2, fileLines_line _ _ (hno b hb)]
      simp only [List.map_cons, k1, k2, g1, g2, and_self]

theorem entries_writable (e : Str × Nat × Str) (he : e ∈ entries) : Writable e.1 ∧ WritableTag e.2.2 := by
  obtain ⟨h1, h2, -, -, -, h6, -, h8⟩ := C101_lines.2.2 e he
  refine ⟨⟨?_, ?_, ?_, ?_⟩, ?_, ?_⟩
  · rintro h; rw [h] at h2; simp at h2
  · intro h; have := h1 _ h; simp [isHan] at this
  · intro h; have := h1 _ h; simp [isHan] at this
  · intro c hc
    have := h1 c (List.mem_of_mem_head? hc)
    simp only [isHan, Bool.and_eq_true, decide_eq_true_eq] at this
    simp [isByteSpace]; unfold Ch at *; omega
  · rintro h; rw [h] at h6; simp at h6
  · intro c hc
    have := h8 c hc
    simp only [isLower, Bool.and_eq_true, decide_eq_true_eq] at this
    refine ⟨by unfold Ch at *; omega, ?_⟩
    simp [isByteSpace]; unfold Ch at *; omega

/-- C101: the text of the file can be encoded, so the hypothesis of the theorems below can be met. -/
theorem C101_encodes : ∃ data, utf8Encode text = some data := by
  unfold text
  have h : ∀ e ∈ entries, ∃ b, utf8Encode (e.1 ++ 0x20 :: decimal e.2.1 ++ 0x20 :: e.2.2) = some b := by
    intro e he
    obtain ⟨h1, -, -, -, -, -, -, h8⟩ := C101_lines.2.2 e he
    obtain ⟨b, hb⟩ := han_encodes _ h1
    refine ⟨b ++ (0x20 :: decimal e.2.1 ++ 0x20 :: e.2.2), ?_⟩
    rw [List.append_assoc]
    refine utf8Encode_append _ _ _ _ hb (utf8Encode_ascii _ ?_)
    intro c hc
    simp only [List.cons_append, List.mem_cons, List.mem_append] at hc
    rcases hc with rfl | hc | rfl | hc
    · decide
    · exact digit_lt c (decimal_digits _ c hc)
    · decide
    · exact ((entries_writable e he).2.2 c hc).1
  generalize entries = es at h
  induction es with
  | nil => exact ⟨[], rfl⟩
  | cons e es ih =>
    obtain ⟨b, hb⟩ := h e (by simp)
    obtain ⟨b', hb'⟩ := ih (fun e he => h e (List.mem_cons_of_mem _ he))
    cases es with
    | nil => exact ⟨b, by simpa [List.intercalate] using hb⟩
    | cons e' es =>
      refine ⟨b ++ ([0x0A] ++ b'), ?_⟩
      have := utf8Encode_append _ _ _ _ hb (utf8Encode_append [0x0A] _ [0x0A] _ (by decide) hb')
      simpa [List.intercalate] using this

/-! ## The table -/

/-- What loading the file has to give; this says for every string what is looked up. -/
structure SmallTable (d : Freq) : Prop where
  /-- the frequency of each line -/
  lines : ∀ e ∈ entries, d.get? e.1 = some (e.2.1 : Int)
  /-- 0 for the other strings that begin a word of the file -/
  starts : ∀ v, (∀ e ∈ entries, e.1 ≠ v) → v ≠ [] → (∃ e ∈ entries, v <+: e.1) → d.get? v = some 0
  /-- nothing else -/
  others : ∀ v, (v = [] ∨ ∀ e ∈ entries, ¬ v <+: e.1) → d.get? v = none

theorem SmallTable.freqs {d : Freq} (h : SmallTable d) (v : Str) (x : Int) (hv : d.get? v = some x) (hx : x ≠ 0) :
    ∃ e ∈ entries, e.1 = v ∧ x = (e.2.1 : Int) := by
  by_cases hm : ∃ e ∈ entries, e.1 = v
  · obtain ⟨e, he, rfl⟩ := hm
    rw [h.lines e he] at hv
    injection hv with hv
    exact ⟨e, he, rfl, hv.symm⟩
  · exfalso
    push Not at hm
    by_cases hs : v ≠ [] ∧ ∃ e ∈ entries, v <+: e.1
    · rw [h.starts v hm hs.1 hs.2] at hv
      injection hv with hv
      exact hx hv.symm
    · rw [h.others v] at hv
      · simp at hv
      · by_cases hn : v = []
        · exact Or.inl hn
        · right; intro e he hp; exact hs ⟨hn, e, he, hp⟩

theorem SmallTable.words {d : Freq} (h : SmallTable d) (v : Str) : DictWord d v ↔ ∃ e ∈ entries, e.1 = v := by
  constructor
  · rintro ⟨x, hx, hx0⟩
    obtain ⟨e, he, h1, -⟩ := h.freqs v x hx hx0
    exact ⟨e, he, h1⟩
  · rintro ⟨e, he, rfl⟩
    have := C101_lines.2.2 e he
    exact ⟨_, h.lines e he, by omega⟩

theorem SmallTable.registered {d : Freq} (h : SmallTable d) (v : Str) : d.has v = true ↔ v ≠ [] ∧ ∃ e ∈ entries, v <+: e.1 := by
  unfold PyDict.has
  constructor
  · intro hv
    by_contra hs
    rw [h.others v] at hv
    · simp at hv
    · by_cases hn : v = []
      · exact Or.inl hn
      · right; intro e he hp; exact hs ⟨hn, e, he, hp⟩
  · rintro ⟨h1, h2⟩
    by_cases hm : ∃ e ∈ entries, e.1 = v
    · obtain ⟨e, he, rfl⟩ := hm
      rw [h.lines e he]; rfl
    · push Not at hm
      rw [h.starts v hm h1 h2]; rfl

theorem SmallTable.get {d : Freq} (h : SmallTable d) (v : Str) (x : Int) (hv : d.get? v = some x) : 0 ≤ x ∧ x ≤ 3188252 := by
  by_cases hx : x = 0
  · omega
  · obtain ⟨e, he, -, rfl⟩ := h.freqs v x hv hx
    have := C101_lines.2.2 e he
    omega

theorem SmallTable.nonNeg {d : Freq} (h : SmallTable d) : NonNeg d := fun v x hv => (h.get v x hv).1

theorem SmallTable.prefixClosed {d : Freq} (h : SmallTable d) : PrefixClosed d := by
  intro v hv p hp hpv
  obtain ⟨-, e, he, hve⟩ := (h.registered v).mp hv
  exact (h.registered p).mpr ⟨hp, e, he, hpv.trans hve⟩

theorem SmallTable.short {d : Freq} (h : SmallTable d) (v : Str) (hv : d.has v = true) :
    1 ≤ v.length ∧ v.length ≤ 15 ∧ ∀ c ∈ v, isHan c = true := by
  obtain ⟨h1, e, he, h2⟩ := (h.registered v).mp hv
  obtain ⟨k1, -, k3, -⟩ := C101_lines.2.2 e he
  refine ⟨List.length_pos_of_ne_nil h1, h2.length_le.trans k3, fun c hc => k1 c (h2.subset hc)⟩

/-- C101: no word is in the file twice. -/
theorem C101_words_distinct : (entries.map Prod.fst).Nodup := DictSmall.words_nodup

theorem same_line (e e' : Str × Nat × Str) (he : e ∈ entries) (he' : e' ∈ entries) (h : e.1 = e'.1) : e = e' :=
  List.inj_on_of_nodup_map C101_words_distinct he he' h

/-- C101: loading dict.txt.small succeeds with total 62485586 and exactly its words, with the frequencies of its lines. -/
theorem C101_load (data : Bytes) (h : utf8Encode text = some data) :
    ∃ d, genPfdict data = .ok (d, 62485586) ∧ SmallTable d := by
  have hl := (file_read entries entries_writable data h).1
  rcases gen_load data with ⟨es, h1, d, h2, h3⟩ | ⟨⟨l, h1, h2⟩, -⟩
  · have e1 : es = entries.map (fun e => (e.1, (e.2.1 : Int))) := by
      rw [h1] at hl
      exact List.map_injective_iff.mpr (Option.some_injective _) hl
    subst e1
    have hs : ((entries.map (fun e => (e.1, (e.2.1 : Int)))).map Prod.snd).sum = 62485586 := by
      rw [List.map_map]
      have e2 : ∀ l : List (Str × Nat × Str), (l.map (Prod.snd ∘ fun e => (e.1, (e.2.1 : Int)))).sum = ((l.map (fun e => e.2.1)).sum : Nat) := by
        intro l
        induction l with
        | nil => rfl
        | cons a l ih => simp only [List.map_cons, List.sum_cons, ih, Function.comp_apply]; push_cast; rfl
      rw [e2, C101_lines.2.1]; rfl
    rw [hs] at h2
    refine ⟨d, h2, ?_⟩
    have hlast : ∀ v x, lastFreq (entries.map (fun e => (e.1, (e.2.1 : Int)))) v = some x → ∃ e ∈ entries, e.1 = v ∧ x = (e.2.1 : Int) := by
      intro v x hx
      unfold lastFreq at hx
      obtain ⟨a, ha, rfl⟩ := Option.map_eq_some_iff.mp hx
      have hm := List.mem_of_find?_eq_some ha
      have hp := List.find?_some ha
      rw [List.mem_reverse] at hm
      obtain ⟨e, he, rfl⟩ := List.mem_map.mp hm
      exact ⟨e, he, by simpa using hp, rfl⟩
    have hnone : ∀ v, lastFreq (entries.map (fun e => (e.1, (e.2.1 : Int)))) v = none → ∀ e ∈ entries, e.1 ≠ v := by
      intro v hx e he hv
      unfold lastFreq at hx
      rw [Option.map_eq_none_iff, List.find?_eq_none] at hx
      exact hx (e.1, (e.2.1 : Int)) (List.mem_reverse.mpr (List.mem_map_of_mem (f := fun e => (e.1, (e.2.1 : Int))) he)) (by simp [hv])
    have hst : ∀ v, StartsEntry (entries.map (fun e => (e.1, (e.2.1 : Int)))) v ↔ v ≠ [] ∧ ∃ e ∈ entries, v <+: e.1 := by
      intro v
      unfold StartsEntry
      simp
    have hno : ∀ v, (∀ e ∈ entries, e.1 ≠ v) → lastFreq (entries.map (fun e => (e.1, (e.2.1 : Int)))) v = none := by
      intro v hv
      cases hx : lastFreq (entries.map (fun e => (e.1, (e.2.1 : Int)))) v with
      | none => rfl
      | some x =>
        obtain ⟨e, he, h4, -⟩ := hlast v x hx
        exact absurd h4 (hv e he)
    refine ⟨?_, ?_, ?_⟩
    · intro e he
      rw [h3 e.1]
      cases hv : lastFreq (entries.map (fun e => (e.1, (e.2.1 : Int)))) e.1 with
      | some x =>
        obtain ⟨e', he', h4, rfl⟩ := hlast _ x hv
        rw [same_line e e' he he' h4.symm]
      | none => exact absurd rfl (hnone _ hv e he)
    · intro v hv hne hs
      rw [h3 v, hno v hv]
      simp only
      rw [if_pos ((hst v).mpr ⟨hne, hs⟩)]
    · intro v hv
      have h4 : ¬ StartsEntry (entries.map (fun e => (e.1, (e.2.1 : Int)))) v := by
        rw [hst]
        rintro ⟨h5, e, he, h6⟩
        rcases hv with hv | hv
        · exact h5 hv
        · exact hv e he h6
      rw [h3 v, hno v]
      · simp only
        rw [if_neg h4]
      · rintro e he rfl
        rcases hv with hv | hv
        · exact (entries_writable e he).1.1 hv
        · exact hv e he (List.prefix_refl _)
  · exfalso
    have hm : dictLine l ∈ (fileLines data).map dictLine := List.mem_map_of_mem h1
    rw [hl, h2] at hm
    simp at hm

/-- C101: so does loading the tags of the POS tagger, with the tag of its line for each word and no other words. -/
theorem C101_tags (data : Bytes) (h : utf8Encode text = some data) : (loadTags data).2 = .ok () ∧
    (∀ e ∈ entries, (loadTags data).1.get? e.1 = some e.2.2) ∧
    ∀ v, (∀ e ∈ entries, e.1 ≠ v) → (loadTags data).1.get? v = none := by
  have hl := (file_read entries entries_writable data h).2
  obtain ⟨h1, h2⟩ := loadTagsLoop_ok _ _ hl []
  have h3 : ∀ v, (loadTags data).1.get? v = (entries.reverse.find? (fun e => e.1 == v)).map (fun e => e.2.2) := by
    intro v
    have h3 := h2 v
    change (loadTags data).1.get? v = _ at h3
    have : lastTag (entries.map (fun e => some (e.1, e.2.2))) v = (entries.reverse.find? (fun e => e.1 == v)).map (fun e => e.2.2) := by
      unfold lastTag
      have hf : (entries.map (fun e => some (e.1, e.2.2))).filterMap id = entries.map (fun e => (e.1, e.2.2)) := by
        rw [List.filterMap_map]; simp
      rw [hf, ← List.map_reverse, List.find?_map, Option.map_map]
      rfl
    rw [h3, this]
    cases (entries.reverse.find? (fun e => e.1 == v)).map (fun e => e.2.2) <;> rfl
  refine ⟨h1, fun e he => ?_, fun v hv => ?_⟩
  · rw [h3]
    cases hf : entries.reverse.find? (fun x => x.1 == e.1) with
    | some e' =>
      have hp := List.find?_some hf
      rw [same_line e' e (List.mem_reverse.mp (List.mem_of_find?_eq_some hf)) he (by simpa using hp)]
      rfl
    | none =>
      rw [List.find?_eq_none] at hf
      exact absurd (by simp) (hf e (List.mem_reverse.mpr he))
  · rw [h3, Option.map_eq_none_iff, List.find?_eq_none]
    intro e he
    simpa using hv e (List.mem_reverse.mp he)

/-! ## Using it -/

variable {F : Type _} [LinearOrder F]

/-- C101: `jieba.initialize` with the path of that file succeeds in a fresh process, whatever caches are there. -/
theorem C101_initialize (P : PSys F) (D : Path → Prop) (hD : CacheNames P.sys D) (w : World) (hw : CacheInv P.sys D w) (q : Path) (hq : q ≠ [])
    (hd : D (P.sys.abspath q)) (hn : (w.tok 0).initialized = false) (hdef : (w.tok 0).dictionary = none) (f : File)
    (hf : w.files (P.sys.abspath q) = some f) (h : utf8Encode text = some f.data) (io : Bool) :
    ∃ w1, initTok P.sys w 0 (some q) io = (w1, .ok ()) ∧ (w1.tok 0).initialized = true ∧ (w1.tok 0).total = 62485586 ∧
      SmallTable (w1.tok 0).freq := by
  obtain ⟨d, h1, h2⟩ := C101_load f.data h
  obtain ⟨w1, k1, k2, k3, k4, -, -⟩ := initTok_ok P D hD w hw ⟨[], none, some q, none, false, false⟩
    (by intro q' hq'; injection hq' with hq'; subst hq'; exact hd) hn hdef f.data _ (.given q f rfl hq hf) h1 io
  exact ⟨w1, k1, k4, k3, by rw [k2]; exact h2⟩

/-- C101: with that dictionary `cut` never raises, on any text, in any mode; in accurate mode it loses nothing; and without the HMM a token
is a word of the file, a single character, CR LF or made of ASCII letters and digits. -/
theorem C101_cut (E : Env F) (hs : SmallTable E.freq) (ht : E.total = 62485586) (s : Str) :
    (∀ ca hmm, (cut E ca hmm s).err = none) ∧
    (∀ hmm, (cut E false hmm s).out.flatten = s ∧ ∀ x ∈ (cut E false hmm s).out, x ≠ []) ∧
    ∀ x ∈ (cut E false false s).out, (∃ e ∈ entries, e.1 = x) ∨ x.length = 1 ∨ x = [0x0D, 0x0A] ∨ ∀ c ∈ x, isAlnum c = true := by
  have h1 : ∀ ca hmm, (cut E ca hmm s).err = none := fun ca hmm => C06_cut_never_raises E hs.nonNeg (by omega) ca hmm s
  refine ⟨h1, fun hmm => ⟨(C01_cut_lossless E hmm s).2 (h1 _ _), C02_cut_no_empty_token E hmm s⟩, ?_⟩
  intro x hx
  rcases C03_no_hmm_token_provenance E s x hx with h | h | h | h
  · exact Or.inl ((hs.words x).mp h)
  · exact Or.inr (Or.inl h)
  · exact Or.inr (Or.inr (Or.inl h))
  · exact Or.inr (Or.inr (Or.inr h.2))

theorem log_total_le : Real.log (62485586 : ℕ) ≤ 18 := by
  rw [Real.log_le_iff_le_exp (by norm_num)]
  have h1 : Real.exp 18 = Real.exp 1 ^ 18 := by rw [← Real.exp_nat_mul]; norm_num
  rw [h1]
  have h2 := Real.exp_one_gt_d9
  calc ((62485586 : ℕ) : ℝ) ≤ 2.7182818283 ^ 18 := by norm_num
    _ ≤ Real.exp 1 ^ 18 := pow_le_pow_left₀ (by norm_num) h2.le 18

/-- C101: with that dictionary and Python's floats, no segmentation of a run of up to a million Han characters is more than one percent
more probable than the one that `cut(HMM=False)` chooses. -/
theorem C101_best (log : Nat → ℚ) (hlog : GoodLog log) (freq : Freq) (hs : SmallTable freq) (T : FinalSeg.Tables ℚ) (force : List Str)
    (s : Str) (hne : s ≠ []) (hc : ∀ c ∈ s, isHan c = true) (hlen : s.length ≤ 1000000) :
    ∃ ts, cut ⟨dblArith log, freq, 62485586, T, force⟩ false false s = Gen.ok ts ∧ Admissible freq s ts ∧
      ∀ other, Admissible freq s other → segProb freq 62485586 other ≤ 1.01 * segProb freq 62485586 ts := by
  obtain ⟨ts, h1, h2, h3⟩ := C90_almost_best log hlog freq 62485586 T force hs.prefixClosed hs.nonNeg (by norm_num) 62485586 (by norm_num)
    (fun v x hv => by have := hs.get v x hv; push_cast; omega) s hne
    (fun c hcs => by
      have := hc c hcs
      simp only [isHan, Bool.and_eq_true, decide_eq_true_eq] at this
      constructor
      · simp [isWordCh, isHan, this]
      · simp only [isAlnum, isDigit, isUpper, isLower, Bool.or_eq_false_iff, Bool.and_eq_false_iff, decide_eq_false_iff_not]
        unfold Ch at *; omega) (by omega)
  refine ⟨ts, h1, h2, fun other ho => ?_⟩
  have h4 := h3 other ho
  have hp : 0 ≤ segProb freq 62485586 ts := (segScore_real freq hs.nonNeg 62485586 (by norm_num) ts).1.le
  have hx : Real.log (62485586 : ℕ) / 2 ^ 51 * (s.length * (s.length + 6)) ≤ 0.009 := by
    have hl : (s.length : ℝ) ≤ 1000000 := by exact_mod_cast hlen
    have hl0 : (0 : ℝ) ≤ s.length := by positivity
    have h5 : (s.length : ℝ) * (s.length + 6) ≤ 1000000 * 1000006 := by nlinarith
    have h6 := log_total_le
    have h7 : Real.log (62485586 : ℕ) / 2 ^ 51 ≤ 18 / 2 ^ 51 := div_le_div_of_nonneg_right h6 (by positivity)
    calc _ ≤ 18 / 2 ^ 51 * ((1000000 : ℝ) * 1000006) := mul_le_mul h7 h5 (by positivity) (by positivity)
      _ ≤ 0.009 := by norm_num
  have he : Real.exp (Real.log (62485586 : ℕ) / 2 ^ 51 * (s.length * (s.length + 6))) ≤ 1.01 := by
    refine (Real.exp_le_exp.mpr hx).trans ?_
    have h8 := Real.add_one_le_exp (-0.009 : ℝ)
    have h9 : Real.exp 0.009 * Real.exp (-0.009) = 1 := by rw [← Real.exp_add]; norm_num
    have := Real.exp_pos 0.009
    nlinarith
  calc _ ≤ _ := h4
    _ ≤ segProb freq 62485586 ts * 1.01 := mul_le_mul_of_nonneg_left he hp
    _ = _ := mul_comm _ _

/-- C101: with that dictionary a call reads the tables at most 51 times per character. -/
theorem C101_cost (S : Sys F) (t : Nat) (ca hmm : Bool) (s : Str) (io : Bool) (w : World) (hw : (w.tok t).initialized = true)
    (hs : SmallTable (w.tok t).freq) : accesses (cutL S t ca hmm (.str s) io) w ≤ 51 * s.length := by
  have := C81_cut_alone S t 15 ca hmm s io w hw (fun k hk => (hs.short k hk).2.1)
  omega

/-- C101: with that dictionary and its tags the POS tagger never raises and loses nothing, on any text; without the HMM it gives every word of
the file the tag of its line. -/
theorem C101_posseg (E : PEnv F) (hT : PosData.Shipped E.tables) (hσ : ∀ s t l, (E.σ s t l).Perm l) (hs : SmallTable E.freq)
    (ht : E.total = 62485586) (data : Bytes) (h : utf8Encode text = some data) (htab : E.tab = (loadTags data).1) (s : Str) :
    (∀ hmm, (Pos.cut E hmm s).err = none ∧ ((Pos.cut E hmm s).out.map Prod.fst).flatten = s) ∧
    ∀ p ∈ (Pos.cut E false s).out, ∀ e ∈ entries, e.1 = p.1 → p.2 = e.2.2 := by
  have h1 : ∀ hmm, (Pos.cut E hmm s).err = none := fun hmm => C40_posseg_total E hT hσ hs.nonNeg (by omega) hmm s
  refine ⟨fun hmm => ⟨h1 hmm, (C40_posseg_lossless E hT hσ hmm s).2.2 (h1 hmm)⟩, ?_⟩
  rintro p hp e he hep
  obtain ⟨k1, k2, -⟩ := C101_lines.2.2 e he
  have hr : ∀ c ∈ p.1, 0x4E00 ≤ c ∧ c ≤ 0x9FD5 := by
    intro c hc
    rw [← hep] at hc
    simpa [isHan] using k1 c hc
  have h3 := C43_tags_no_hmm E s p hp (fun c hc => by have := hr c hc; simp [isWordChPos, isHan, this]) (by
    rw [hep] at k2
    obtain ⟨c, x, hx⟩ := List.exists_cons_of_ne_nil (List.ne_nil_of_length_pos k2)
    refine ⟨c, by rw [hx]; simp, ?_⟩
    have := hr c (by rw [hx]; simp)
    simp only [isAlnum, isDigit, isUpper, isLower, Bool.or_eq_false_iff, Bool.and_eq_false_iff, decide_eq_false_iff_not]
    unfold Ch at *; omega)
  rw [h3, htab, tagOf, ← hep, (C101_tags data h).2.1 e he]; rfl

/-! ## Examples -/

/-- The first line of the file. -/
example : entries.head? = some (lit ['的'], 3188252, lit ['u', 'j']) := by decide +kernel

/-- There is such a table, so the theorems above are about something, and `的` is looked up to the frequency of the first line. -/
example : ∃ d, SmallTable d ∧ d.get? (lit ['的']) = some 3188252 := by
  obtain ⟨data, h⟩ := C101_encodes
  obtain ⟨d, -, hd⟩ := C101_load data h
  exact ⟨d, hd, hd.lines (lit ['的'], 3188252, lit ['u', 'j']) (List.mem_of_mem_head? (by decide +kernel))⟩

/-- A process with the file at `/d` and no caches meets the hypotheses of `C101_initialize`. -/
example (data : Bytes) :
    CacheNames samplePSys.sys (fun p => p = lit ['/', 'd']) ∧
    CacheInv samplePSys.sys (fun p => p = lit ['/', 'd']) (sampleStart.w.setFile (lit ['/', 'd']) (some ⟨data, 0⟩)) ∧
    (sampleStart.w.tok 0).initialized = false ∧ (sampleStart.w.tok 0).dictionary = none := by
  refine ⟨⟨fun p q h h' _ => h.trans h'.symm, ?_⟩, ⟨?_, ?_, ?_, ?_, ?_⟩, rfl, rfl⟩
  · rintro p rfl d hd h
    have hlen : ∀ d, 2 < (defaultCache samplePSys.sys d).length := by
      intro d
      cases d <;> simp [defaultCache, cachePath, Tok.new, truthyStr, pathJoin, samplePSys, sampleSys, lit]
    have := hlen d
    rw [← h] at this
    simp [lit] at this
  · intro t p h; simp [sampleStart, sampleWorld, Tok.new, World.setFile] at h
  · intro t; simp [sampleStart, sampleWorld, Tok.new, truthyStr, World.setFile]
  · intro p df cf x hp _ h
    exfalso
    have hlen : 2 < (defaultCache samplePSys.sys (some p)).length := by
      simp [defaultCache, cachePath, Tok.new, truthyStr, pathJoin, samplePSys, sampleSys, lit]
    simp only [World.setFile, sampleStart, sampleWorld] at h
    split at h
    · rename_i he; rw [he] at hlen; simp [lit] at hlen
    · simp at h
  · intro cf x h
    exfalso
    have hlen : 2 < (defaultCache samplePSys.sys none).length := by
      simp [defaultCache, cachePath, Tok.new, truthyStr, pathJoin, samplePSys, sampleSys, lit]
    simp only [World.setFile, sampleStart, sampleWorld] at h
    split at h
    · rename_i he; rw [he] at hlen; simp [lit] at hlen
    · simp at h
  · intro p f h
    simp only [World.setFile, sampleStart, sampleWorld] at h
    split at h
    · simp at h; rw [← h]; simp
    · simp at h

end Jieba.Props
