import Verif.Proofs.LacShipped
/-!
# C97 — the network mode with the tables that are shipped
-/

namespace Jieba.Props
open Jieba Jieba.Spec Jieba.Paddle Jieba.LacData

/-- C97: the shipped word.dic and tag.dic load.  Numbers and words of word.dic belong together one to one, unknown characters have the id 20940 (one
number is left out before it), and the labels have the numbers 0 to 56. -/
theorem C97_load : ∃ D, Dataset.load (linesOf words) (linesOf tags) = .ok D ∧ Inverse D.word2id D.id2word ∧
    (∀ (c : Ch) (i : Nat), chars[i]? = some c → HasId D c i) ∧ (∀ c, c ∉ chars → HasId D c 20940) ∧
    ∀ i t, D.id2label.get? (strInt i) = some t ↔ 0 ≤ i ∧ tagNames[i.toNat]? = some t := by
  refine ⟨dataset, dataset_load, dataset_inverse, ?_, ?_, dataset_label⟩
  · intro c i h
    unfold HasId
    rw [if_pos ((dataset_known c).mpr (List.mem_of_getElem? h)), PyDict.get?_eq_some_iff_mem]
    · refine List.mem_map.mpr ⟨(i, [c]), ?_, rfl⟩
      unfold words
      exact List.mem_append_left _ (List.mem_map.mpr ⟨(c, i), List.mem_zipIdx_iff_getElem?.mpr h, rfl⟩)
    · have := words_names
      simpa only [dataset, PyDict.keys, List.map_map, Function.comp_def] using this
  · intro c h
    unfold HasId
    rw [if_neg (fun hk => h ((dataset_known c).mp hk))]
    exact dataset_oov

/-- The dataset that `predict` makes on import. -/
def Shipped (D : Dataset) : Prop := Dataset.load (linesOf words) (linesOf tags) = .ok D

theorem shipped_eq (D : Dataset) (h : Shipped D) : D = dataset := by
  rw [Shipped, dataset_load, Except.ok.injEq] at h
  exact h.symm

/-- C97: which characters it knows: all of ASCII but NUL, U+0001, tab, line feed, carriage return and the space; and all but 1010 of the Han
characters that jieba takes for such.  None of those after U+FFE5. -/
theorem C97_counts (D : Dataset) (h : Shipped D) :
    (∀ c, c < 128 → (D.word2id.has [c] = true ↔ c ∉ [0x00, 0x01, 0x09, 0x0A, 0x0D, 0x20])) ∧
    Exactly 1010 (fun c => isHan c = true ∧ D.word2id.has [c] = false) ∧
    (∀ c, D.word2id.has [c] = true → c ≤ 0xFFE5) := by
  rw [shipped_eq D h]
  refine ⟨?_, exactly_of_pop _ _ _ count_unknown ?_, ?_⟩
  · intro c hc
    rw [dataset_known, mem_chars]
    have key : ∀ c < 128, bits.testBit c = true ↔ c ∉ [0x00, 0x01, 0x09, 0x0A, 0x0D, 0x20] := by decide +kernel
    exact key c hc
  · intro c
    have h1 : dataset.word2id.has [c] = bits.testBit c := by rw [Bool.eq_iff_iff, dataset_known, mem_chars]
    rw [h1, Nat.testBit_xor, Nat.testBit_and, hanBits_testBit]
    have hs : isHan c = true → c < 2 ^ 16 := by
      intro h
      simp only [isHan, Bool.and_eq_true, decide_eq_true_eq] at h
      unfold Ch at *
      omega
    cases h2 : isHan c <;> cases h3 : bits.testBit c <;> simp_all
  · intro c hc
    have := chars_small c ((dataset_known c).mp hc)
    unfold Ch at *
    omega

/-- C97: hence, of any text, the words are a segmentation of the text without outer whitespace in which each character that word.dic does not have,
for instance each line end and each space, is a space. -/
theorem C97_words (D : Dataset) (h : Shipped D) (net : List Int → Except PyErr (List Int))
    (hnet : ∀ ids labels, net ids = .ok labels → ids.length ≤ labels.length) (s mid : Str) (hm : Stripped s mid) (ws ts : List Str)
    (hr : getResult D net s = .ok (ws, ts)) :
    IsSegmentation ws (mid.map (fun c => if c ∈ chars then c else 0x20)) ∧ ∀ w ∈ ws, 0x09 ∉ w ∧ 0x0A ∉ w ∧ 0x0D ∉ w := by
  rw [shipped_eq D h] at hr
  obtain ⟨-, mid', h1, h2⟩ := C67_end_to_end dataset dataset_inverse net hnet s ws ts hr
  have : mid' = mid := by rw [← stripped_unique s mid hm, stripped_unique s mid' h1]
  subst this
  have e : (fun c => if dataset.word2id.has [c] = true then c else 0x20) = (fun c => if c ∈ chars then c else 0x20) := by
    funext c
    by_cases hc : c ∈ chars
    · rw [if_pos hc, if_pos ((dataset_known c).mpr hc)]
    · rw [if_neg hc, if_neg (fun hk => hc ((dataset_known c).mp hk))]
  rw [e] at h2
  refine ⟨h2, ?_⟩
  intro w hw
  have key : ∀ x ∈ [0x09, 0x0A, 0x0D], x ∉ w := by
    intro x hx hxw
    have : x ∈ ws.flatten := List.mem_flatten.mpr ⟨w, hw, hxw⟩
    rw [h2.1] at this
    obtain ⟨c, -, hc⟩ := List.mem_map.mp this
    have hx' : x ∉ chars := not_blank x (by
      have : ∀ x ∈ [0x09, 0x0A, 0x0D], x ∈ [0, 1, 9, 10, 13, 32] := by decide
      exact this x hx)
    split at hc
    · next hcc => exact hx' (hc ▸ hcc)
    · subst hc; revert hx; decide
  exact ⟨key _ (by simp), key _ (by simp), key _ (by simp)⟩

/-- C97: it raises only when the network does or gives a label that is not one of the numbers 0 to 56. -/
theorem C97_raises (D : Dataset) (h : Shipped D) (net : List Int → Except PyErr (List Int)) (s mid : Str) (hm : Stripped s mid) (e : PyErr) :
    getResult D net s = .error e ↔ ∃ ids, List.Forall₂ (HasId D) mid ids ∧ (net ids = .error e ∨
      ∃ labels, net ids = .ok labels ∧ e = .keyError ∧ ∃ i ∈ labels.take mid.length, i < 0 ∨ 56 < i) := by
  rw [shipped_eq D h, C67_raises dataset dataset_inverse net s mid hm]
  have h1 : dataset.word2id.has oov = true := by rw [PyDict.has, dataset_oov]; rfl
  have h2 : ∀ i, dataset.id2label.get? (strInt i) = none ↔ i < 0 ∨ 56 < i := by
    intro i
    have hl : tagNames.length = 57 := by decide
    cases ho : dataset.id2label.get? (strInt i) with
    | none =>
      simp only [true_iff]
      by_contra hc
      have hi : i.toNat < tagNames.length := by omega
      have := (dataset_label i tagNames[i.toNat]).mpr ⟨by omega, List.getElem?_eq_getElem hi⟩
      rw [ho] at this; cases this
    | some t =>
      simp only [reduceCtorEq, false_iff]
      obtain ⟨h3, h4⟩ := (dataset_label i t).mp ho
      have := (List.getElem?_eq_some_iff.mp h4).1
      omega
  simp only [h1, h2, reduceCtorEq, false_and, and_false, false_or]

/-- The flags. -/
def paddleFlags : List Str :=
  [lit ['a'], lit ['a', 'd'], lit ['a', 'n'], lit ['c'], lit ['d'], lit ['f'], lit ['m'], lit ['n'], lit ['n', 'r'], lit ['n', 's'],
   lit ['n', 't'], lit ['n', 'w'], lit ['n', 'z'], lit ['p'], lit ['q'], lit ['r'], lit ['s'], lit ['t'], lit ['u'], lit ['v'],
   lit ['v', 'd'], lit ['v', 'n'], lit ['w'], lit ['x', 'c'], lit ['P', 'E', 'R'], lit ['L', 'O', 'C'], lit ['O', 'R', 'G'],
   lit ['T', 'I', 'M', 'E'], lit ['O']]

theorem flags_of_result (D : Dataset) (h : Shipped D) (net : List Int → Except PyErr (List Int)) (s : Str) (ws ts : List Str)
    (hr : getResult D net s = .ok (ws, ts)) : ∀ t ∈ ts, t ∈ paddleFlags := by
  rw [shipped_eq D h] at hr
  obtain ⟨ids, labels, tags', -, h2, h3, -, -, -, rfl⟩ := getResult_ok dataset dataset_inverse net s ws ts hr
  have ht : ∀ t ∈ tags', t ∈ tagNames := by
    rcases decodeLabels_cases dataset (labels.take ids.length) with ⟨ts', h4, h5⟩ | ⟨h4, -⟩
    · rw [h3, Except.ok.injEq] at h4
      subst h4
      intro t ht
      clear h3 hr
      generalize labels.take ids.length = l at h5
      induction h5 with
      | nil => cases ht
      | cons h _ ih =>
        rcases List.mem_cons.mp ht with rfl | ht
        · exact List.mem_of_getElem? ((dataset_label _ _).mp h).2
        · exact ih ht
    · rw [h3] at h4; cases h4
  intro t htm
  obtain ⟨g, hg, rfl⟩ := List.mem_map.mp htm
  cases g with
  | nil => exact absurd rfl (List.ne_nil_of_mem_splitBy hg)
  | cons p g =>
    have hp : p ∈ ((stripBy isSpace s).map (fun c => [shown dataset c])).zip tags' := by
      rw [← List.flatten_splitBy (fun p q : Str × Str => !decide (FirstOfWord p.2 q.2)) (List.zip _ _)]
      exact List.mem_flatten.mpr ⟨_, hg, by simp⟩
    have := ht p.2 (List.of_mem_zip (a := p.1) (b := p.2) hp).2
    have key : ∀ t ∈ tagNames, t.takeWhile (· ≠ 0x2D) ∈ paddleFlags := by decide +kernel
    exact key p.2 this

/-- C97: `posseg.cut` with `use_paddle` gives only these 29 flags. -/
theorem C97_flags (D : Dataset) (h : Shipped D) (net : List Int → Except PyErr (List Int)) (gbk : Bytes → Str) (text : PyText) :
    ∀ p ∈ (posCut D net gbk text).out, p.2 ∈ paddleFlags := by
  have hz : ∀ ws ts : List Str, ∀ p ∈ (zipTags ws ts).out, p.2 ∈ ts := by
    intro ws
    induction ws with
    | nil => intro ts p hp; cases hp
    | cons w ws ih =>
      intro ts p hp
      cases ts with
      | nil => cases hp
      | cons t ts =>
        have : p ∈ (w, t) :: (zipTags ws ts).out := by simpa [zipTags, Gen.andThen, Gen.ok] using hp
        rcases List.mem_cons.mp this with rfl | hp
        · simp
        · exact List.mem_cons_of_mem _ (ih ts p hp)
  intro p hp
  unfold posCut at hp
  split at hp
  · cases hp
  · cases hr : getResult D net (strdecode gbk text) with
    | error e => rw [hr] at hp; cases hp
    | ok r =>
      obtain ⟨ws, ts⟩ := r
      rw [hr] at hp
      exact flags_of_result D h net _ ws ts hr _ (hz ws ts p hp)

/-- 倊 (U+500A) is one of the 1010, 我 is known; a network that says `v-B` for everything; the line end comes out as a space. -/
example : isHan 0x500A = true ∧ 0x500A ∉ chars ∧ '我'.toNat ∈ chars ∧
    ∃ D, Shipped D ∧ getResult D (fun ids => .ok (ids.map fun _ => 38)) (lit ['我', '\n', '我']) =
      .ok ([lit ['我'], lit [' '], lit ['我']], [lit ['v'], lit ['v'], lit ['v']]) := by
  have k1 : '我'.toNat ∈ chars := (mem_chars _).mpr (by decide +kernel)
  have k2 : 0x500A ∉ chars := by rw [mem_chars]; decide +kernel
  refine ⟨by decide, k2, k1, dataset, dataset_load, ?_⟩
  obtain ⟨D, hD, -, h1, h2, h3⟩ := C97_load
  have hD' := shipped_eq D hD
  subst hD'
  obtain ⟨i, hi⟩ := List.mem_iff_getElem?.mp k1
  have k3 : 0x0A ∉ chars := not_blank _ (by simp)
  have hn : ∀ c, dataset.word2id.has [c] = decide (c ∈ chars) := by
    intro c; rw [Bool.eq_iff_iff, dataset_known, decide_eq_true_eq]
  have hl : dataset.id2label.get? (strInt 38) = some (lit ['v', '-', 'B']) := (h3 38 _).mpr ⟨by decide, by decide +kernel⟩
  have := C67_words dataset dataset_inverse (fun ids => .ok (ids.map fun _ => 38)) (lit ['我', '\n', '我']) (lit ['我', '\n', '我'])
    ⟨[], [], by simp, by simp, by decide, by decide⟩ [i, 20940, i] [38, 38, 38] [lit ['v', '-', 'B'], lit ['v', '-', 'B'], lit ['v', '-', 'B']]
    (.cons (h1 _ _ hi) (.cons (h2 _ k3) (.cons (h1 _ _ hi) .nil))) rfl (.cons hl (.cons hl (.cons hl .nil)))
  rw [this]
  simp only [lit, List.map_cons, List.map_nil, hn, k1, show '\n'.toNat ∉ chars from k3, decide_true, decide_false, if_true]
  decide +kernel

end Jieba.Props
