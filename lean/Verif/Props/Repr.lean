import Verif.Proofs.Repr
import Verif.Props.Pair
import Verif.Props.Segmentation
/-!
# C135: what `print(jieba.lcut(text))` and `print(posseg.lcut(text))` show
-/

set_option linter.unusedSectionVars false

namespace Jieba.Props
open Jieba Jieba.Spec Jieba.Pos Jieba.PosData

variable {F : Type _} [LinearOrder F]

/-- Code points as Python has them. -/
def Valid (s : Str) : Prop := ∀ c ∈ s, c ≤ 0x10FFFF

/-- C135: `repr` of a text is a literal of exactly this text, whatever follows it and whichever characters are taken to be printable; no text
begins with literals of two different texts. -/
theorem C135_repr_is_literal (pr : Ch → Bool) (s r : Str) (hs : Valid s) :
    Literal (strRepr pr s ++ r) s r ∧ ∀ s' r', Literal (strRepr pr s ++ r) s' r' → s' = s ∧ r' = r := by
  refine ⟨literal_strRepr pr s r hs, fun s' r' h => ?_⟩
  obtain ⟨h1, h2⟩ := literal_unique h (literal_strRepr pr s r hs)
  exact ⟨h1, h2⟩

/-- A literal with both quotes, a backslash, a line feed, a zero width space, an unprintable character beyond 65535 and a Chinese character. -/
example : Valid (lit ['\'', '"', '\\', '\n', '​', '北']) ∧
    strRepr (fun c => isHan c) (lit ['\'', '"', '\\', '\n', '​', '北']) =
      lit ['\'', '\\', '\'', '"', '\\', '\\', '\\', 'n', '\\', 'u', '2', '0', '0', 'b', '北', '\''] ∧
    strRepr (fun c => isHan c) (lit ['i', 't', '\'', 's']) = lit ['"', 'i', 't', '\'', 's', '"'] ∧
    strRepr (fun c => isHan c) [0x10FFFF, 0xAD, 0x1F] =
      lit ['\'', '\\', 'U', '0', '0', '1', '0', 'f', 'f', 'f', 'f', '\\', 'x', 'a', 'd', '\\', 'x', '1', 'f', '\''] := by
  unfold Valid; decide

/-- C135: double quotes are used if and only if there are single quotes and no double quotes in the text; printable characters other than the quote
and the backslash are shown as they are. -/
theorem C135_plain (pr : Ch → Bool) (s : Str) :
    ((strRepr pr s).head? = some 0x22 ↔ 0x27 ∈ s ∧ 0x22 ∉ s) ∧ ((strRepr pr s).head? = some 0x27 ↔ ¬ (0x27 ∈ s ∧ 0x22 ∉ s)) ∧
    ((∀ c ∈ s, c ≠ 0x27 ∧ c ≠ 0x5C ∧ ((0x20 ≤ c ∧ c < 0x7F) ∨ (0x7F < c ∧ pr c = true))) → strRepr pr s = [0x27] ++ s ++ [0x27]) := by
  refine ⟨?_, ?_, fun h => ?_⟩
  · simp only [strRepr, quoteOf, List.cons_append, List.head?_cons, Option.some.injEq]
    split <;> simp_all
  · simp only [strRepr, quoteOf, List.cons_append, List.head?_cons, Option.some.injEq]
    split <;> simp_all
  · have hq : quoteOf s = 0x27 := if_neg (fun e => (h _ e.1).1 rfl)
    have hr : ∀ c ∈ s, reprCh pr 0x27 c = [c] := by
      intro c hc
      obtain ⟨h1, h2, h3⟩ := h c hc
      unfold reprCh
      unfold Ch at *
      rw [if_neg (by omega), if_neg (by omega), if_neg (by omega), if_neg (by omega), if_neg (by omega)]
      rcases h3 with h3 | h3
      · rw [if_pos (by omega)]
      · rw [if_neg (by omega), if_pos h3.2]
    have : s.flatMap (reprCh pr 0x27) = s := by
      have : ∀ l : Str, (∀ c ∈ l, reprCh pr 0x27 c = [c]) → l.flatMap (reprCh pr 0x27) = l := by
        intro l
        induction l with
        | nil => intro _; rfl
        | cons c l ih => intro h; rw [List.flatMap_cons, h c (by simp), ih (fun x hx => h x (by simp [hx]))]; rfl
      exact this s hr
    rw [strRepr, hq, this]
    rfl

/-- C135: the elements of a list are separated by a comma and a space, between brackets. -/
theorem C135_layout {α : Type _} (r : α → Str) (l : List α) :
    listRepr r l = lit ['['] ++ (lit [',', ' ']).intercalate (l.map r) ++ lit [']'] := by
  have key : ∀ l : List α, ∀ x, r x ++ moreRepr r l = (lit [',', ' ']).intercalate (r x :: l.map r) ++ lit [']'] := by
    intro l
    induction l with
    | nil => intro x; simp [moreRepr]
    | cons y l ih =>
      intro x
      rw [List.map_cons, List.intercalate_cons_of_ne_nil (by simp), moreRepr, List.append_assoc, List.append_assoc, List.append_assoc, ih y]
  cases l with
  | nil => rfl
  | cons x l => rw [listRepr, List.append_assoc, key l x, List.map_cons, List.append_assoc]

/-- C135: everything shown is one line of printable characters: ASCII from the space to the tilde, and others only if they are printable. -/
theorem C135_one_line (pr : Ch → Bool) (ws : List Str) (ps : List Pair) :
    ∀ c, c ∈ listRepr (strRepr pr) ws ∨ c ∈ listRepr (pairRepr pr) ps → (0x20 ≤ c ∧ c < 0x7F) ∨ (0x7F < c ∧ pr c = true) := by
  have hw : ∀ w : Str, ∀ c ∈ strRepr pr w, (0x20 ≤ c ∧ c < 0x7F) ∨ (0x7F < c ∧ pr c = true) := strRepr_range pr
  have hl : ∀ (l : List Char), (∀ x ∈ lit l, 0x20 ≤ x ∧ x < 0x7F) → ∀ c ∈ lit l, (0x20 ≤ c ∧ c < 0x7F) ∨ (0x7F < c ∧ pr c = true) :=
    fun l h c hc => Or.inl (h c hc)
  have hp : ∀ p : Pair, ∀ c ∈ pairRepr pr p, (0x20 ≤ c ∧ c < 0x7F) ∨ (0x7F < c ∧ pr c = true) := by
    intro p c hc
    unfold pairRepr at hc
    simp only [List.mem_append] at hc
    rcases hc with (((hc | hc) | hc) | hc) | hc
    · exact hl _ (by decide) c hc
    · exact hw _ c hc
    · exact hl _ (by decide) c hc
    · exact hw _ c hc
    · exact hl _ (by decide) c hc
  have hm : ∀ {α : Type} (r : α → Str), (∀ x, ∀ c ∈ r x, (0x20 ≤ c ∧ c < 0x7F) ∨ (0x7F < c ∧ pr c = true)) →
      ∀ l, ∀ c ∈ moreRepr r l, (0x20 ≤ c ∧ c < 0x7F) ∨ (0x7F < c ∧ pr c = true) := by
    intro α r hr l
    induction l with
    | nil => exact hl _ (by decide)
    | cons x l ih =>
      intro c hc
      simp only [moreRepr, List.mem_append] at hc
      rcases hc with (hc | hc) | hc
      · exact hl _ (by decide) c hc
      · exact hr x c hc
      · exact ih c hc
  have hlist : ∀ {α : Type} (r : α → Str), (∀ x, ∀ c ∈ r x, (0x20 ≤ c ∧ c < 0x7F) ∨ (0x7F < c ∧ pr c = true)) →
      ∀ l, ∀ c ∈ listRepr r l, (0x20 ≤ c ∧ c < 0x7F) ∨ (0x7F < c ∧ pr c = true) := by
    intro α r hr l c hc
    cases l with
    | nil => exact hl _ (by decide) c hc
    | cons x l =>
      simp only [listRepr, List.mem_append] at hc
      rcases hc with (hc | hc) | hc
      · exact hl _ (by decide) c hc
      · exact hr x c hc
      · exact hm r hr l c hc
  intro c hc
  rcases hc with hc | hc
  · exact hlist _ hw ws c hc
  · exact hlist _ hp ps c hc

theorem strRepr_decodable (pr : Ch → Bool) : Decodable Valid (strRepr pr) :=
  fun x y r r' hx hy h => strRepr_inj pr pr x y r r' hx hy h

theorem pairRepr_decodable (pr : Ch → Bool) : Decodable (fun p : Pair => Valid p.1 ∧ Valid p.2) (pairRepr pr) := by
  intro x y r r' hx hy h
  simp only [pairRepr, List.append_assoc, List.append_cancel_left_eq] at h
  obtain ⟨h1, h2⟩ := strRepr_inj pr pr _ _ _ _ hx.1 hy.1 h
  rw [List.append_cancel_left_eq] at h2
  obtain ⟨h3, h4⟩ := strRepr_inj pr pr _ _ _ _ hx.2 hy.2 h2
  rw [List.append_cancel_left_eq] at h4
  exact ⟨Prod.ext h1 h3, h4⟩

/-- C135: `repr` of a pair determines word and flag, also if there are slashes in the flag (unlike `str`, see C86). -/
theorem C135_pair (pr : Ch → Bool) (p q : Pair) (hp : Valid p.1 ∧ Valid p.2) (hq : Valid q.1 ∧ Valid q.2) (h : pairRepr pr p = pairRepr pr q) :
    p = q :=
  (pairRepr_decodable pr p q [] [] hp hq (by rw [h])).1

/-- C135: what is shown of a list of words or of pairs determines the list. -/
theorem C135_lists (pr : Ch → Bool) :
    (∀ l l' : List Str, (∀ w ∈ l, Valid w) → (∀ w ∈ l', Valid w) → listRepr (strRepr pr) l = listRepr (strRepr pr) l' → l = l') ∧
    ∀ l l' : List Pair, (∀ p ∈ l, Valid p.1 ∧ Valid p.2) → (∀ p ∈ l', Valid p.1 ∧ Valid p.2) →
      listRepr (pairRepr pr) l = listRepr (pairRepr pr) l' → l = l' := by
  constructor
  · intro l l' hl hl' h
    refine listRepr_inj Valid _ (strRepr_decodable pr) (fun x => ?_) l l' hl hl' h
    have := quoteOf_eq x
    constructor
    · simp only [strRepr, List.cons_append, List.head?_cons, ne_eq, Option.some.injEq]
      intro e
      rw [e] at this
      revert this
      decide
    · simp [strRepr]
  · intro l l' hl hl' h
    refine listRepr_inj _ _ (pairRepr_decodable pr) (fun x => ?_) l l' hl hl' h
    constructor
    · simp [pairRepr, lit]
    · simp [pairRepr, lit]

/-- C135: so what `print(jieba.lcut(text))` shows determines the tokens, and the text; for any two dictionaries and settings. -/
theorem C135_printed_cut (pr : Ch → Bool) (E E' : Env F) (hmm hmm' : Bool) (s s' : Str) (hs : Valid s) (hs' : Valid s')
    (he : (cut E false hmm s).err = none) (he' : (cut E' false hmm' s').err = none)
    (h : listRepr (strRepr pr) (cut E false hmm s).out = listRepr (strRepr pr) (cut E' false hmm' s').out) :
    (cut E false hmm s).out = (cut E' false hmm' s').out ∧ s = s' := by
  have e := (C01_cut_lossless E hmm s).2 he
  have e' := (C01_cut_lossless E' hmm' s').2 he'
  have h1 : (cut E false hmm s).out = (cut E' false hmm' s').out := by
    refine (C135_lists pr).1 _ _ (fun w hw c hc => hs c ?_) (fun w hw c hc => hs' c ?_) h
    · rw [← e]; exact List.mem_flatten.mpr ⟨w, hw, hc⟩
    · rw [← e']; exact List.mem_flatten.mpr ⟨w, hw, hc⟩
  exact ⟨h1, by rw [← e, ← e', h1]⟩

/-- C135: and what `print(posseg.lcut(text))` shows determines words, tags and text, with the shipped tables and whatever the tags of the
dictionaries are. -/
theorem C135_printed_tags (pr : Ch → Bool) (E E' : PEnv F) (hm hm' : Bool) (hT : Shipped E.tables) (hT' : Shipped E'.tables)
    (hσ : ∀ s t l, (E.σ s t l).Perm l) (hσ' : ∀ s t l, (E'.σ s t l).Perm l)
    (htab : ∀ w g, E.tab.get? w = some g → Valid g) (htab' : ∀ w g, E'.tab.get? w = some g → Valid g) (s s' : Str)
    (hs : Valid s) (hs' : Valid s') (he : (Pos.cut E hm s).err = none) (he' : (Pos.cut E' hm' s').err = none)
    (h : listRepr (pairRepr pr) (Pos.cut E hm s).out = listRepr (pairRepr pr) (Pos.cut E' hm' s').out) :
    (Pos.cut E hm s).out = (Pos.cut E' hm' s').out ∧ s = s' := by
  have key : ∀ (E : PEnv F) (hm : Bool), Shipped E.tables → (∀ s t l, (E.σ s t l).Perm l) →
      (∀ w g, E.tab.get? w = some g → Valid g) → ∀ s, Valid s → (Pos.cut E hm s).err = none →
      ∀ p ∈ (Pos.cut E hm s).out, Valid p.1 ∧ Valid p.2 := by
    intro E hm hT hσ htab s hs he p hp
    constructor
    · intro c hc
      refine hs c ?_
      rw [← (C40_posseg_lossless E hT hσ hm s).2.2 he]
      exact List.mem_flatten.mpr ⟨p.1, List.mem_map_of_mem hp, hc⟩
    · rcases C85_shipped_tags E hm hT hσ s p hp with h | h | ⟨-, h⟩
      · exact htab _ _ h
      · have : ∀ g ∈ [lit ['x'], lit ['m'], lit ['e', 'n', 'g']], ∀ c ∈ g, c ≤ 0x10FFFF := by decide
        exact this _ h
      · have : ∀ g ∈ hmmTags, ∀ c ∈ g, c ≤ 0x10FFFF := by decide +kernel
        exact this _ h
  have h1 := (C135_lists pr).2 _ _ (key E hm hT hσ htab s hs he) (key E' hm' hT' hσ' htab' s' hs' he') h
  refine ⟨h1, ?_⟩
  rw [← (C40_posseg_lossless E hT hσ hm s).2.2 he, ← (C40_posseg_lossless E' hT' hσ' hm' s').2.2 he', h1]

/-- C135: `repr` of a tokenizer determines its dictionary (`None` is shown differently from a file called None), and no tokenizer is shown like
a POS tokenizer. -/
theorem C135_tokenizers (pr : Ch → Bool) (x y : Tok) (hx : ∀ p, x.dictionary = some p → Valid p) (hy : ∀ p, y.dictionary = some p → Valid p) :
    (tokRepr pr x = tokRepr pr y ↔ x.dictionary = y.dictionary) ∧ (posTokRepr pr x = posTokRepr pr y ↔ x.dictionary = y.dictionary) ∧
      tokRepr pr x ≠ posTokRepr pr y := by
  have hne : ∀ p r, strRepr pr p ++ r ≠ lit ['N', 'o', 'n', 'e', '>'] := by
    intro p r e
    have := quoteOf_eq p
    simp only [strRepr, List.cons_append, lit, List.map_cons, List.cons.injEq] at e
    rw [e.1] at this
    revert this
    decide
  have key : tokRepr pr x = tokRepr pr y ↔ x.dictionary = y.dictionary := by
    constructor
    · intro h
      unfold tokRepr at h
      rw [List.append_assoc, List.append_assoc, List.append_cancel_left_eq] at h
      cases ex : x.dictionary with
      | none =>
        cases ey : y.dictionary with
        | none => rfl
        | some q => rw [ex, ey] at h; exact absurd h.symm (hne q _)
      | some p =>
        cases ey : y.dictionary with
        | none => rw [ex, ey] at h; exact absurd h (hne p _)
        | some q =>
          rw [ex, ey] at h
          rw [(strRepr_inj pr pr p q _ _ (hx p ex) (hy q ey) h).1]
    · intro h; unfold tokRepr; rw [h]
  refine ⟨key, ?_, ?_⟩
  · rw [← key]
    unfold posTokRepr
    rw [List.append_cancel_right_eq, List.append_cancel_left_eq]
  · intro h
    simp [tokRepr, posTokRepr, lit] at h

/-- What is shown: `['北京', '\n', "it's"]`, `[pair('北京', 'n/s')]`, `<Tokenizer dictionary=None>`. -/
example : listRepr (strRepr isHan) [lit ['北', '京'], lit ['\n'], lit ['i', 't', '\'', 's']] =
      lit ['[', '\'', '北', '京', '\'', ',', ' ', '\'', '\\', 'n', '\'', ',', ' ', '"', 'i', 't', '\'', 's', '"', ']'] ∧
    listRepr (pairRepr isHan) [(lit ['北', '京'], lit ['n', '/', 's'])] =
      lit ['[', 'p', 'a', 'i', 'r', '(', '\'', '北', '京', '\'', ',', ' ', '\'', 'n', '/', 's', '\'', ')', ']'] ∧
    tokRepr isHan (Tok.new none) = lit "<Tokenizer dictionary=None>".toList ∧
    posTokRepr isHan (Tok.new (some (lit ['d']))) = lit "<POSTokenizer tokenizer=<Tokenizer dictionary='d'>>".toList := by
  decide

/-- The hypotheses of `C135_printed_cut` and `C135_printed_tags` are met. -/
example : Valid (lit ['北', '京', '大', '学', '\n']) ∧ (cut sampleEnv false true (lit ['北', '京', '大', '学', '\n'])).err = none ∧
    ∃ E : PEnv Int, Shipped E.tables ∧ (∀ s t l, (E.σ s t l).Perm l) ∧ (∀ w g, E.tab.get? w = some g → Valid g) ∧
      (Pos.cut E false (lit ['北', '京', '大', '学', '\n'])).err = none := by
  refine ⟨by unfold Valid; decide, by decide +kernel,
    { samplePEnv with tables := constTables 0, tab := [(lit ['北', '京'], lit ['n', '/', 's'])] },
    constTables_shipped 0, fun _ _ _ => List.Perm.refl _, ?_, by decide +kernel⟩
  intro w g h
  simp only [PyDict.get?] at h
  split at h
  · simp only [Option.some.injEq] at h; subst h; unfold Valid; decide
  · simp at h

end Jieba.Props
