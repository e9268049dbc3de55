import Verif.Spec.Fields
import Verif.Model.Dict
import Verif.Model.Keywords
import Verif.Model.PosWorld
import Verif.Proofs.Codec
import Verif.Proofs.Render
import Mathlib.Data.List.Forall2
/-!
# The functions of the model that read lines agree with `Spec/Fields`
-/

namespace Jieba
open Jieba.Spec Jieba.Analyse Jieba.Pos

/-! ## strip -/

theorem dropWhile_all (p : Nat → Bool) (u v : List Nat) (h : ∀ c ∈ u, p c = true) : (u ++ v).dropWhile p = v.dropWhile p := by
  induction u with
  | nil => rfl
  | cons c u ih =>
    rw [List.cons_append, List.dropWhile_cons, if_pos (h c (by simp))]
    exact ih (fun c hc => h c (List.mem_cons_of_mem _ hc))

theorem dropWhile_split (p : Nat → Bool) (s : List Nat) :
    ∃ pre, s = pre ++ s.dropWhile p ∧ (∀ c ∈ pre, p c = true) ∧ ∀ c, (s.dropWhile p).head? = some c → p c = false := by
  induction s with
  | nil => exact ⟨[], rfl, by simp, by simp⟩
  | cons a s ih =>
    obtain ⟨pre, h1, h2, h3⟩ := ih
    rw [List.dropWhile_cons]
    by_cases h : p a = true
    · simp only [h, if_true]
      refine ⟨a :: pre, by rw [List.cons_append, ← h1], ?_, h3⟩
      intro c hc
      rcases List.mem_cons.mp hc with rfl | hc
      · exact h
      · exact h2 c hc
    · simp only [h]
      exact ⟨[], by simp, by simp, by simpa using h⟩

theorem trimmedBy_strip (p : Nat → Bool) (s : List Nat) : TrimmedBy p s (stripBy p s) := by
  obtain ⟨pre, h1, h2, h3⟩ := dropWhile_split p s
  obtain ⟨post, h4, h5, h6⟩ := dropWhile_split p (s.dropWhile p).reverse
  have he : stripBy p s = ((s.dropWhile p).reverse.dropWhile p).reverse := rfl
  have h7 : s.dropWhile p = stripBy p s ++ post.reverse := by
    rw [he, ← List.reverse_append, ← h4, List.reverse_reverse]
  refine ⟨pre, post.reverse, ?_, ?_, ?_, ?_⟩
  · rw [List.append_assoc, ← h7]; exact h1
  · intro c hc
    rcases List.mem_append.mp hc with hc | hc
    · exact h2 c hc
    · exact h5 c (List.mem_reverse.mp hc)
  · intro c hc
    refine h3 c ?_
    rw [h7]
    cases hm : stripBy p s with
    | nil => rw [hm] at hc; simp at hc
    | cons a m => rw [hm] at hc; simpa using hc
  · intro c hc
    rw [he, List.getLast?_reverse] at hc
    exact h6 c hc

theorem trimmedBy_iff (p : Nat → Bool) (s mid : List Nat) : TrimmedBy p s mid ↔ stripBy p s = mid := by
  constructor
  · rintro ⟨pre, post, rfl, h, h1, h2⟩
    have hpre : ∀ c ∈ pre, p c = true := fun c hc => h c (List.mem_append_left _ hc)
    have hpost : ∀ c ∈ post, p c = true := fun c hc => h c (List.mem_append_right _ hc)
    have e : stripBy p (pre ++ mid ++ post) = stripBy p (mid ++ post) := by
      unfold stripBy
      rw [List.append_assoc, dropWhile_all p pre _ hpre]
    rw [e]
    by_cases hm : mid = []
    · subst hm
      unfold stripBy
      have := dropWhile_all p post [] hpost
      rw [List.append_nil] at this
      rw [List.nil_append, this]; rfl
    · exact stripBy_append p mid post hm h1 h2 hpost
  · rintro rfl; exact trimmedBy_strip p s

/-! ## split -/

theorem splitOn1_ne_nil (sep : Nat) (s : List Nat) : splitOn1 sep s ≠ [] := by
  cases s with
  | nil => simp [splitOn1]
  | cons c s =>
    unfold splitOn1
    split
    · simp
    · split <;> simp

theorem splitOn1_fields (sep : Nat) (s : List Nat) : FieldsOf sep s (splitOn1 sep s) := by
  refine ⟨splitOn1_ne_nil sep s, ?_⟩
  induction s with
  | nil => simp [splitOn1]
  | cons c s ih =>
    unfold splitOn1
    have hne := splitOn1_ne_nil sep s
    split
    · next h =>
      subst h
      refine ⟨by simpa using ih.1, ?_⟩
      rw [List.intercalate_cons_of_ne_nil hne, ← ih.2]; rfl
    · next h =>
      cases hw : splitOn1 sep s with
      | nil => exact absurd hw hne
      | cons w ws =>
        rw [hw] at ih
        refine ⟨?_, ?_⟩
        · intro f hf
          rcases List.mem_cons.mp hf with rfl | hf
          · simp only [List.mem_cons, not_or]
            exact ⟨fun e => h e.symm, ih.1 w (by simp)⟩
          · exact ih.1 f (by simp [hf])
        · have := ih.2
          cases ws with
          | nil => simpa using this
          | cons v ws =>
            rw [List.intercalate_cons_of_ne_nil (by simp)] at this ⊢
            rw [this]; simp

theorem fieldsOf_iff (sep : Nat) (s : List Nat) (fs : List (List Nat)) : FieldsOf sep s fs ↔ splitOn1 sep s = fs := by
  constructor
  · rintro ⟨h1, h2, rfl⟩
    induction fs with
    | nil => exact absurd rfl h1
    | cons f fs ih =>
      by_cases hfs : fs = []
      · subst hfs
        simpa using splitOn1_none sep f (h2 f (by simp))
      · rw [List.intercalate_cons_of_ne_nil hfs]
        have := splitOn1_cons sep f ([sep].intercalate fs) (h2 f (by simp))
        simp only [List.append_assoc, List.singleton_append] at this ⊢
        rw [this, ih hfs (fun g hg => h2 g (List.mem_cons_of_mem _ hg))]
  · rintro rfl; exact splitOn1_fields sep s

/-! ## lines -/

theorem fileLines_last (l : Bytes) (hl : l ≠ []) (h : 0x0A ∉ l) : fileLines l = [l] := by
  have key : ∀ (l acc : Bytes), 0x0A ∉ l → fileLines.go l acc = if acc ++ l = [] then [] else [acc ++ l] := by
    intro l
    induction l with
    | nil => intro acc _; simp [fileLines.go]
    | cons c l ih =>
      intro acc h
      simp only [List.mem_cons, not_or] at h
      unfold fileLines.go
      rw [if_neg (fun e => h.1 e.symm), ih _ h.2]
      simp
  unfold fileLines
  rw [key l [] h]
  simp [hl]

theorem fileLines_spec (b : Bytes) : FileLines b (fileLines b) := by
  suffices h : ∀ n, ∀ b : Bytes, b.length ≤ n → FileLines b (fileLines b) from h _ b le_rfl
  intro n
  induction n with
  | zero =>
    intro b hb
    have : b = [] := List.length_eq_zero_iff.mp (by omega)
    subst this; exact .nil
  | succ n ih =>
    intro b hb
    by_cases hm : 0x0A ∈ b
    · obtain ⟨l, r, rfl, hl⟩ := List.eq_append_cons_of_mem hm
      rw [fileLines_line l r hl]
      refine .line l r _ hl (ih r ?_)
      simp at hb; omega
    · by_cases hb0 : b = []
      · subst hb0; exact .nil
      · rw [fileLines_last b hb0 hm]; exact .last b hb0 hm

theorem fileLines_iff (b : Bytes) (ls : List Bytes) : FileLines b ls ↔ fileLines b = ls := by
  constructor
  · intro h
    induction h with
    | nil => rfl
    | last l h1 h2 => exact fileLines_last l h1 h2
    | line l b ls h _ ih => rw [fileLines_line l b h, ih]
  · rintro rfl; exact fileLines_spec b

theorem splitlines_go_last (l acc : Str) (h : ∀ c ∈ l, isLineBreak c = false) :
    splitlines.go l acc = if acc ++ l = [] then [] else [acc ++ l] := by
  induction l generalizing acc with
  | nil => simp [splitlines.go]
  | cons c l ih =>
    have hc := h c List.mem_cons_self
    have h' : ∀ c ∈ l, isLineBreak c = false := fun c hc => h c (List.mem_cons_of_mem _ hc)
    rw [splitlines.go.eq_3]
    · rw [if_neg (by simp [hc]), ih _ h']; simp
    · rintro s rfl -
      exact absurd hc (by decide)

theorem splitlines_go_skip (l s acc : Str) (h : ∀ c ∈ l, isLineBreak c = false) :
    splitlines.go (l ++ s) acc = splitlines.go s (acc ++ l) := by
  induction l generalizing acc with
  | nil => simp
  | cons c l ih =>
    have hc := h c List.mem_cons_self
    have h' : ∀ c ∈ l, isLineBreak c = false := fun c hc => h c (List.mem_cons_of_mem _ hc)
    rw [List.cons_append, splitlines.go.eq_3]
    · rw [if_neg (by simp [hc]), ih _ h']; simp
    · rintro s rfl -
      exact absurd hc (by decide)

theorem splitlines_crlf (l s : Str) (h : ∀ c ∈ l, isLineBreak c = false) :
    splitlines (l ++ 0x0D :: 0x0A :: s) = l :: splitlines s := by
  unfold splitlines
  rw [splitlines_go_skip l _ [] h, splitlines.go]; rfl

theorem splitlines_break (l s : Str) (c : Nat) (h : ∀ c ∈ l, isLineBreak c = false) (hc : isLineBreak c = true)
    (hn : ¬ (c = 0x0D ∧ s.head? = some 0x0A)) : splitlines (l ++ c :: s) = l :: splitlines s := by
  unfold splitlines
  rw [splitlines_go_skip l _ [] h, splitlines.go.eq_3]
  · rw [if_pos hc]; rfl
  · rintro t rfl rfl
    exact hn ⟨rfl, rfl⟩

theorem first_break (s : Str) : (∀ c ∈ s, isLineBreak c = false) ∨
    ∃ l c t, s = l ++ c :: t ∧ (∀ c ∈ l, isLineBreak c = false) ∧ isLineBreak c = true := by
  induction s with
  | nil => left; simp
  | cons a s ih =>
    cases ha : isLineBreak a with
    | true => right; exact ⟨[], a, s, rfl, by simp, ha⟩
    | false =>
      rcases ih with ih | ⟨l, c, t, rfl, h1, h2⟩
      · left
        intro c hc
        rcases List.mem_cons.mp hc with rfl | hc
        · exact ha
        · exact ih c hc
      · right
        refine ⟨a :: l, c, t, rfl, ?_, h2⟩
        intro c hc
        rcases List.mem_cons.mp hc with rfl | hc
        · exact ha
        · exact h1 c hc

theorem splitlines_spec (s : Str) : TextLines s (splitlines s) := by
  suffices h : ∀ n, ∀ s : Str, s.length ≤ n → TextLines s (splitlines s) from h _ s le_rfl
  intro n
  induction n with
  | zero =>
    intro s hs
    have : s = [] := List.length_eq_zero_iff.mp (by omega)
    subst this; exact .nil
  | succ n ih =>
    intro s hs
    rcases first_break s with h | ⟨l, c, t, rfl, h1, h2⟩
    · by_cases hs0 : s = []
      · subst hs0; exact .nil
      · have : splitlines s = [s] := by unfold splitlines; rw [splitlines_go_last s [] h]; simp [hs0]
        rw [this]; exact .last s hs0 h
    · by_cases hc : c = 0x0D ∧ t.head? = some 0x0A
      · obtain ⟨rfl, ht⟩ := hc
        cases t with
        | nil => simp at ht
        | cons d t =>
          simp at ht; subst ht
          rw [splitlines_crlf l t h1]
          refine .crlf l t _ h1 (ih t ?_)
          simp at hs; omega
      · rw [splitlines_break l t c h1 h2 hc]
        refine .line l c t _ h1 h2 hc (ih t ?_)
        simp at hs; omega

theorem textLines_iff (s : Str) (ls : List Str) : TextLines s ls ↔ splitlines s = ls := by
  constructor
  · intro h
    induction h with
    | nil => rfl
    | last l h1 h2 => unfold splitlines; rw [splitlines_go_last l [] h2]; simp [h1]
    | crlf l s ls h _ ih => rw [splitlines_crlf l s h, ih]
    | line l c s ls h h1 h2 _ ih => rw [splitlines_break l s c h h1 h2, ih]
  · rintro rfl; exact splitlines_spec s

/-! ## int -/

theorem digitValue_under : digitValue 0x5F = none := by decide

/-- What `digitsGo` accepts: `pre` has been read, its value is `acc` (an underscore was read after it if `us`). -/
theorem digitsGo_sound (s : Str) (acc : Nat) (us : Bool) (n : Nat) (pre : Str) (hp : DigitText pre acc)
    (h : digitsGo acc us s = some n) : DigitText (pre ++ (if us then [0x5F] else []) ++ s) n := by
  induction s generalizing acc us pre with
  | nil =>
    unfold digitsGo at h
    cases us with
    | true => simp at h
    | false => simp at h; subst h; simpa using hp
  | cons c s ih =>
    unfold digitsGo at h
    split at h
    · next hc =>
      cases us with
      | true => simp at h
      | false =>
        simp only [Bool.false_eq_true, if_false] at h
        have := ih acc true pre hp h
        subst hc
        simpa using this
    · split at h
      · next d hd =>
        cases us with
        | true =>
          have := ih (acc * 10 + d) false (pre ++ [0x5F, c]) (.under pre acc c d hp hd) h
          simpa using this
        | false =>
          have := ih (acc * 10 + d) false (pre ++ [c]) (.next pre acc c d hp hd) h
          simpa using this
      · simp at h

theorem digitsGo_next (s : Str) (acc : Nat) (us : Bool) (n c d : Nat) (h : digitsGo acc us s = some n) (hd : digitValue c = some d) :
    digitsGo acc us (s ++ [c]) = some (n * 10 + d) ∧ digitsGo acc us (s ++ [0x5F, c]) = some (n * 10 + d) := by
  have hc : c ≠ 0x5F := by rintro rfl; rw [digitValue_under] at hd; simp at hd
  induction s generalizing acc us with
  | nil =>
    unfold digitsGo at h
    cases us with
    | true => simp at h
    | false =>
      simp at h; subst h
      simp [digitsGo, hc, hd]
  | cons a s ih =>
    unfold digitsGo at h
    simp only [List.cons_append]
    unfold digitsGo
    split at h
    · next ha =>
      rw [if_pos ha, if_pos ha]
      cases us with
      | true => simp at h
      | false => simp only [Bool.false_eq_true, if_false] at h ⊢; exact ih _ _ h
    · next ha =>
      rw [if_neg ha, if_neg ha]
      split at h
      · next e he => exact ih _ _ h
      · simp at h

theorem digitText_iff (s : Str) (n : Nat) : DigitText s n ↔ digitsValue s = some n := by
  constructor
  · intro h
    induction h with
    | digit c d h => simp [digitsValue, h, digitsGo]
    | next s n c d _ hd ih =>
      cases s with
      | nil => simp [digitsValue] at ih
      | cons a s =>
        simp only [digitsValue, List.cons_append] at ih ⊢
        split at ih
        · next e he => exact (digitsGo_next s e false n c d ih hd).1
        · simp at ih
    | under s n c d _ hd ih =>
      cases s with
      | nil => simp [digitsValue] at ih
      | cons a s =>
        simp only [digitsValue, List.cons_append] at ih ⊢
        split at ih
        · next e he => exact (digitsGo_next s e false n c d ih hd).2
        · simp at ih
  · intro h
    cases s with
    | nil => simp [digitsValue] at h
    | cons c s =>
      simp only [digitsValue] at h
      split at h
      · next d hd =>
        have := digitsGo_sound s d false n [c] (.digit c d hd) h
        simpa using this
      · simp at h

theorem digitsValue_sign (c : Nat) (s : Str) (h : c = 0x2B ∨ c = 0x2D) : digitsValue (c :: s) = none := by
  have : digitValue c = none := by rcases h with rfl | rfl <;> decide
  simp [digitsValue, this]

theorem intText_iff (s : Str) (n : Int) : IntText s n ↔ pyInt s = some n := by
  unfold IntText pyInt
  simp only [trimmedBy_iff, digitText_iff]
  generalize stripBy isIntSpace s = m
  constructor
  · rintro ⟨_, rfl, k, ds, h, h1⟩
    rcases h1 with ⟨rfl, rfl⟩ | ⟨rfl, rfl⟩ | ⟨rfl, rfl⟩
    · cases m with
      | nil => simp [digitsValue] at h
      | cons c t =>
        have h1 : c ≠ 0x2B := by rintro rfl; rw [digitsValue_sign _ _ (by simp)] at h; simp at h
        have h2 : c ≠ 0x2D := by rintro rfl; rw [digitsValue_sign _ _ (by simp)] at h; simp at h
        simp [h1, h2, h]
    · simp [h]
    · simp [h]
  · intro h
    refine ⟨m, rfl, ?_⟩
    cases m with
    | nil => simp at h
    | cons c t =>
      dsimp only at h
      split at h
      · next hc =>
        cases hd : digitsValue t with
        | none => rw [hd] at h; simp at h
        | some k =>
          rw [hd] at h
          exact ⟨k, t, hd, Or.inr (Or.inl ⟨by rw [hc], (Option.some.inj h).symm⟩)⟩
      · split at h
        · next hc =>
          cases hd : digitsValue t with
          | none => rw [hd] at h; simp at h
          | some k =>
            rw [hd] at h
            exact ⟨k, t, hd, Or.inr (Or.inr ⟨by rw [hc], (Option.some.inj h).symm⟩)⟩
        · cases hd : digitsValue (c :: t) with
          | none => rw [hd] at h; simp at h
          | some k =>
            rw [hd] at h
            exact ⟨k, _, hd, Or.inl ⟨rfl, (Option.some.inj h).symm⟩⟩

/-! ## entries -/

theorem utf8_iff (s : Str) (b : Bytes) : utf8Encode s = some b ↔ utf8Decode b = some s :=
  ⟨utf8_decode_encode s b, utf8_encode_decode b s⟩

theorem lineFields_iff (line : Bytes) (fs : List Str) :
    LineFields line fs ↔ ∃ s, utf8Decode (stripBy isByteSpace line) = some s ∧ splitOn1 0x20 s = fs := by
  unfold LineFields
  simp only [trimmedBy_iff, utf8_iff, fieldsOf_iff]
  constructor
  · rintro ⟨b, s, rfl, h1, h2⟩; exact ⟨s, h1, h2⟩
  · rintro ⟨s, h1, h2⟩; exact ⟨_, s, rfl, h1, h2⟩

theorem dictEntry_iff (line : Bytes) (w : Str) (f : Int) : DictEntry line w f ↔ dictLine line = some (w, f) := by
  unfold DictEntry dictLine
  simp only [lineFields_iff, intText_iff]
  constructor
  · rintro ⟨g, rest, ⟨s, h1, h2⟩, h3⟩
    rw [h1]; simp only [h2, h3, Option.map_some]
  · intro h
    split at h
    · simp at h
    · next s hs =>
      split at h
      · next w' g rest hw =>
        obtain ⟨x, hx, he⟩ := Option.map_eq_some_iff.mp h
        simp only [Prod.mk.injEq] at he
        obtain ⟨rfl, rfl⟩ := he
        exact ⟨g, rest, ⟨s, hs, hw⟩, hx⟩
      · simp at h

theorem blank_iff (line : Bytes) : Blank line ↔ stripBy isByteSpace line = [] := by
  rw [← trimmedBy_iff]
  constructor
  · intro h; exact ⟨line, [], by simp, by rw [List.append_nil]; exact h, by simp, by simp⟩
  · rintro ⟨pre, post, rfl, h, -⟩
    intro c hc; exact h c (by simpa using hc)

theorem utf8Decode_nil_iff (b : Bytes) : utf8Decode b = some [] ↔ b = [] := by
  constructor
  · intro h
    have := utf8_encode_decode b [] h
    simpa [utf8Encode] using this.symm
  · rintro rfl; rfl

theorem tagLine_blank_iff (line : Bytes) : Blank line ↔ tagLine line = some none := by
  rw [blank_iff]
  unfold tagLine
  constructor
  · intro h; rw [h]; rfl
  · intro h
    split at h
    · simp at h
    · next hd => exact (utf8Decode_nil_iff _).mp hd
    · split at h <;> simp at h

theorem tagEntry_iff (line : Bytes) (w g : Str) : TagEntry line w g ↔ tagLine line = some (some (w, g)) := by
  unfold TagEntry tagLine
  simp only [lineFields_iff]
  constructor
  · rintro ⟨f, s, h1, h2⟩
    rw [h1]
    cases s with
    | nil => simp [splitOn1] at h2
    | cons c s => simp only [h2]
  · intro h
    split at h
    · simp at h
    · simp at h
    · next s _ hs =>
      split at h
      · next w' f g' hw =>
        simp only [Option.some.injEq, Prod.mk.injEq] at h
        obtain ⟨rfl, rfl⟩ := h
        exact ⟨f, _, hs, hw⟩
      · simp at h

theorem idfLine_iff {F : Type _} [LinearOrder F] (K : KSys F) (line : Str) (w : Str) (x : F) :
    (∃ mid n, TrimmedBy isSpace line mid ∧ FieldsOf 0x20 mid [w, n] ∧ K.float n = some x) ↔ idfLine K line = some (w, x) := by
  unfold idfLine
  simp only [trimmedBy_iff, fieldsOf_iff]
  constructor
  · rintro ⟨_, n, rfl, h2, h3⟩
    simp only [h2, h3, Option.map_some]
  · intro h
    split at h
    · next w' n hw =>
      obtain ⟨y, hy, he⟩ := Option.map_eq_some_iff.mp h
      simp only [Prod.mk.injEq] at he
      obtain ⟨rfl, rfl⟩ := he
      exact ⟨_, n, rfl, hw, hy⟩
    · simp at h

theorem map_some_iff {α β : Type _} (f : α → Option β) (ls : List α) (es : List β) :
    ls.map f = es.map some ↔ List.Forall₂ (fun l e => f l = some e) ls es := by
  induction ls generalizing es with
  | nil => cases es <;> simp
  | cons l ls ih =>
    cases es with
    | nil => simp
    | cons e es => simp [ih]

end Jieba
