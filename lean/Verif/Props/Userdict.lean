import Verif.Proofs.Userdict
import Verif.Proofs.Render
import Verif.Proofs.Fields
import Verif.Proofs.World
import Verif.Props.Dictionary
/-!
# C19, C23, C30: bytes, dictionary files and user dictionary lines
-/

set_option linter.unusedSectionVars false

namespace Jieba.Props
open Jieba Jieba.Spec

variable {F : Type _} [LinearOrder F]

/-! ## C19 -/

/-- C19: for every text without surrogates (code points below U+110000) the UTF-8 bytes exist, and cutting the bytes is the
same as cutting the text: same tokens, same exceptions, same effect on the world, in every mode. -/
theorem C19_bytes_as_text (S : Sys F) (w : World) (t : Nat) (ca hm io : Bool) (s : Str)
    (hs : ∀ c ∈ s, isSurrogate c = false ∧ c < 0x110000) :
    ∃ b, utf8Encode s = some b ∧ cutW S w t ca hm (.bytes b) io = cutW S w t ca hm (.str s) io := by
  obtain ⟨b, hb⟩ := utf8Encode_isSome s hs
  refine ⟨b, hb, ?_⟩
  unfold cutW
  simp only [strdecode, utf8_decode_encode s b hb]

/-- C19, for `add_word` and `suggest_freq` on a tuple: bytes and text arguments are interchangeable. -/
theorem C19_bytes_arguments (S : Sys F) (w : World) (t : Nat) (io : Bool) (s : Str) (b : Bytes) (hb : utf8Encode s = some b)
    (freq : FreqArg) (tag : Option Str) (tune : Bool) (pre post : List PyText) :
    addWord S w t (.bytes b) freq tag io = addWord S w t (.str s) freq tag io ∧
    suggestFreq S w t (.tuple (pre ++ .bytes b :: post)) tune io = suggestFreq S w t (.tuple (pre ++ .str s :: post)) tune io := by
  have h : strdecode S.gbk (.bytes b) = strdecode S.gbk (.str s) := by
    simp only [strdecode, utf8_decode_encode s b hb]
  constructor
  · unfold addWord; rw [h]
  · unfold suggestFreq suggestCore
    simp only [List.map_append, List.map_cons, h]

/-- C19, second part: UTF-8 decoding accepts exactly the encodings of texts, and everything else goes to GBK: there is no
third case in which decoding raises. -/
theorem C19_decode_cases (gbk : Bytes → Str) (b : Bytes) :
    (∃ s, utf8Encode s = some b ∧ strdecode gbk (.bytes b) = s) ∨
    ((¬ ∃ s, utf8Encode s = some b) ∧ strdecode gbk (.bytes b) = gbk b) := by
  simp only [strdecode]
  cases h : utf8Decode b with
  | some s => left; exact ⟨s, utf8_encode_decode b s h, rfl⟩
  | none =>
    right
    refine ⟨?_, rfl⟩
    rintro ⟨s, hs⟩
    rw [utf8_decode_encode s b hs] at h; simp at h

/-- A text with characters of 1, 2, 3 and 4 bytes. -/
example : utf8Encode [0x61, 0xE9, 0x4E2D, 0x20000] = some [0x61, 0xC3, 0xA9, 0xE4, 0xB8, 0xAD, 0xF0, 0xA0, 0x80, 0x80] ∧
    ∀ c ∈ [0x61, 0xE9, 0x4E2D, 0x20000], isSurrogate c = false ∧ c < 0x110000 := by decide

/-! ## C23 -/

theorem gen_load (data : Bytes) :
    (∃ es : List (Str × Int), (fileLines data).map dictLine = es.map some ∧
      ∃ d, genPfdict data = .ok (d, (es.map Prod.snd).sum) ∧
        ∀ v, d.get? v = match lastFreq es v with
          | some f => some f
          | none => if StartsEntry es v then some 0 else none) ∨
    ((∃ l ∈ fileLines data, dictLine l = none) ∧ genPfdict data = .error .valueError) := by
  rcases genPfdict_cases data with ⟨es, h1, h2⟩ | h
  · left
    refine ⟨es, h1, _, h2, fun v => ?_⟩
    rw [registerAll_get?]
    unfold lookupAfter
    cases lastFreq es v <;> rfl
  · right; exact h

/-- C23: either every line of the file has a word and an integer frequency, and then loading succeeds, a word is looked up
to the frequency on its last line, any other non-empty beginning of a listed word to 0, everything else is not registered,
and the total is the sum over all lines; or some line has not, and loading fails with ValueError. -/
theorem C23_load (data : Bytes) : ∃ ls, FileLines data ls ∧
    ((∃ es : List (Str × Int), List.Forall₂ (fun l e => DictEntry l e.1 e.2) ls es ∧
      ∃ d, genPfdict data = .ok (d, (es.map Prod.snd).sum) ∧
        ∀ v, d.get? v = match lastFreq es v with
          | some f => some f
          | none => if StartsEntry es v then some 0 else none) ∨
    ((∃ l ∈ ls, ∀ word freq, ¬ DictEntry l word freq) ∧ genPfdict data = .error .valueError)) := by
  refine ⟨fileLines data, fileLines_spec data, ?_⟩
  rcases gen_load data with ⟨es, h1, h2⟩ | ⟨⟨l, h1, h2⟩, h3⟩
  · exact Or.inl ⟨es, ((map_some_iff _ _ _).mp h1).imp (fun l e h => (dictEntry_iff l e.1 e.2).mpr h), h2⟩
  · refine Or.inr ⟨⟨l, h1, fun w f h => ?_⟩, h3⟩
    rw [(dictEntry_iff l w f).mp h] at h2; simp at h2

/-- Both kinds of files: the third field of a line is not looked at, and ` 7` and `1_000` are integers too; a line with one field is
an error. -/
example : DictEntry [97, 32, 43, 55, 32, 110, 32, 120, 13, 10] [97] 7 ∧ DictEntry [97, 32, 49, 95, 48] [97] 10 ∧
    ∀ w f, ¬ DictEntry [97, 10] w f := by
  refine ⟨(dictEntry_iff _ _ _).mpr (by decide +kernel), (dictEntry_iff _ _ _).mpr (by decide +kernel), fun w f h => ?_⟩
  have := (dictEntry_iff _ _ _).mp h
  rw [show dictLine [97, 10] = none by decide +kernel] at this
  simp at this

/-- The file with the given entries, one `word freq` line each. -/
def dictBytes : List (Str × Nat) → Option Bytes
  | [] => some []
  | (w, n) :: es => match dictLineBytes w n, dictBytes es with
    | some l, some b => some (l ++ b)
    | _, _ => none

/-- A word that can be written into a dictionary file: not empty, no space or line feed, and not beginning with another
ASCII blank. -/
def Writable (w : Str) : Prop :=
  w ≠ [] ∧ 0x20 ∉ w ∧ 0x0A ∉ w ∧ ∀ c, w.head? = some c → isByteSpace c = false

theorem fileLines_dictBytes (es : List (Str × Nat)) (data : Bytes) (hd : dictBytes es = some data)
    (hw : ∀ e ∈ es, Writable e.1) :
    (fileLines data).map dictLine = (es.map (fun e => (e.1, (e.2 : Int)))).map some := by
  induction es generalizing data with
  | nil => simp [dictBytes] at hd; subst hd; rfl
  | cons e es ih =>
    obtain ⟨w, n⟩ := e
    unfold dictBytes at hd
    cases hl : dictLineBytes w n with
    | none => rw [hl] at hd; simp at hd
    | some l =>
      cases hb : dictBytes es with
      | none => rw [hl, hb] at hd; simp at hd
      | some b =>
        rw [hl, hb] at hd; simp at hd; subst hd
        obtain ⟨w1, w2, w3, w4⟩ := hw (w, n) (by simp)
        have hr := dictLine_render w n l hl w1 w2 w4
        have : ∃ l0, l = l0 ++ [0x0A] ∧ 0x0A ∉ l0 := by
          unfold dictLineBytes at hl
          cases he : utf8Encode w with
          | none => rw [he] at hl; simp at hl
          | some x =>
            rw [he] at hl; simp at hl; subst hl
            refine ⟨x ++ 0x20 :: decimal n, by simp, ?_⟩
            intro hm
            rcases List.mem_append.mp hm with hm | hm
            · exact w3 (utf8Encode_mem w x he _ hm (by omega))
            · rcases List.mem_cons.mp hm with hm | hm
              · omega
              · have := decimal_digits n _ hm; simp [isDigit] at this
        obtain ⟨l0, rfl, h0⟩ := this
        rw [show l0 ++ [0x0A] ++ b = l0 ++ 0x0A :: b by simp, fileLines_line l0 b h0]
        simp only [List.map_cons, hr]
        rw [ih b hb (fun e he => hw e (List.mem_cons_of_mem _ he))]

/-- C23, read back: a file written from a list of entries loads to exactly these entries. -/
theorem C23_round_trip (es : List (Str × Nat)) (data : Bytes) (hd : dictBytes es = some data)
    (hw : ∀ e ∈ es, Writable e.1) :
    ∃ d, genPfdict data = .ok (d, ((es.map Prod.snd).sum : Nat)) ∧
      ∀ v, d.get? v = match (es.reverse.find? (fun e => e.1 == v)) with
        | some e => some (e.2 : Int)
        | none => if v ≠ [] ∧ ∃ e ∈ es, v <+: e.1 then some 0 else none := by
  have hl := fileLines_dictBytes es data hd hw
  rcases gen_load data with ⟨es', h1, d, h2, h3⟩ | ⟨⟨l, h1, h2⟩, -⟩
  · rw [hl] at h1
    have he : es' = es.map (fun e => (e.1, (e.2 : Int))) := by
      have := congrArg (List.map (fun x : Option (Str × Int) => x.getD ([], 0))) h1
      simpa [List.map_map, Function.comp_def] using this.symm
    subst he
    refine ⟨d, ?_, ?_⟩
    · rw [h2]
      congr 2
      clear h1 h2 h3 hl hw hd
      induction es with
      | nil => rfl
      | cons e es ih => simp at ih ⊢; rw [← ih]
    · intro v
      rw [h3 v]
      have hlast : lastFreq (es.map (fun e => (e.1, (e.2 : Int)))) v =
          (es.reverse.find? (fun e => e.1 == v)).map (fun e => (e.2 : Int)) := by
        unfold lastFreq
        rw [← List.map_reverse, List.find?_map, Option.map_map]
        rfl
      rw [hlast]
      cases es.reverse.find? (fun e => e.1 == v) with
      | some e => rfl
      | none =>
        simp only [Option.map_none]
        have : StartsEntry (es.map (fun e => (e.1, (e.2 : Int)))) v ↔ v ≠ [] ∧ ∃ e ∈ es, v <+: e.1 := by
          unfold StartsEntry
          simp only [List.mem_map]
          constructor
          · rintro ⟨h1, e, ⟨e', h2, rfl⟩, h3⟩; exact ⟨h1, e', h2, h3⟩
          · rintro ⟨h1, e', h2, h3⟩; exact ⟨h1, _, ⟨e', h2, rfl⟩, h3⟩
        by_cases hc : v ≠ [] ∧ ∃ e ∈ es, v <+: e.1
        · rw [if_pos hc, if_pos (this.mpr hc)]
        · rw [if_neg hc, if_neg (fun h => hc (this.mp h))]
  · exfalso
    have : none ∈ (fileLines data).map dictLine := List.mem_map.mpr ⟨l, h1, h2⟩
    rw [hl] at this; simp at this

/-- The sample dictionary is such a file, and its words are writable. -/
example : dictBytes [(lit ['北', '京'], 40), (lit ['大', '学'], 32)] = some sampleData ∧
    ∀ e ∈ [(lit ['北', '京'], 40), (lit ['大', '学'], 32)], Writable e.1 := by
  refine ⟨by decide +kernel, ?_⟩
  intro e he
  simp at he
  rcases he with rfl | rfl <;> exact ⟨by decide, by decide, by decide, by decide⟩

/-! ## C30 -/

/-- C30: a line `word freq tag` is parsed into exactly these three, whatever characters (also spaces, digits, letters) the
word consists of, except line feeds. -/
theorem C30_word_freq_tag (word freq tag : Str) (hw : word ≠ []) (hn : 0x0A ∉ word) (hf : IsFreqField freq)
    (ht : IsTagField tag) :
    userFields (word ++ [0x20] ++ freq ++ [0x20] ++ tag) = some (word, some freq, some tag) := by
  have hok : FieldsOk (some freq) (some tag) := ⟨by rintro u ⟨⟩; exact hf, by rintro u ⟨⟩; exact ht⟩
  have := userFields_parse' word (some freq) (some tag) hw hok hn
    (fun u v _ _ hv => no_shorter_parse freq (some tag) hok v hv)
  simpa [optField] using this

/-- C30: a line `word freq`. -/
theorem C30_word_freq (word freq : Str) (hw : word ≠ []) (hn : 0x0A ∉ word) (hf : IsFreqField freq) :
    userFields (word ++ [0x20] ++ freq) = some (word, some freq, none) := by
  have hok : FieldsOk (some freq) none := ⟨by rintro u ⟨⟩; exact hf, by rintro u ⟨⟩⟩
  have := userFields_parse' word (some freq) none hw hok hn (fun u v _ _ hv => no_shorter_parse freq none hok v hv)
  simpa [optField] using this

/-- C30: a line `word tag`, where the word does not itself end in a space and digits. -/
theorem C30_word_tag (word tag : Str) (hw : word ≠ []) (hn : 0x0A ∉ word) (ht : IsTagField tag)
    (hd : ∀ u v, word = u ++ [0x20] ++ v → u ≠ [] → ¬ IsFreqField v) :
    userFields (word ++ [0x20] ++ tag) = some (word, none, some tag) := by
  have hok : FieldsOk none (some tag) := ⟨by rintro u ⟨⟩, by rintro u ⟨⟩; exact ht⟩
  have := userFields_parse' word none (some tag) hw hok hn ?_
  · simpa [optField] using this
  · rintro u v huv hu hv ⟨a', b', hf', he⟩
    obtain ⟨c, v, rfl⟩ := List.exists_cons_of_ne_nil hv
    have hc : c = 0x20 := by
      cases a' with
      | some u' => simp [optField] at he; exact he.1
      | none =>
        cases b' with
        | some u' => simp [optField] at he; exact he.1
        | none => simp [optField] at he
    subst hc
    have hsp := congrArg spaces he
    rw [spaces_fields hf'] at hsp
    have h1 : spaces (0x20 :: v ++ (optField none ++ optField (some tag))) = 1 + spaces v + 1 := by
      have := spaces_fields hok
      unfold spaces at this ⊢
      rw [List.count_append, this, List.count_cons]; simp; omega
    rw [h1] at hsp
    cases a' with
    | none => simp at hsp; split at hsp <;> omega
    | some a' =>
      cases b' with
      | none => simp at hsp
      | some b' =>
        simp at hsp
        have hv0 : 0x20 ∉ v := by
          intro hm
          have := List.count_pos_iff.mpr hm
          unfold spaces at hsp; omega
        simp only [optField, List.cons_append, List.cons.injEq, true_and, List.nil_append] at he
        obtain ⟨rfl, -⟩ := space_split v _ a' _ hv0 (no_space_digits hf' a' rfl) (by simp) (by simp) he
        exact hd u v (by rw [huv]; simp) hu (hf'.digits v rfl)

/-- C30: a line with a word only, which does not itself end in a space and digits or a space and lower-case letters. -/
theorem C30_word_only (word : Str) (hw : word ≠ []) (hn : 0x0A ∉ word)
    (hd : ∀ u v, word = u ++ [0x20] ++ v → u ≠ [] → ¬ IsFreqField v ∧ ¬ IsTagField v) :
    userFields word = some (word, none, none) := by
  have hok : FieldsOk none none := ⟨by rintro u ⟨⟩, by rintro u ⟨⟩⟩
  have := userFields_parse' word none none hw hok hn ?_
  · simpa [optField] using this
  · rintro u v huv hu hv ⟨a', b', hf', he⟩
    simp only [optField, List.append_nil] at he
    cases b' with
    | some t =>
      refine (hd (u ++ optField a') t (by rw [huv, he]; simp [optField]) (by simp [hu])).2 (hf'.letters t rfl)
    | none =>
      cases a' with
      | none => simp at he; exact hv he
      | some f => exact (hd u f (by rw [huv, he]; simp) hu).1 (hf'.digits f rfl)

/-- C30 in a file: a line `word freq tag\n` of a UTF-8 file (the word beginning with neither a blank nor a byte order mark)
makes `load_userdict` call `add_word(word, freq, tag)`. -/
theorem C30_file_line (S : Sys F) (w : World) (t : Nat) (io : Bool) (word tag : Str) (n : Nat) (b rest : Bytes)
    (hi : (w.tok t).initialized = true)
    (hw : word ≠ []) (hn : 0x0A ∉ word) (hh : ∀ c, word.head? = some c → isByteSpace c = false ∧ c ≠ 0xFEFF)
    (ht : IsTagField tag) (hb : utf8Encode (word ++ [0x20] ++ decimal n ++ [0x20] ++ tag) = some b) :
    loadUserdict S w t (.file (b ++ [0x0A] ++ rest)) io =
      loadUserdict S (addFreq w t word n (some tag)) t (.file rest) io := by
  have hi' : ((addFreq w t word n (some tag)).tok t).initialized = true := by rw [addFreq_tok_self]; exact hi
  rw [C31_load_userdict_file S w t _ io hi, C31_load_userdict_file S _ t _ io hi']
  have hf : IsFreqField (decimal n) := ⟨decimal_ne_nil n, decimal_digits n⟩
  obtain ⟨line, hline⟩ : ∃ line, line = word ++ [0x20] ++ decimal n ++ [0x20] ++ tag := ⟨_, rfl⟩
  rw [← hline] at hb
  have hnl : 0x0A ∉ line := by
    rw [hline]
    simp only [List.mem_append, not_or, List.mem_singleton]
    refine ⟨⟨⟨⟨hn, by simp⟩, ?_⟩, by simp⟩, ?_⟩
    · intro h; have := hf.2 _ h; simp [isDigit] at this
    · intro h; have := ht.2 _ h; simp [isLower] at this
  have hne : line ≠ [] := by rw [hline]; simp
  have hhead : ∀ c, line.head? = some c → isByteSpace c = false ∧ c ≠ 0xFEFF := by
    intro c hc
    apply hh
    obtain ⟨d, wd, rfl⟩ := List.exists_cons_of_ne_nil hw
    rw [hline] at hc; simpa using hc
  have hlast : ∀ c, line.getLast? = some c → isLower c = true := by
    intro c hc
    rw [hline] at hc
    exact ht.2 c (getLast?_mem_of_append _ _ _ ht.1 hc)
  have hbn := utf8Encode_ne_nil line b hb hne
  -- the bytes of the last letter
  have hblast : ∀ c, b.getLast? = some c → isByteSpace c = false := by
    intro c hc
    rw [hline] at hb
    obtain ⟨x, y, -, h2, rfl⟩ := utf8Encode_append_inv _ tag b hb
    have hlt : ∀ c ∈ tag, c < 0x80 := by
      intro c hc; have hlo := ht.2 c hc; unfold isLower at hlo; simp at hlo; unfold Ch at *; omega
    rw [utf8Encode_ascii tag hlt] at h2
    simp at h2; subst h2
    have hlo := ht.2 c (getLast?_mem_of_append _ _ _ ht.1 hc)
    unfold isLower at hlo; unfold isByteSpace; simp at hlo ⊢; unfold Ch at *; omega
  have hbhead : ∀ c, b.head? = some c → isByteSpace c = false := by
    intro c hc
    by_cases hlt : c < 0x80
    · exact (hhead c (utf8Encode_head line b hb c hc hlt)).1
    · simp [isByteSpace]; omega
  have hnb : 0x0A ∉ b := fun h => hnl (utf8Encode_mem line b hb _ h (by omega))
  have hul : userLine (.bytes (b ++ [0x0A])) = some line := by
    simp only [userLine, userLineBytes]
    rw [stripBy_append isByteSpace b [0x0A] hbn hbhead hblast (by simp [isByteSpace]), utf8_decode_encode line b hb]
    simp only [Option.map_some, Option.some.injEq]
    refine dropWhile_head _ line ?_
    intro c hc
    simpa using (hhead c hc).2
  rw [show b ++ [0x0A] ++ rest = b ++ 0x0A :: rest by simp, fileLines_line b rest hnb, List.map_cons]
  conv => lhs; unfold userdictLoop
  have hstep : userdictLine S w t (.bytes (b ++ [0x0A])) = (addFreq w t word n (some tag), .ok ()) := by
    unfold userdictLine
    rw [hul]
    simp only [if_neg hne]
    rw [hline, C30_word_freq_tag word (decimal n) tag hw hn hf ht]
    simp only [fieldArg]
    unfold addWord
    rw [checkInit_of_init S w t true hi]
    simp only [addWordFreq, pyInt_decimal, strdecode]
  rw [hstep]

/-- A word with a space and digits in it: `C 3 5 n`. -/
example : userFields (lit ['C', ' ', '3', ' ', '5', ' ', 'n']) = some (lit ['C', ' ', '3'], some (lit ['5']), some (lit ['n'])) ∧
    IsFreqField (lit ['5']) ∧ IsTagField (lit ['n']) := by
  refine ⟨by decide +kernel, ⟨by decide, by decide⟩, ⟨by decide, by decide⟩⟩

/-- Without a tag the same word is taken apart: a line `word` or `word tag` whose word ends in a space and digits (or
letters) is read as `word freq` and so on. -/
theorem C30_ambiguity : userFields (lit ['C', ' ', '3']) = some (lit ['C'], some (lit ['3']), none) ∧
    userFields (lit ['C', ' ', '3', ' ', 'n']) = some (lit ['C'], some (lit ['3']), some (lit ['n'])) ∧
    userFields (lit ['N', ' ', 'b', 'a']) = some (lit ['N'], none, some (lit ['b', 'a'])) := by decide +kernel

/-- C24: a frequency given as text counts as the number it denotes; text that is no integer raises ValueError and changes nothing. -/
theorem C24_freq_as_text (S : Sys F) (w : World) (t : Nat) (word : PyText) (s : Str) (tag : Option Str) (io : Bool)
    (hi : (w.tok t).initialized = true) :
    (∀ n, IntText s n → addWord S w t word (.str s) tag io = addWord S w t word (.int n) tag io) ∧
    ((∀ n, ¬ IntText s n) → addWord S w t word (.str s) tag io = (w, .error .valueError)) := by
  constructor
  · intro n hn
    unfold addWord
    rw [checkInit_of_init S w t io hi]
    simp only [addWordFreq, (intText_iff s n).mp hn]
  · intro hn
    unfold addWord
    rw [checkInit_of_init S w t io hi]
    have : pyInt s = none := by
      cases h : pyInt s with
      | none => rfl
      | some n => exact absurd ((intText_iff s n).mpr h) (hn n)
    simp only [addWordFreq, this]

/-- Text that is no integer. -/
example : ∀ n, ¬ IntText (lit ['3', '.', '5']) n := by
  intro n h
  rw [intText_iff] at h
  exact absurd h (by rw [show pyInt (lit ['3', '.', '5']) = none by decide +kernel]; simp)

end Jieba.Props
