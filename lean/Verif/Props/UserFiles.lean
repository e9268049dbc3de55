import Verif.Proofs.UserLines
import Verif.Props.Userdict
/-!
# C30, C31: user dictionaries, for every file
-/

set_option linter.unusedSectionVars false

namespace Jieba.Props
open Jieba Jieba.Spec

variable {F : Type _} [LinearOrder F]

/-- C30: how the line is taken apart: the word is as short as possible (`UserEntry`), whatever the line is. -/
theorem C30_every_line (line : Str) (hl : line ≠ []) (hn : 0x0A ∉ line) :
    ∃ word freq tag, UserEntry line word freq tag ∧ userFields line = some (word, freq, tag) ∧
      ∀ w f g, UserEntry line w f g → w = word ∧ f = freq ∧ g = tag := by
  obtain ⟨word, freq, tag, h⟩ := exists_entry line hl hn
  refine ⟨word, freq, tag, h, userFields_of_entry _ _ _ _ h, fun w f g h' => ?_⟩
  have h1 := userFields_of_entry _ _ _ _ h
  rw [userFields_of_entry _ _ _ _ h'] at h1
  simpa using h1

/-- The lines that `load_userdict(src)` goes through. -/
inductive LinesOf (w : World) : UserDict → List PyText → Prop
  | path (p f ls) : w.files p = some f → FileLines f.data ls → LinesOf w (.path p) (ls.map .bytes)
  | file (data ls) : FileLines data ls → LinesOf w (.file data) (ls.map .bytes)
  | lines (l) : LinesOf w (.lines l) l

/-- The `add_word` calls for lines of a user dictionary: none for a blank line, otherwise one with the fields of the line. -/
inductive UserCalls (t : Nat) : List PyText → List Op → Prop
  | nil : UserCalls t [] []
  | blank (ln lns ops) : UserLine ln [] → UserCalls t lns ops → UserCalls t (ln :: lns) ops
  | entry (ln line word freq tag lns ops) : UserLine ln line → line ≠ [] → UserEntry line word freq tag → UserCalls t lns ops →
      UserCalls t (ln :: lns) (.addWord t (.str word) (match freq with | none => .none | some f => .str f) tag true :: ops)

theorem fieldArg_eq (f : Option Str) : fieldArg f = (match f with | none => .none | some f => .str f) := by cases f <;> rfl

theorem userCalls (t : Nat) (S : Sys F) (lns : List PyText) (w w' : World) (h : userdictLoop S t w lns = (w', .ok ())) :
    UserCalls t lns (lineCalls t lns) := by
  induction lns generalizing w with
  | nil => exact .nil
  | cons ln lns ih =>
    unfold userdictLoop at h
    generalize hr : userdictLine S w t ln = r at h
    obtain ⟨w1, r⟩ := r
    cases r with
    | error e => simp at h
    | ok u =>
      have := ih w1 h
      have hlc : lineCalls t (ln :: lns) = lineCalls t [ln] ++ lineCalls t lns := by
        rw [show ln :: lns = [ln] ++ lns from rfl]; unfold lineCalls; rw [List.filterMap_append]
      rw [hlc]
      unfold userdictLine at hr
      cases hl : userLine ln with
      | none => rw [hl] at hr; simp at hr
      | some line =>
        have hul := (userLine_iff ln line).mp hl
        rw [hl] at hr
        simp only at hr
        by_cases hb : line = []
        · subst hb
          have : lineCalls t [ln] = [] := by unfold lineCalls; simp [hl]
          rw [this]
          exact .blank ln lns _ hul (ih w1 h)
        · rw [if_neg hb] at hr
          cases hf : userFields line with
          | none => rw [hf] at hr; simp at hr
          | some x =>
            obtain ⟨word, freq, tag⟩ := x
            have : lineCalls t [ln] = [.addWord t (.str word) (fieldArg freq) tag true] := by
              unfold lineCalls; simp [hl, hb, hf]
            rw [this, fieldArg_eq]
            exact .entry ln line word freq tag lns _ hul hb ((userFields_some_iff ln line hul hb word freq tag).mp hf) (ih w1 h)

theorem userdictLoop_stop (S : Sys F) (t : Nat) (lns : List PyText) (w w' : World) (e : PyErr)
    (h : userdictLoop S t w lns = (w', .error e)) :
    ∃ pre bad post w1 w2, lns = pre ++ bad :: post ∧ userdictLoop S t w pre = (w1, .ok ()) ∧ userdictLine S w1 t bad = (w2, .error e) := by
  induction lns generalizing w with
  | nil => simp [userdictLoop] at h
  | cons ln lns ih =>
    unfold userdictLoop at h
    generalize hr : userdictLine S w t ln = r at h
    obtain ⟨w1, r⟩ := r
    cases r with
    | error e' =>
      simp at h
      obtain ⟨rfl, rfl⟩ := h
      exact ⟨[], ln, lns, w, w1, rfl, rfl, hr⟩
    | ok u =>
      obtain ⟨pre, bad, post, w2, w3, rfl, h1, h2⟩ := ih w1 h
      refine ⟨ln :: pre, bad, post, w2, w3, rfl, ?_, h2⟩
      unfold userdictLoop
      rw [hr]; exact h1

/-- C31: `load_userdict` on an initialised tokenizer either returns, and then it has done exactly the `add_word` calls of the
lines, in order; or it stops at a line, has done the calls of the lines before it, and raises: ValueError because the line is not
UTF-8, AttributeError because the line has a line feed inside (not possible in a file, see below), or what `add_word` for the
line raises. -/
theorem C31_load_userdict (S : Sys F) (w : World) (t : Nat) (src : UserDict) (io : Bool) (hi : (w.tok t).initialized = true)
    (lns : List PyText) (hl : LinesOf w src lns) :
    (∃ ops, UserCalls t lns ops ∧ loadUserdict S w t src io = (runOps S w ops, .ok ())) ∨
    (∃ pre bad post ops e, lns = pre ++ bad :: post ∧ UserCalls t pre ops ∧
      loadUserdict S w t src io = (runOps S w ops, .error e) ∧
      ((e = .valueError ∧ ∀ line, ¬ UserLine bad line) ∨
       (e = .attributeError ∧ ∃ line, UserLine bad line ∧ 0x0A ∈ line) ∨
       ∃ line word freq tag, UserLine bad line ∧ line ≠ [] ∧ UserEntry line word freq tag ∧
         (addWord S (runOps S w ops) t (.str word) (match freq with | none => .none | some f => .str f) tag true).2 = .error e)) := by
  have hload : loadUserdict S w t src io = userdictLoop S t w lns := by
    unfold loadUserdict
    rw [checkInit_of_init S w t io hi]
    cases hl with
    | path p f ls h1 h2 => simp only [h1, (fileLines_iff _ _).mp h2]
    | file data ls h => simp only [(fileLines_iff _ _).mp h]
    | lines l => rfl
  rw [hload]
  generalize hr : userdictLoop S t w lns = r
  obtain ⟨w', r⟩ := r
  cases r with
  | ok u =>
    left
    exact ⟨_, userCalls t S lns w w' hr, by rw [C31_load_userdict_is_add_words S w w' t lns hr]⟩
  | error e =>
    right
    obtain ⟨pre, bad, post, w1, w2, rfl, h1, h2⟩ := userdictLoop_stop S t lns w w' e hr
    have h3 := C31_failing_line S w w1 w2 t pre bad post e hi h1 h2
    refine ⟨pre, bad, post, _, e, rfl, userCalls t S pre w w1 h1, by rw [← hr, h3], ?_⟩
    rw [← C31_load_userdict_is_add_words S w w1 t pre h1]
    unfold userdictLine at h2
    cases hb : userLine bad with
    | none =>
      rw [hb] at h2
      simp at h2
      exact Or.inl ⟨h2.2.symm, (userLine_none_iff bad).mp hb⟩
    | some line =>
      have hul := (userLine_iff bad line).mp hb
      rw [hb] at h2
      simp only at h2
      by_cases hne : line = []
      · rw [if_pos hne] at h2; simp at h2
      · rw [if_neg hne] at h2
        cases hf : userFields line with
        | none =>
          rw [hf] at h2
          simp at h2
          exact Or.inr (Or.inl ⟨h2.2.symm, line, hul, (userFields_none_iff bad line hul hne).mp hf⟩)
        | some x =>
          obtain ⟨word, freq, tag⟩ := x
          rw [hf] at h2
          simp only at h2
          refine Or.inr (Or.inr ⟨line, word, freq, tag, hul, hne, (userFields_some_iff bad line hul hne word freq tag).mp hf, ?_⟩)
          rw [← fieldArg_eq, h2]

/-- C31: the comment in the source is right for files: `re_userdict` matches every non-empty line. -/
theorem C31_file_line_matches (data : Bytes) (ls : List Bytes) (h : FileLines data ls) (l : Bytes) (hl : l ∈ ls) (line : Str)
    (hu : UserLine (.bytes l) line) : 0x0A ∉ line := by
  have hlf : ∃ l0, 0x0A ∉ l0 ∧ (l = l0 ∨ l = l0 ++ [0x0A]) := by
    induction h with
    | nil => simp at hl
    | last l' h1 h2 => simp at hl; subst hl; exact ⟨l, h2, Or.inl rfl⟩
    | line l' b ls h _ ih =>
      rcases List.mem_cons.mp hl with rfl | hl
      · exact ⟨l', h, Or.inr rfl⟩
      · exact ih hl
  obtain ⟨l0, h0, hl0⟩ := hlf
  have hlast := userLine_last _ _ hu
  cases hu with
  | bytes b m s n line h1 h2 h3 h4 =>
    obtain ⟨pre, post, h5, h6, h7, h8⟩ := h1
    intro hm
    have hs : 0x0A ∈ s := by rw [h3]; exact List.mem_append_right _ hm
    -- a line feed of the text is a byte of the trimmed line
    obtain ⟨x, y, hxy⟩ := List.append_of_mem hs
    rw [hxy] at h2
    obtain ⟨bx, by', -, hy, hm'⟩ := utf8Encode_append_inv _ _ _ h2
    obtain ⟨b1, b2, hb1, -, hb⟩ := utf8Encode_append_inv [0x0A] y by' hy
    have hb1' : b1 = [0x0A] := by
      have := utf8Encode_ascii [0x0A] (by simp)
      rw [this] at hb1; simpa using hb1.symm
    subst hb1'
    have hmem : 0x0A ∈ m := by rw [hm', hb]; simp
    rcases hl0 with rfl | rfl
    · apply h0; rw [h5]; simp [hmem]
    · -- the only line feed is the last byte, so it is the last byte of the trimmed line
      have : 0x0A ∈ post ∨ post = [] := by
        by_cases hp : post = []
        · exact Or.inr hp
        · left
          have := congrArg List.getLast? h5
          rw [List.getLast?_append, List.getLast?_append_of_ne_nil _ hp] at this
          simp at this
          exact List.mem_of_getLast? this.symm
      rcases this with hp | hp
      · have hcount := congrArg (List.count 0x0A) h5
        rw [List.count_append, List.count_append, List.count_append, List.count_eq_zero.mpr h0] at hcount
        have c1 := List.count_pos_iff.mpr hmem
        have c2 := List.count_pos_iff.mpr hp
        have c3 : List.count 0x0A [0x0A] = 1 := rfl
        rw [c3] at hcount
        omega
      · subst hp
        have := congrArg List.getLast? h5
        rw [List.append_nil, List.getLast?_append, List.getLast?_append_of_ne_nil _ (List.ne_nil_of_mem hmem)] at this
        simp at this
        have := h8 _ this.symm
        simp [isByteSpace] at this

/-- … but a text line with a line feed inside raises AttributeError. -/
theorem C31_attribute_error (S : Sys F) (w : World) (t : Nat) (io : Bool) (hi : (w.tok t).initialized = true) :
    loadUserdict S w t (.lines [.str (lit ['云', '\n', '5'])]) io = (w, .error .attributeError) := by
  unfold loadUserdict
  rw [checkInit_of_init S w t io hi]
  simp only [userdictLoop, userdictLine]
  rw [show userLine (.str (lit ['云', '\n', '5'])) = some (lit ['云', '\n', '5']) by decide +kernel]
  simp only
  rw [if_neg (by decide), show userFields (lit ['云', '\n', '5']) = none by decide +kernel]

/-- C31: a path without a file raises FileNotFoundError, after the dictionary has been initialised; nothing else has happened. -/
theorem C31_missing_file (S : Sys F) (w w' : World) (t : Nat) (io : Bool) (p : Path) (hi : checkInit S w t io = (w', .ok ()))
    (hp : w'.files p = none) : loadUserdict S w t (.path p) io = (w', .error .fileNotFound) := by
  unfold loadUserdict
  rw [hi]
  simp [hp]

example : (loadUserdict sampleSys sampleWorld 0 (.path (lit ['n', 'o'])) true).2 = .error .fileNotFound := by decide +kernel

/-- C30: a byte order mark at the beginning of a user dictionary is ignored (if the file does not go on with a blank). -/
theorem C30_byte_order_mark (S : Sys F) (w : World) (t : Nat) (io : Bool) (b : Nat) (data : Bytes)
    (hi : (w.tok t).initialized = true) (hb : isByteSpace b = false) :
    loadUserdict S w t (.file (0xEF :: 0xBB :: 0xBF :: b :: data)) io = loadUserdict S w t (.file (b :: data)) io := by
  rw [C31_load_userdict_file S w t _ io hi, C31_load_userdict_file S w t _ io hi]
  have hb0 : b ≠ 0x0A := by rintro rfl; simp [isByteSpace] at hb
  have hgo : ∀ (s acc acc' : Bytes), acc ≠ [] → ∃ l ls, fileLines.go s acc = (acc ++ l) :: ls ∧
      fileLines.go s (acc' ++ acc) = (acc' ++ acc ++ l) :: ls := by
    intro s
    induction s with
    | nil => intro acc acc' h; exact ⟨[], [], by simp [fileLines.go, h], by simp [fileLines.go, h]⟩
    | cons c s ih =>
      intro acc acc' h
      unfold fileLines.go
      by_cases hc : c = 0x0A
      · rw [if_pos hc, if_pos hc]; exact ⟨[c], fileLines.go s [], rfl, rfl⟩
      · rw [if_neg hc, if_neg hc]
        obtain ⟨l, ls, h1, h2⟩ := ih (acc ++ [c]) acc' (by simp)
        exact ⟨c :: l, ls, by rw [h1]; simp, by rw [List.append_assoc, h2]; simp⟩
  obtain ⟨l, ls, h1, h2⟩ := hgo data [b] [0xEF, 0xBB, 0xBF] (by simp)
  have e1 : fileLines (b :: data) = (b :: l) :: ls := by
    unfold fileLines; unfold fileLines.go; rw [if_neg hb0]; exact h1
  have e2 : fileLines (0xEF :: 0xBB :: 0xBF :: b :: data) = (0xEF :: 0xBB :: 0xBF :: b :: l) :: ls := by
    unfold fileLines
    iterate 3 (unfold fileLines.go; rw [if_neg (by decide)])
    unfold fileLines.go; rw [if_neg hb0]; exact h2
  rw [e1, e2, List.map_cons, List.map_cons]
  have hul : userLine (.bytes (0xEF :: 0xBB :: 0xBF :: b :: l)) = userLine (.bytes (b :: l)) := by
    simp only [userLine, userLineBytes]
    obtain ⟨pre, post, h5, h6, h7, h8⟩ := trimmedBy_strip isByteSpace (b :: l)
    generalize stripBy isByteSpace (b :: l) = m at *
    have hpre : pre = [] := by
      cases pre with
      | nil => rfl
      | cons a pre =>
        simp at h5
        have := h6 a (by simp)
        rw [← h5.1, hb] at this; simp at this
    subst hpre
    have hm : m ≠ [] := by
      rintro rfl
      simp at h5
      have := h6 b (by rw [List.nil_append, ← h5]; simp)
      rw [hb] at this; simp at this
    have hst : stripBy isByteSpace (0xEF :: 0xBB :: 0xBF :: b :: l) = 0xEF :: 0xBB :: 0xBF :: m := by
      rw [← trimmedBy_iff]
      refine ⟨[], post, by rw [h5]; rfl, h6, by simp [isByteSpace], ?_⟩
      intro c hc
      apply h8
      rw [show (0xEF :: 0xBB :: 0xBF :: m : Bytes) = [0xEF, 0xBB, 0xBF] ++ m from rfl, List.getLast?_append_of_ne_nil _ hm] at hc
      exact hc
    rw [hst]
    have hdec : utf8Decode (0xEF :: 0xBB :: 0xBF :: m) = (utf8Decode m).map (0xFEFF :: ·) := by
      rw [utf8Decode.eq_def]; rfl
    rw [hdec, Option.map_map]
    cases utf8Decode m with
    | none => rfl
    | some s => simp
  unfold userdictLoop userdictLine
  rw [hul]

/-- C23, negative part: in the main dictionary a byte order mark is not removed, it becomes part of the first word. -/
theorem C23_byte_order_mark (b : Nat) (line : Bytes) (hb : isByteSpace b = false) (word : Str) (freq : Int)
    (h : DictEntry (b :: line) word freq) : DictEntry (0xEF :: 0xBB :: 0xBF :: b :: line) (0xFEFF :: word) freq := by
  obtain ⟨f, rest, ⟨m, s, ⟨pre, post, h5, h6, h7, h8⟩, h2, h3⟩, h4⟩ := h
  refine ⟨f, rest, ⟨0xEF :: 0xBB :: 0xBF :: m, 0xFEFF :: s, ?_, ?_, ?_⟩, h4⟩
  · have hpre : pre = [] := by
      cases pre with
      | nil => rfl
      | cons a pre =>
        simp at h5
        have := h6 a (by simp)
        rw [← h5.1, hb] at this; simp at this
    subst hpre
    have hm : m ≠ [] := by
      rintro rfl
      simp at h5
      have := h6 b (by rw [List.nil_append, ← h5]; simp)
      rw [hb] at this; simp at this
    refine ⟨[], post, by rw [h5]; rfl, h6, by simp [isByteSpace], ?_⟩
    intro c hc
    apply h8
    rw [show (0xEF :: 0xBB :: 0xBF :: m : Bytes) = [0xEF, 0xBB, 0xBF] ++ m from rfl, List.getLast?_append_of_ne_nil _ hm] at hc
    exact hc
  · rw [utf8Encode, h2]; rfl
  · obtain ⟨-, g1, g2⟩ := h3
    refine ⟨by simp, ?_, ?_⟩
    · intro x hx
      rcases List.mem_cons.mp hx with rfl | hx
      · simp only [List.mem_cons, not_or]
        exact ⟨by decide, g1 word (by simp)⟩
      · exact g1 x (by simp [hx])
    · have e : ∀ v : Str, [0x20].intercalate (v :: f :: rest) = v ++ [0x20] ++ [0x20].intercalate (f :: rest) := fun v =>
        List.intercalate_cons_of_ne_nil (by simp)
      rw [g2, e, e]
      rfl

/-- `a 3` and, with a byte order mark, U+FEFF `a 3`. -/
example : DictEntry [97, 32, 51, 10] [97] 3 ∧ DictEntry [0xEF, 0xBB, 0xBF, 97, 32, 51, 10] [0xFEFF, 97] 3 :=
  have h : DictEntry [97, 32, 51, 10] [97] 3 := (dictEntry_iff _ _ _).mpr (by decide +kernel)
  ⟨h, C23_byte_order_mark 97 _ (by decide) _ _ h⟩

/-- A file with a byte order mark, a blank line and a line without frequency, and the calls it leads to. -/
example : LinesOf sampleReady (.file [0xEF, 0xBB, 0xBF, 97, 32, 51, 10, 10, 98, 32, 110])
      [.bytes [0xEF, 0xBB, 0xBF, 97, 32, 51, 10], .bytes [10], .bytes [98, 32, 110]] ∧
    UserCalls 0 [.bytes [0xEF, 0xBB, 0xBF, 97, 32, 51, 10], .bytes [10], .bytes [98, 32, 110]]
      [.addWord 0 (.str [97]) (.str [51]) none true, .addWord 0 (.str [98]) .none (some [110]) true] := by
  constructor
  · exact .file _ [[0xEF, 0xBB, 0xBF, 97, 32, 51, 10], [10], [98, 32, 110]] ((fileLines_iff _ _).mpr (by decide +kernel))
  · have e : ∀ ln line w f g, userLine ln = some line → userFields line = some (w, f, g) → line ≠ [] →
        UserLine ln line ∧ UserEntry line w f g := fun ln line w f g h1 h2 h3 =>
      have h := (userLine_iff ln line).mp h1
      ⟨h, (userFields_some_iff ln line h h3 w f g).mp h2⟩
    obtain ⟨a1, a2⟩ := e (.bytes [0xEF, 0xBB, 0xBF, 97, 32, 51, 10]) [97, 32, 51] [97] (some [51]) none
      (by decide +kernel) (by decide +kernel) (by decide)
    obtain ⟨b1, b2⟩ := e (.bytes [98, 32, 110]) [98, 32, 110] [98] none (some [110]) (by decide +kernel) (by decide +kernel) (by decide)
    exact .entry _ _ _ _ _ _ _ a1 (by decide) a2 (.blank _ _ _ ((userLine_iff _ _).mp (by decide +kernel))
      (.entry _ _ _ _ _ _ _ b1 (by decide) b2 .nil))

end Jieba.Props
