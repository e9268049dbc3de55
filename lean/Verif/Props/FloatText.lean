import Verif.Proofs.FloatParse
import Verif.Proofs.ToDouble
import Verif.Props.TfidfFloat
/-!
# C113 — numbers in IDF files
-/

namespace Jieba.Props
open Jieba Jieba.Spec Jieba.Pos Jieba.Analyse

/-! ## `float` -/

/-- C113: `float` accepts exactly the texts of the grammar `FloatText`, with the value that the grammar gives them. -/
theorem C113_float (s : Str) (v : PyFloat) : pyFloat s = some v ↔ FloatText s v := pyFloat_iff s v

/-- C113: the value of a decimal number is a double; no double is nearer to the number, and of two equally near ones it is the one whose last
bit is 0.  Numbers from 2^1024 - 2^970 on have no such value, they are infinite. -/
theorem C113_nearest (q : ℚ) :
    (∀ x, toDouble q = .num x → IsDouble x ∧ (∀ y, IsDouble y → |x - q| ≤ |y - q|) ∧
      ∀ y, IsDouble y → y ≠ x → |y - q| = |x - q| → ∃ n k : ℤ, x = 2 * n * 2 ^ k ∧ |y - x| = 2 ^ k) ∧
    ((∃ x, toDouble q = .num x) ↔ |q| < 2 ^ 1024 - 2 ^ 970) ∧
    (2 ^ 1024 - 2 ^ 970 ≤ |q| → toDouble q = .inf (decide (q < 0))) := by
  have ho := round_overflow q
  unfold toDouble
  by_cases h : |roundBounded q| < 2 ^ 1024
  · rw [if_pos h]
    refine ⟨?_, ⟨fun _ => ho.mp h, fun _ => ⟨_, rfl⟩⟩, fun hle => absurd (ho.mp h) (not_lt.mpr hle)⟩
    rintro x ⟨rfl⟩
    refine ⟨⟨h, round_isDouble q⟩, ?_, ?_⟩
    · rintro y ⟨-, m, e, h1, h2, rfl⟩
      exact round_best h1 h2
    · rintro y ⟨-, m, e, h1, h2, rfl⟩ hne heq
      exact round_tie h1 h2 hne heq
  · rw [if_neg h]
    refine ⟨?_, ⟨?_, fun hlt => absurd (ho.mpr hlt) h⟩, fun _ => rfl⟩
    · rintro x ⟨⟩
    · rintro ⟨x, ⟨⟩⟩

example : pyFloat (lit [' ', '+', '1', '_', '2', '.', '5', 'e', '-', '1', '\n']) = some (toDouble (5 / 4)) ∧ toDouble (5 / 4) = .num (5 / 4) ∧
    pyFloat (lit ['３', '.', '٥']) = some (.num (7 / 2)) ∧ pyFloat (lit ['-', 'I', 'n', 'f']) = some (.inf true) ∧ pyFloat (lit ['n', 'a', 'N']) = some .nan ∧
    pyFloat (lit ['1', '_', '_', '2']) = none ∧ pyFloat (lit ['１', '．', '５']) = none ∧ pyFloat (lit ['1', ',', '5']) = none ∧
    pyFloat (lit ['.']) = none ∧ pyFloat (lit ['1', 'e']) = none := by decide +kernel

/-- Numbers with few digits keep their distance. -/
theorem rnd_lt_of_gap {x y g : ℚ} (h0 : 0 ≤ x) (hxy : x + g ≤ y) (hg : 0 < g) (hx : x < 10 ^ 15 * g ∨ y < 10 ^ 15 * g) : rnd x < rnd y := by
  obtain ⟨-, h1⟩ := abs_le.mp (rnd_err x)
  obtain ⟨h2, -⟩ := abs_le.mp (rnd_err y)
  rw [abs_of_nonneg h0] at h1
  rw [abs_of_nonneg (by linarith)] at h2
  have hb : x < 10 ^ 15 * g := by
    rcases hx with h | h
    · exact h
    · linarith
  -- (x + y) / 2^53 < y - x
  have : x / 2 ^ 53 + y / 2 ^ 53 < y - x := by
    have e : x / 2 ^ 53 + y / 2 ^ 53 = (2 * x + (y - x)) / 2 ^ 53 := by ring
    rw [e, div_lt_iff₀ (by norm_num)]
    have : g ≤ y - x := by linarith
    nlinarith
  linarith

/-- C113: numbers that are written with at most 15 digits (wherever the point is) and differ, differ also as doubles, and in the same direction. -/
theorem C113_fifteen_digits (n m : ℕ) (a b : ℤ) (hn : n < 10 ^ 15) (hm : m < 10 ^ 15) (h : (n : ℚ) * 10 ^ a < m * 10 ^ b) :
    rnd (n * 10 ^ a) < rnd (m * 10 ^ b) := by
  have p : ∀ e : ℤ, (0 : ℚ) < 10 ^ e := fun e => zpow_pos (by norm_num) e
  have hn' : (n : ℚ) < 10 ^ 15 := by exact_mod_cast hn
  have hm' : (m : ℚ) < 10 ^ 15 := by exact_mod_cast hm
  have h0 : (0 : ℚ) ≤ n * 10 ^ a := mul_nonneg (Nat.cast_nonneg _) (p a).le
  have gap : ∀ (u v : ℤ) (c : ℤ), (u : ℚ) * 10 ^ c < v * 10 ^ c → (u : ℚ) * 10 ^ c + 10 ^ c ≤ v * 10 ^ c := by
    intro u v c huv
    have h1 : (u : ℚ) < v := lt_of_mul_lt_mul_right huv (p c).le
    have h2 : u + 1 ≤ v := by exact_mod_cast h1
    have h3 : (u : ℚ) + 1 ≤ v := by exact_mod_cast h2
    calc (u : ℚ) * 10 ^ c + 10 ^ c = (u + 1) * 10 ^ c := by ring
      _ ≤ v * 10 ^ c := mul_le_mul_of_nonneg_right h3 (p c).le
  rcases le_total a b with hab | hab
  · obtain ⟨d, hd⟩ := Int.le.dest hab
    have e : (m : ℚ) * 10 ^ b = ((m * 10 ^ d : ℤ) : ℚ) * 10 ^ a := by
      rw [← hd, zpow_add₀ (by norm_num)]; push_cast; rw [zpow_natCast]; ring
    have g := gap n (m * 10 ^ d) a (by rw [← e]; exact_mod_cast h)
    rw [← e] at g
    exact rnd_lt_of_gap h0 (by exact_mod_cast g) (p a) (Or.inl (mul_lt_mul_of_pos_right hn' (p a)))
  · obtain ⟨d, hd⟩ := Int.le.dest hab
    have e : (n : ℚ) * 10 ^ a = ((n * 10 ^ d : ℤ) : ℚ) * 10 ^ b := by
      rw [← hd, zpow_add₀ (by norm_num)]; push_cast; rw [zpow_natCast]; ring
    have g := gap (n * 10 ^ d) m b (by rw [← e]; exact_mod_cast h)
    rw [← e] at g
    exact rnd_lt_of_gap h0 (by exact_mod_cast g) (p b) (Or.inr (mul_lt_mul_of_pos_right hm' (p b)))

/-- C113: with 16 digits they can be the same double. -/
theorem C113_sixteen_digits : pyFloat (lit ['9', '0', '0', '7', '1', '9', '9', '2', '5', '4', '7', '4', '0', '9', '9', '3']) =
    pyFloat (lit ['9', '0', '0', '7', '1', '9', '9', '2', '5', '4', '7', '4', '0', '9', '9', '2']) := by decide +kernel

/-! ## IDF files -/

/-- The analyser reads numbers as CPython does; infinities and NaN, which are no rational numbers, may become anything. -/
def ReadsFloats (K : KSys ℚ) : Prop := ∀ s, (∀ q, pyFloat s = some (.num q) → K.float s = some q) ∧ (pyFloat s = none → K.float s = none)

/-- Zero, or within the range of normal doubles. -/
def NormalIdf (q : ℚ) : Prop := q = 0 ∨ 2 ^ (-1022 : ℤ) ≤ q ∧ q ≤ 2 ^ 1023

theorem decimal_nonneg {t : Str} {q : ℚ} (h : DecimalText t q) : 0 ≤ q := by
  have pt : ∀ {a : Str} {q : ℚ}, PointText a q → 0 ≤ q := by
    intro a q h
    cases h <;> positivity
  cases h with
  | plain _ _ h => exact pt h
  | exp a q e sg neg b k h _ _ _ => exact mul_nonneg (pt h) (zpow_pos (by norm_num) _).le

theorem decimal_no_space {t : Str} {q : ℚ} (h : DecimalText t q) (hs : ∀ c ∈ t, isSpace c = false) : pyFloat t = some (toDouble q) := by
  refine (pyFloat_iff _ _).mpr (FloatText.number (sg := []) (neg := false) t q ?_ .none h)
  have nosp : ∀ c, c ∈ t → isIntSpace c = false := by
    intro c hc
    have h1 := hs c hc
    cases h2 : isIntSpace c with
    | false => rfl
    | true =>
      exfalso
      unfold isIntSpace at h2
      rw [h1] at h2
      simp only [Bool.and_false, Bool.or_false] at h2
      have : isSpace c = true := by
        have h2 : (0x09 ≤ c ∧ c ≤ 0x0D) ∨ c = 0x20 := by simpa [isByteSpace] using h2
        rcases h2 with ⟨ha, hb⟩ | rfl
        · simp [isSpace, ha, hb]
        · decide
      rw [h1] at this; cases this
  exact ⟨[], [], by simp, by simp, fun c hc => nosp c (List.mem_of_mem_head? hc), fun c hc => nosp c (List.mem_of_mem_getLast? hc)⟩

theorem float_decimal {K : KSys ℚ} (hK : ReadsFloats K) {t : Str} {q : ℚ} (hw : WritableIdf t) (h : DecimalText t q) (hq : NormalIdf q) :
    K.float t = some (rnd q) := by
  refine (hK t).1 _ ?_
  rw [decimal_no_space h hw.2]
  have h0 := decimal_nonneg h
  have := toDouble_normal (q := q) ?_ ?_
  · rw [this]
  · rcases hq with h | ⟨h, -⟩
    · exact Or.inl h
    · right; rwa [abs_of_nonneg h0]
  · rw [abs_of_nonneg h0]
    rcases hq with rfl | ⟨-, h⟩
    · positivity
    · exact h

section median
variable {F : Type} [LinearOrder F]

theorem IsMedian.unique {m m' : F} {l : List F} (h : IsMedian m l) (h' : IsMedian m' l) : m = m' := by
  have key : ∀ {m m' : F}, IsMedian m l → IsMedian m' l → ¬ m < m' := by
    rintro m m' ⟨-, -, h1⟩ ⟨-, h2, -⟩ hlt
    have : (l.filter (fun v => v ≤ m)).length ≤ (l.filter (fun v => v < m')).length := by
      rw [← List.countP_eq_length_filter, ← List.countP_eq_length_filter]
      refine List.countP_mono_left (fun v _ hv => ?_)
      simp only [decide_eq_true_eq] at hv ⊢
      exact lt_of_le_of_lt hv hlt
    omega
  rcases lt_trichotomy m m' with hlt | heq | hlt
  · exact absurd hlt (key h h')
  · exact heq
  · exact absurd hlt (key h' h)

theorem IsMedian.perm {m : F} {l l' : List F} (hp : l.Perm l') (h : IsMedian m l) : IsMedian m l' := by
  obtain ⟨h1, h2, h3⟩ := h
  refine ⟨hp.mem_iff.mp h1, ?_, ?_⟩
  · rw [← (hp.filter _).length_eq, ← hp.length_eq]; exact h2
  · rw [← (hp.filter _).length_eq, ← hp.length_eq]; exact h3

theorem exists_median (l : List F) (h : l ≠ []) : ∃ m, IsMedian m l := by
  have hlen := (sortBy_perm (fun a b : F => decide (a ≤ b)) l).length_eq
  have hpos : 0 < l.length := List.length_pos_of_ne_nil h
  exact ⟨_, isMedian_of_sorted _ l (List.getElem?_eq_getElem (by rw [hlen]; omega))⟩

/-- A function that keeps the order takes the median to the median. -/
theorem IsMedian.map {G : Type} [LinearOrder G] {f : F → G} (hf : ∀ x y, x ≤ y → f x ≤ f y) {m : F} {l : List F} (h : IsMedian m l) :
    IsMedian (f m) (l.map f) := by
  obtain ⟨h1, h2, h3⟩ := h
  refine ⟨List.mem_map_of_mem h1, ?_, ?_⟩
  · rw [List.filter_map, List.length_map, List.length_map]
    have : (l.filter ((fun v => decide (v < f m)) ∘ f)).length ≤ (l.filter (fun v => v < m)).length := by
      rw [← List.countP_eq_length_filter, ← List.countP_eq_length_filter]
      refine List.countP_mono_left (fun v _ hv => ?_)
      simp only [Function.comp_apply, decide_eq_true_eq] at hv ⊢
      by_contra hge
      exact absurd hv (not_lt.mpr (hf _ _ (not_lt.mp hge)))
    omega
  · rw [List.filter_map, List.length_map, List.length_map]
    have : (l.filter (fun v => v ≤ m)).length ≤ (l.filter ((fun v => decide (v ≤ f m)) ∘ f)).length := by
      rw [← List.countP_eq_length_filter, ← List.countP_eq_length_filter]
      refine List.countP_mono_left (fun v _ hv => ?_)
      simp only [Function.comp_apply, decide_eq_true_eq] at hv ⊢
      exact hf _ _ hv
    omega

theorem idfLoop_nodup (K : KSys F) (ls : List Str) (d : PyDict Str F) (h : d.keys.Nodup) : (idfLoop K ls d).1.keys.Nodup := by
  induction ls generalizing d with
  | nil => exact h
  | cons l ls ih =>
    unfold idfLoop
    cases idfLine K l with
    | none => exact h
    | some e => exact ih _ (PyDict.nodup_keys_set _ _ _ h)

theorem setIdfPath_nodup (K : KSys F) (w : World) (x : Tfidf F) (path : Path) (hp : x.loader.path ≠ K.pos.sys.abspath path)
    (h : (setIdfPath K w x path).2 = .ok ()) : (setIdfPath K w x path).1.idf.keys.Nodup := by
  unfold setIdfPath setNewPath at h ⊢
  cases hf : w.files (K.pos.sys.abspath path) with
  | none => rw [hf] at h; cases h
  | some f =>
    rw [hf] at h
    simp only [if_neg hp] at h ⊢
    cases hd : utf8Decode f.data with
    | none => rw [hd] at h; cases h
    | some content =>
      rw [hd] at h
      simp only [] at h ⊢
      have hn := idfLoop_nodup K (splitlines content) [] List.nodup_nil
      rcases hl : idfLoop K (splitlines content) [] with ⟨d, r⟩
      rw [hl] at h hn
      cases r with
      | error e => cases h
      | ok u =>
        cases hm : (sortBy (fun a b : F => decide (a ≤ b)) d.values)[List.length d / 2]? with
        | none => simp only [hm] at h; cases h
        | some m => simp only [hm]; exact hn

omit [LinearOrder F] in
theorem lastIdf_map {G : Type} (f : F → G) (es : List (Str × F)) (v : Str) :
    lastIdf (es.map (fun e => (e.1, f e.2))) v = (lastIdf es v).map f := by
  unfold lastIdf
  rw [← List.map_reverse, List.find?_map, Option.map_map, Option.map_map]
  rfl

omit [LinearOrder F] in
theorem lastIdf_isSome (es : List (Str × F)) (v : Str) : (lastIdf es v).isSome ↔ v ∈ es.map Prod.fst := by
  unfold lastIdf
  rw [Option.isSome_map, List.find?_isSome]
  simp only [List.mem_reverse, beq_iff_eq, List.mem_map]

omit [LinearOrder F] in
theorem lastIdf_mem {es : List (Str × F)} {v : Str} {x : F} (h : lastIdf es v = some x) : ∃ e ∈ es, e.1 = v ∧ e.2 = x := by
  unfold lastIdf at h
  rw [Option.map_eq_some_iff] at h
  obtain ⟨e, he, rfl⟩ := h
  exact ⟨e, List.mem_reverse.mp (List.mem_of_find?_eq_some he), by simpa using List.find?_some he, rfl⟩

end median

/-- The lines of an IDF file: word, number as it is written, and the number. -/
abbrev IdfLines := List (Str × Str × ℚ)

/-- The numbers of the words, as they are written; a later line of a word replaces an earlier one. -/
def IdfLines.written (es : IdfLines) (v : Str) : Option ℚ := lastIdf (es.map (fun e => (e.1, e.2.2))) v

/-- The words of the file. -/
def IdfLines.words (es : IdfLines) : List Str := (es.map Prod.fst).dedup

/-- A file of lines `word number`: no other blanks, numbers in decimal notation. -/
def IdfLines.Good (es : IdfLines) (data : Bytes) : Prop :=
  es ≠ [] ∧ utf8Encode (idfText (es.map (fun e => (e.1, e.2.1)))) = some data ∧
  ∀ e ∈ es, WritableIdf e.1 ∧ WritableIdf e.2.1 ∧ DecimalText e.2.1 e.2.2

theorem load_written (K : KSys ℚ) (hK : ReadsFloats K) (w : World) (x : Tfidf ℚ) (path : Path) (hp : x.loader.path ≠ K.pos.sys.abspath path)
    (f : File) (hf : w.files (K.pos.sys.abspath path) = some f) (es : IdfLines) (hes : es.Good f.data) (hn : ∀ e ∈ es, NormalIdf e.2.2) :
    (setIdfPath K w x path).2 = .ok () ∧ (∀ v, (setIdfPath K w x path).1.idf.get? v = (es.written v).map rnd) ∧
    ∃ m, IsMedian m (es.words.map (fun v => (es.written v).getD 0)) ∧ (setIdfPath K w x path).1.median = rnd m := by
  obtain ⟨hne, hd, he⟩ := hes
  have h := C52_load_file K w x path hp (es.map (fun e => (e.1, e.2.1, rnd e.2.2))) (by simpa using hne) ?_ f hf (by rw [List.map_map]; exact hd)
  swap
  · intro e' hel'
    obtain ⟨e, hel, rfl⟩ := List.mem_map.mp hel'
    obtain ⟨h1, h2, h3⟩ := he e hel
    exact ⟨h1, h2, float_decimal hK h2 h3 (hn e hel)⟩
  obtain ⟨hok, hget, hmed⟩ := h
  have hget : ∀ v, (setIdfPath K w x path).1.idf.get? v = (es.written v).map rnd := by
    intro v
    rw [hget, List.map_map]
    unfold IdfLines.written
    rw [← lastIdf_map, List.map_map]
    rfl
  refine ⟨hok, hget, ?_⟩
  have hnod := setIdfPath_nodup K w x path hp hok
  generalize (setIdfPath K w x path).1 = y at hget hmed hnod
  have hkeys : y.idf.keys.Perm es.words := by
    refine (List.perm_ext_iff_of_nodup hnod (List.nodup_dedup _)).mpr (fun v => ?_)
    rw [PyDict.mem_keys_iff, PyDict.has, hget, Option.isSome_map, List.mem_dedup]
    have := lastIdf_isSome (es.map (fun e => (e.1, e.2.2))) v
    rw [List.map_map] at this
    exact this
  have hvals : y.idf.values = (y.idf.keys.map (fun v => (es.written v).getD 0)).map rnd := by
    unfold PyDict.values PyDict.keys
    rw [List.map_map, List.map_map]
    refine List.map_congr_left (fun e hel => ?_)
    have := (PyDict.get?_eq_some_iff_mem _ hnod e.1 e.2).mpr hel
    rw [hget] at this
    obtain ⟨q, hq, hq'⟩ := Option.map_eq_some_iff.mp this
    simp only [Function.comp_apply, hq, Option.getD_some]
    exact hq'.symm
  have hne' : es.words.map (fun v => (es.written v).getD 0) ≠ [] := by
    obtain ⟨e, hel⟩ := List.exists_mem_of_ne_nil es hne
    have : e.1 ∈ es.words := List.mem_dedup.mpr (List.mem_map_of_mem hel)
    intro h0
    rw [List.map_eq_nil_iff.mp h0] at this; cases this
  obtain ⟨m, hm⟩ := exists_median _ hne'
  refine ⟨m, hm, ?_⟩
  have h1 : IsMedian m (y.idf.keys.map (fun v => (es.written v).getD 0)) := hm.perm (hkeys.map _).symm
  have h2 := h1.map (f := rnd) (fun _ _ h => rnd_mono h)
  rw [hvals] at hmed
  exact hmed.unique h2

/-- C113: `set_idf_path` accepts every file of lines `word number` with numbers in decimal notation (in the range of normal doubles); every word gets the number on
its last line, wrong by at most the fraction 2^-53, no other word gets one, and the default is the median of the numbers, wrong by at most that fraction. -/
theorem C113_table (K : KSys ℚ) (hK : ReadsFloats K) (w : World) (x : Tfidf ℚ) (path : Path) (hp : x.loader.path ≠ K.pos.sys.abspath path)
    (f : File) (hf : w.files (K.pos.sys.abspath path) = some f) (es : IdfLines) (hes : es.Good f.data) (hn : ∀ e ∈ es, NormalIdf e.2.2) :
    (setIdfPath K w x path).2 = .ok () ∧
    (∀ v q, es.written v = some q → ∃ y, (setIdfPath K w x path).1.idf.get? v = some y ∧ |y - q| ≤ q / 2 ^ 53) ∧
    (∀ v, es.written v = none → (setIdfPath K w x path).1.idf.get? v = none) ∧
    ∃ m, IsMedian m (es.words.map (fun v => (es.written v).getD 0)) ∧ |(setIdfPath K w x path).1.median - m| ≤ m / 2 ^ 53 := by
  obtain ⟨h1, h2, m, h3, h4⟩ := load_written K hK w x path hp f hf es hes hn
  have nonneg : ∀ v q, es.written v = some q → 0 ≤ q := by
    intro v q hq
    obtain ⟨e', he', -, rfl⟩ := lastIdf_mem hq
    obtain ⟨e, he, rfl⟩ := List.mem_map.mp he'
    exact decimal_nonneg (hes.2.2 e he).2.2
  refine ⟨h1, fun v q hq => ⟨rnd q, by rw [h2, hq]; rfl, ?_⟩, fun v hv => by rw [h2, hv]; rfl, m, h3, ?_⟩
  · have := rnd_err q
    rwa [abs_of_nonneg (nonneg v q hq)] at this
  · rw [h4]
    have := rnd_err m
    rwa [abs_of_nonneg (a := m)] at this
    obtain ⟨v, -, rfl⟩ := List.mem_map.mp h3.1
    cases hv : es.written v with
    | none => simp
    | some q => exact nonneg v q hv

/-- C113: a line whose second field is no number makes `set_idf_path` raise ValueError. -/
theorem C113_bad_number (K : KSys ℚ) (hK : ReadsFloats K) (w : World) (x : Tfidf ℚ) (path : Path) (hp : x.loader.path ≠ K.pos.sys.abspath path)
    (f : File) (hf : w.files (K.pos.sys.abspath path) = some f) (content : Str) (ls : List Str) (hd : utf8Encode content = some f.data)
    (hls : TextLines content ls) (l : Str) (hl : l ∈ ls) (mid word n : Str) (h1 : TrimmedBy isSpace l mid) (h2 : FieldsOf 0x20 mid [word, n])
    (h3 : ¬ ∃ v, FloatText n v) : (setIdfPath K w x path).2 = .error .valueError := by
  have hnone : K.float n = none := by
    refine (hK n).2 ?_
    cases hv : pyFloat n with
    | none => rfl
    | some v => exact absurd ⟨v, (pyFloat_iff n v).mp hv⟩ h3
  have hline : idfLine K l = none := by
    unfold idfLine
    rw [(trimmedBy_iff ..).mp h1, (fieldsOf_iff ..).mp h2]
    simp [hnone]
  rw [textLines_iff] at hls
  have hloop := idfLoop_err K (splitlines content) l (by rw [hls]; exact hl) hline []
  unfold setIdfPath setNewPath
  rw [hf]
  simp only [if_neg hp, utf8_decode_encode _ _ hd]
  rcases hr : idfLoop K (splitlines content) [] with ⟨d, r⟩
  rw [hr] at hloop
  simp only [] at hloop
  subst hloop
  rfl

/-- The documented weight of a keyword with the numbers of the file; `m` is their median. -/
def writtenWeight (es : IdfLines) (m : ℚ) (ks : List Key) (k : Key) : ℚ := (ks.count k : ℚ) * ((es.written k.text).getD m) / ks.length

/-- C113: the weights of `extract_tags` after loading such a file: wrong by at most the fraction 2^-50 of what the numbers in the file give with exact arithmetic. -/
theorem C113_weights (K : KSys ℚ) (hK : ReadsFloats K) (log : Nat → ℚ) (over : ℚ → ℚ) (hA : K.pos.sys.A = ieeeArith log over) (w : World) (x : Tfidf ℚ) (path : Path)
    (hp : x.loader.path ≠ K.pos.sys.abspath path) (f : File) (hf : w.files (K.pos.sys.abspath path) = some f) (es : IdfLines) (hes : es.Good f.data)
    (hn : ∀ e ∈ es, FarIdf e.2.2) (p : PWorld) (y : Tfidf ℚ) (hy : y = (setIdfPath K w x path).1) (s : PyText) (allow : List Str) (withFlag io : Bool)
    (hc : cutErr K p y s allow io = none) (hlen : (occ K p y s allow withFlag io).length ≤ 2 ^ 53) :
    ∃ m, IsMedian m (es.words.map (fun v => (es.written v).getD 0)) ∧ ∃ l, (extractTags K p y s none true allow withFlag io).2 = .ok l ∧
      (∀ k, k ∈ l.map Prod.fst ↔ k ∈ occ K p y s allow withFlag io) ∧
      ∀ e ∈ l, ∃ v, e.2 = some v ∧ |v - writtenWeight es m (occ K p y s allow withFlag io) e.1| ≤ writtenWeight es m (occ K p y s allow withFlag io) e.1 / 2 ^ 50 := by
  have norm : ∀ q, FarIdf q → NormalIdf q := by
    rintro q (h | ⟨h1, h2⟩)
    · exact Or.inl h
    · refine Or.inr ⟨le_trans ?_ h1, h2.trans (pow_le_pow_right₀ (by norm_num) (by norm_num))⟩
      have : (1 / 2 ^ 100 : ℚ) = 2 ^ (-100 : ℤ) := by norm_num
      rw [this]
      exact zpow_le_zpow_right₀ (by norm_num) (by norm_num)
  obtain ⟨h1, h2, m, h3, h4⟩ := load_written K hK w x path hp f hf es hes (fun e he => norm _ (hn e he))
  rw [← hy] at h2 h4
  have far : ∀ v q, es.written v = some q → FarIdf q := by
    intro v q hq
    obtain ⟨e', he', -, rfl⟩ := lastIdf_mem hq
    obtain ⟨e, he, rfl⟩ := List.mem_map.mp he'
    exact hn e he
  have farm : FarIdf m := by
    obtain ⟨v, hv, rfl⟩ := List.mem_map.mp h3.1
    cases hw : es.written v with
    | none => exact Or.inl rfl
    | some q => exact far v q hw
  have farRnd : ∀ q, FarIdf q → FarIdf (rnd q) := by
    rintro q (rfl | ⟨g1, g2⟩)
    · exact Or.inl rnd_zero
    · exact Or.inr ⟨le_rnd_inv g1, rnd_le_pow g2⟩
  have far0 : ∀ q, FarIdf q → 0 ≤ q := by
    rintro q (rfl | ⟨g1, -⟩)
    · exact le_refl _
    · exact le_trans (by positivity) g1
  obtain ⟨l, l1, l2, l3, -⟩ := C105_weights K log over hA p y s allow withFlag io hc hlen
    (fun v q hq => by
      rw [h2] at hq
      obtain ⟨q', hq', rfl⟩ := Option.map_eq_some_iff.mp hq
      exact farRnd _ (far v q' hq')) (by rw [h4]; exact farRnd m farm)
  refine ⟨m, h3, l, l1, l2, fun e he => ?_⟩
  obtain ⟨v, hv, hb⟩ := l3 e he
  refine ⟨v, hv, ?_⟩
  -- the exact weight with the rounded number
  obtain ⟨q, hq0, hq1, hq2⟩ : ∃ q : ℚ, FarIdf q ∧ (es.written e.1.text).getD m = q ∧ (y.idf.get? e.1.text).getD y.median = rnd q := by
    cases hw : es.written e.1.text with
    | none => exact ⟨m, farm, rfl, by rw [h2, hw, h4]; rfl⟩
    | some q => exact ⟨q, far _ _ hw, rfl, by rw [h2, hw]; rfl⟩
  unfold writtenWeight
  unfold exactWeight at hb
  rw [hq1]
  rw [hq2] at hb
  generalize occ K p y s allow withFlag io = ks at hb
  have hr := rnd_err q
  rw [abs_of_nonneg (far0 q hq0)] at hr
  have hc0 : (0 : ℚ) ≤ (ks.count e.1 : ℚ) / ks.length := by positivity
  have e1 : (ks.count e.1 : ℚ) * q / ks.length = (ks.count e.1 : ℚ) / ks.length * q := by ring
  have e2 : (ks.count e.1 : ℚ) * rnd q / ks.length = (ks.count e.1 : ℚ) / ks.length * rnd q := by ring
  rw [e1]
  rw [e2] at hb
  generalize (ks.count e.1 : ℚ) / ks.length = c at hb hc0
  obtain ⟨r1, r2⟩ := abs_le.mp hr
  obtain ⟨b1, b2⟩ := abs_le.mp hb
  have hq := far0 q hq0
  have m1 : c * rnd q ≤ c * q + c * q / 2 ^ 53 := by
    calc c * rnd q ≤ c * (q + q / 2 ^ 53) := mul_le_mul_of_nonneg_left (by linarith) hc0
      _ = _ := by ring
  have m2 : c * q - c * q / 2 ^ 53 ≤ c * rnd q := by
    calc c * q - c * q / 2 ^ 53 = c * (q - q / 2 ^ 53) := by ring
      _ ≤ c * rnd q := mul_le_mul_of_nonneg_left (by linarith) hc0
  have hcq : 0 ≤ c * q := mul_nonneg hc0 hq
  generalize c * q = z at *
  generalize c * rnd q = z' at *
  rw [abs_le]
  constructor <;> linarith

/-! ## An example -/

/-- The sample analyser with doubles, which reads numbers as CPython does. -/
def floatKSys : KSys ℚ := { ieeeKSys with float := fun s => match pyFloat s with
  | some (.num q) => some q
  | some _ => some 0
  | none => none }

def sampleIdfLines : IdfLines := [(lit ['北', '京'], lit ['1', '2', '.', '5'], 25 / 2), (lit ['大', '学'], lit ['0', '.', '1'], 1 / 10),
  (lit ['北', '京'], lit ['3', 'e', '-', '1'], 3 / 10)]

theorem floatKSys_reads : ReadsFloats floatKSys := by
  intro s
  refine ⟨fun q h => ?_, fun h => ?_⟩
  · show (match pyFloat s with | some (.num q) => some q | some _ => some 0 | none => none) = some q
    rw [h]
  · show (match pyFloat s with | some (.num q) => some q | some _ => some 0 | none => none) = none
    rw [h]

example : ∃ data, sampleIdfLines.Good data ∧ (∀ e ∈ sampleIdfLines, FarIdf e.2.2) ∧ sampleIdfLines.written (lit ['北', '京']) = some (3 / 10) ∧
    sampleIdfLines.words.length = 2 := by
  have d : ∀ (c : Char) (k : Nat), digitValue c.toNat = some k → DigitText (lit [c]) k := fun c k h => .digit _ _ h
  refine ⟨_, ⟨by decide, rfl, ?_⟩, ?_, by decide +kernel, by decide +kernel⟩
  · intro e he
    simp only [sampleIdfLines, List.mem_cons, List.not_mem_nil, or_false] at he
    rcases he with rfl | rfl | rfl
    · refine ⟨⟨by decide, by decide⟩, ⟨by decide, by decide⟩, ?_⟩
      have := DecimalText.plain _ _ (.inside _ _ _ _ (.next _ _ 0x32 2 (d '1' 1 (by decide)) (by decide)) (d '5' 5 (by decide)))
      convert this using 1 <;> decide +kernel
    · refine ⟨⟨by decide, by decide⟩, ⟨by decide, by decide⟩, ?_⟩
      have := DecimalText.plain _ _ (.inside _ _ _ _ (d '0' 0 (by decide)) (d '1' 1 (by decide)))
      convert this using 1 <;> decide +kernel
    · refine ⟨⟨by decide, by decide⟩, ⟨by decide, by decide⟩, ?_⟩
      have := DecimalText.exp _ _ 0x65 _ _ _ _ (.whole _ _ (d '3' 3 (by decide))) (by simp) .minus (d '1' 1 (by decide))
      convert this using 1 <;> decide +kernel
  · intro e he
    simp only [sampleIdfLines, List.mem_cons, List.not_mem_nil, or_false] at he
    rcases he with rfl | rfl | rfl <;> exact Or.inr ⟨by norm_num, by norm_num⟩

end Jieba.Props
