import Verif.Props.Stability
import Verif.Props.Repetition
import Verif.Props.PosWorld
/-!
# C136: text that has been segmented already
-/

set_option linter.unusedSectionVars false

namespace Jieba.Props
open Jieba Jieba.Spec Jieba.Pos Jieba.PosData

/-- A delimiter: characters that are no word characters (`p`), and neither CR nor LF. -/
def Delimiter (p : Ch → Bool) (d : Str) : Prop := d ≠ [] ∧ ∀ c ∈ d, p c = false ∧ c ≠ 0x0D ∧ c ≠ 0x0A

section general
variable {F : Type _} [LinearOrder F]

theorem intercalate_cons_cons {α : Type _} (d a b : List α) (l : List (List α)) :
    d.intercalate (a :: b :: l) = a ++ d ++ d.intercalate (b :: l) :=
  List.intercalate_cons_of_ne_nil (by simp)

theorem cut_delimiter (E : Env F) (hm : Bool) (b : Str) : ∀ d : Str, (∀ c ∈ d, isWordCh c = false ∧ c ≠ 0x0D ∧ c ≠ 0x0A) →
    cut E false hm (d ++ b) = Gen.andThen (Gen.ok (d.map (fun c => [c]))) (cut E false hm b)
  | [], _ => by simp [Gen.andThen, Gen.ok]
  | c :: d, h => by
    have hc := h c (by simp)
    have h0 : cut E false hm [] = Gen.ok [] := by rw [cut_accurate_eq_scan, scan_nil]
    have := C15_cut_around_separator E hm [] (d ++ b) c hc.1 (by simp) (fun e => hc.2.1 e.1)
    rw [List.nil_append, h0, cut_delimiter E hm b d (fun x hx => h x (by simp [hx]))] at this
    rw [List.cons_append, this]
    simp [Gen.andThen, Gen.ok]

theorem cut_around_delimiter (E : Env F) (hm : Bool) (a b d : Str) (hd : Delimiter isWordCh d) :
    cut E false hm (a ++ d ++ b) =
      Gen.andThen (cut E false hm a) (Gen.andThen (Gen.ok (d.map (fun c => [c]))) (cut E false hm b)) := by
  obtain ⟨hne, h⟩ := hd
  cases d with
  | nil => exact absurd rfl hne
  | cons c d =>
    have hc := h c (by simp)
    have := C15_cut_around_separator E hm a (d ++ b) c hc.1 (fun e => hc.2.2 e.2) (fun e => hc.2.1 e.1)
    rw [cut_delimiter E hm b d (fun x hx => h x (by simp [hx]))] at this
    rw [List.append_assoc, List.cons_append, this]
    congr 1

/-- C136: pieces of text joined by a delimiter are segmented piece by piece, and the characters of the delimiters are tokens of their own. -/
theorem C136_pieces (E : Env F) (hn : NonNeg E.freq) (ht : 0 < E.total) (hm : Bool) (d : Str) (hd : Delimiter isWordCh d) : ∀ ts : List Str,
    cut E false hm (d.intercalate ts) = Gen.ok ((d.map (fun c => [c])).intercalate (ts.map (fun t => (cut E false hm t).out)))
  | [] => by
    have h0 : cut E false hm [] = Gen.ok [] := by rw [cut_accurate_eq_scan, scan_nil]
    simpa [List.intercalate] using h0
  | [t] => by
    have he := C06_cut_never_raises E hn ht false hm t
    rw [List.map_singleton, List.intercalate_singleton, List.intercalate_singleton]
    cases h : cut E false hm t with
    | mk o e => rw [h] at he; simp only at he; subst he; rfl
  | t :: u :: ts => by
    have he := C06_cut_never_raises E hn ht false hm t
    have ih := C136_pieces E hn ht hm d hd (u :: ts)
    rw [intercalate_cons_cons, cut_around_delimiter E hm t _ d hd, ih, List.map_cons, List.map_cons, List.map_cons,
      intercalate_cons_cons]
    cases h : cut E false hm t with
    | mk o e =>
      rw [h] at he
      simp only at he
      subst he
      simp [Gen.andThen, Gen.ok, h]

theorem flatMap_intercalate {α β : Type _} (f : α → List β) (d : List α) : ∀ ls : List (List α),
    (d.intercalate ls).flatMap f = (d.flatMap f).intercalate (ls.map (List.flatMap f))
  | [] => by simp [List.intercalate]
  | [l] => by simp
  | l :: m :: ls => by
    have ih := flatMap_intercalate f d (m :: ls)
    rw [intercalate_cons_cons, List.flatMap_append, List.flatMap_append, ih, List.map_cons, List.map_cons, List.map_cons, intercalate_cons_cons]

theorem filter_intercalate {α : Type _} (p : α → Bool) (d : List α) (h : ∀ x ∈ d, p x = false) : ∀ ls : List (List α),
    (d.intercalate ls).filter p = (ls.map (List.filter p)).flatten
  | [] => by simp [List.intercalate]
  | [l] => by simp
  | l :: m :: ls => by
    have ih := filter_intercalate p d h (m :: ls)
    have hd : d.filter p = [] := List.filter_eq_nil_iff.mpr (fun x hx => by rw [h x hx]; simp)
    rw [intercalate_cons_cons, List.filter_append, List.filter_append, ih, hd]
    simp

/-- C136: tokens that are segmented as themselves are found again in `d.join(tokens)`, in every mode of `cut` but full mode. -/
theorem C136_stable_tokens (E : Env F) (hn : NonNeg E.freq) (ht : 0 < E.total) (hm : Bool) (d : Str) (hd : Delimiter isWordCh d) (ws : List Str)
    (h : ∀ w ∈ ws, (cut E false hm w).out = [w]) :
    cut E false hm (d.intercalate ws) = Gen.ok ((d.map (fun c => [c])).intercalate (ws.map (fun w => [w]))) := by
  rw [C136_pieces E hn ht hm d hd ws]
  congr 2
  exact List.map_congr_left h

end general

/-- C136: segmenting `d.join(cut(text))` again gives the tokens of the text with the characters of the delimiters between them (exact arithmetic, no
HMM); leaving out what looks like part of a delimiter gives the same from the text and from the text segmented before; and so does search mode. -/
theorem C136_segmented_again (freq : Freq) (total : Int) (T : FinalSeg.Tables ℝ) (force : List Str) (hp : PrefixClosed freq) (hn : NonNeg freq)
    (ht : 0 < total) (hb : ∀ w x, freq.get? w = some x → x ≤ total) (d : Str) (hd : Delimiter isWordCh d) (s : Str) :
    let E : Env ℝ := ⟨realArith, freq, total, T, force⟩
    let ts := (cut E false false s).out
    let other : Str → Bool := fun w => decide (w ∉ d.map (fun c => [c]))
    cut E false false (d.intercalate ts) = Gen.ok ((d.map (fun c => [c])).intercalate (ts.map (fun w => [w]))) ∧
      (cut E false false (d.intercalate ts)).out.filter other = ts.filter other ∧
      (cutForSearch E false (d.intercalate ts)).out.filter other = (cutForSearch E false s).out.filter other := by
  intro E ts other
  have h1 : cut E false false (d.intercalate ts) = Gen.ok ((d.map (fun c => [c])).intercalate (ts.map (fun w => [w]))) := by
    refine C136_stable_tokens E hn ht false d hd ts (fun w hw => ?_)
    have := C69_tokens_are_stable freq total T force hp hn ht hb s w hw
    rw [this]; rfl
  refine ⟨h1, ?_, ?_⟩
  · rw [h1]
    show List.filter other (List.intercalate _ _) = _
    rw [filter_intercalate other _ (fun x hx => by simpa [other] using hx), List.map_map, ← List.flatMap_def]
    have : ∀ l : List Str, l.flatMap (List.filter other ∘ fun w => [w]) = l.filter other := by
      intro l
      induction l with
      | nil => rfl
      | cons x l ih => rw [List.flatMap_cons, ih, ← List.singleton_append, List.filter_append]; rfl
    exact this ts
  · let f : Str → List Str := fun w => grams freq 2 w ++ grams freq 3 w ++ [w]
    have hf : ∀ g : Gen Str, (g.mapOut f).out = g.out.flatMap f := fun g => rfl
    show List.filter other ((cut E false false (d.intercalate ts)).mapOut f).out = List.filter other ((cut E false false s).mapOut f).out
    have h2 : (d.map (fun c => [c])).flatMap f = d.map (fun c => [c]) := by
      rw [List.flatMap_map]
      have : ∀ c : Ch, f [c] = [[c]] := fun c => by simp [f, grams]
      simp [this, ← List.map_eq_flatMap]
    rw [hf, hf, h1]
    show List.filter other (List.flatMap f (List.intercalate _ _)) = _
    rw [flatMap_intercalate, h2, filter_intercalate other _ (fun x hx => by simpa [other] using hx), List.map_map, List.map_map,
      ← List.flatMap_def]
    show _ = List.filter other (List.flatMap f ts)
    rw [List.filter_flatMap]
    congr 1
    funext w
    simp

/-! ## Tags -/

section tags
variable {F : Type} [LinearOrder F]

theorem pos_delimiter (E : PEnv F) (hm : Bool) (b : Str) : ∀ d : Str, (∀ c ∈ d, isWordChPos c = false ∧ c ≠ 0x0D ∧ c ≠ 0x0A) →
    Pos.cut E hm (d ++ b) = Gen.andThen (Gen.ok (d.map (fun c => ([c], lit ['x'])))) (Pos.cut E hm b)
  | [], _ => by simp [Gen.andThen, Gen.ok]
  | c :: d, h => by
    have hc := h c (by simp)
    have h0 : Pos.cut E hm [] = Gen.ok [] := by rw [Pos.cut_eq_scan, scan_nil]
    have := C15_posseg_around_separator E hm [] (d ++ b) c hc.1 (by simp) (fun e => hc.2.1 e.1)
    rw [List.nil_append, h0, pos_delimiter E hm b d (fun x hx => h x (by simp [hx]))] at this
    rw [List.cons_append, this]
    simp [Gen.andThen, Gen.ok]

theorem pos_around_delimiter (E : PEnv F) (hm : Bool) (a b d : Str) (hd : Delimiter isWordChPos d) :
    Pos.cut E hm (a ++ d ++ b) =
      Gen.andThen (Pos.cut E hm a) (Gen.andThen (Gen.ok (d.map (fun c => ([c], lit ['x'])))) (Pos.cut E hm b)) := by
  obtain ⟨hne, h⟩ := hd
  cases d with
  | nil => exact absurd rfl hne
  | cons c d =>
    have hc := h c (by simp)
    have := C15_posseg_around_separator E hm a (d ++ b) c hc.1 (fun e => hc.2.2 e.2) (fun e => hc.2.1 e.1)
    rw [pos_delimiter E hm b d (fun x hx => h x (by simp [hx]))] at this
    rw [List.append_assoc, List.cons_append, this]
    congr 1

/-- C136: pieces of text joined by a delimiter are tagged piece by piece, and the characters of the delimiters are tagged `x`. -/
theorem C136_posseg_pieces (E : PEnv F) (hm : Bool) (d : Str) (hd : Delimiter isWordChPos d) : ∀ ts : List Str,
    (∀ t ∈ ts, (Pos.cut E hm t).err = none) → Pos.cut E hm (d.intercalate ts) =
      Gen.ok ((d.map (fun c => ([c], lit ['x']))).intercalate (ts.map (fun t => (Pos.cut E hm t).out)))
  | [], _ => by
    have h0 : Pos.cut E hm [] = Gen.ok [] := by rw [Pos.cut_eq_scan, scan_nil]
    simpa [List.intercalate] using h0
  | [t], he => by
    have he := he t (by simp)
    rw [List.map_singleton, List.intercalate_singleton, List.intercalate_singleton]
    cases h : Pos.cut E hm t with
    | mk o e => rw [h] at he; simp only at he; subst he; rfl
  | t :: u :: ts, he => by
    have ih := C136_posseg_pieces E hm d hd (u :: ts) (fun x hx => he x (by simp at hx ⊢; tauto))
    have he := he t (by simp)
    rw [intercalate_cons_cons, pos_around_delimiter E hm t _ d hd, ih, List.map_cons, List.map_cons, List.map_cons, intercalate_cons_cons]
    cases h : Pos.cut E hm t with
    | mk o e =>
      rw [h] at he
      simp only at he
      subst he
      simp [Gen.andThen, Gen.ok, h]

end tags

/-- C136: without HMM and in exact arithmetic, in texts without ASCII letters and digits, '%' and '-', every word of `posseg.cut` is tagged alone as in
the text, and so the tags are found again in `d.join(words)`. -/
theorem C136_tagged_again (E : PEnv ℝ) (hA : E.A = realArith) (hp : PrefixClosed E.freq) (hn : NonNeg E.freq) (ht : 0 < E.total)
    (hb : ∀ w x, E.freq.get? w = some x → x ≤ E.total) (hσ : ∀ s t l, (E.σ s t l).Perm l) (d : Str) (hd : Delimiter isWordChPos d) (s : Str)
    (hs : ∀ c ∈ s, isAlnum c = false ∧ c ≠ 0x25 ∧ c ≠ 0x2D) :
    let ps := (Pos.cut E false s).out
    (∀ p ∈ ps, Pos.cut E false p.1 = Gen.ok [p]) ∧
      Pos.cut E false (d.intercalate (ps.map Prod.fst)) = Gen.ok ((d.map (fun c => ([c], lit ['x']))).intercalate (ps.map (fun p => [p]))) := by
  intro ps
  have h1 : ∀ p ∈ ps, Pos.cut E false p.1 = Gen.ok [p] := by
    intro p hp'
    have hmem : ∀ c ∈ p.1, c ∈ s := by
      intro c hc
      exact (C40_posseg_lossless_no_hmm E s).2.1.subset (List.mem_flatten.mpr ⟨p.1, List.mem_map_of_mem hp', hc⟩)
    have hno : ∀ t : Str, (∀ c ∈ t, c ∈ s) → (0x25 : Ch) ∉ t ∧ (0x2D : Ch) ∉ t :=
      fun t h => ⟨fun h' => (hs _ (h _ h')).2.1 rfl, fun h' => (hs _ (h _ h')).2.2 rfl⟩
    have T : FinalSeg.Tables ℝ := ⟨fun _ => 0, fun _ _ => none, fun _ _ => none, 0⟩
    have hw := (C46_posseg_words_are_cut E T [] s (hno s (fun _ h => h)).1 (hno s (fun _ h => h)).2).1
    have hpw : p.1 ∈ (Jieba.cut ⟨E.A, E.freq, E.total, T, []⟩ false false s).out := by rw [← hw]; exact List.mem_map_of_mem hp'
    rw [hA] at hpw
    have hst := C69_tokens_are_stable E.freq E.total T [] hp hn ht hb s p.1 hpw
    rw [← hA] at hst
    obtain ⟨e1, e2⟩ := C46_posseg_words_are_cut E T [] p.1 (hno p.1 hmem).1 (hno p.1 hmem).2
    rw [hst] at e1 e2
    cases hg : Pos.cut E false p.1 with
    | mk o e =>
      rw [hg] at e1 e2
      simp only at e1 e2
      have e2' : e = none := e2
      subst e2'
      obtain ⟨q, rfl, hq⟩ : ∃ q, o = [q] ∧ q.1 = p.1 := by
        have : o.map Prod.fst = [p.1] := e1
        rw [List.map_eq_singleton_iff] at this
        obtain ⟨q, h, h'⟩ := this
        exact ⟨q, h, h'⟩
      have hqm : q ∈ (Pos.cut E false p.1).out := by rw [hg]; simp
      have : q.2 = p.2 := by
        by_cases hwd : ∀ c ∈ p.1, isWordChPos c = true
        · obtain ⟨c, hc⟩ := List.exists_mem_of_ne_nil _ ((C40_posseg_lossless_no_hmm E s).1 p hp')
          have ha : ∃ c ∈ p.1, isAlnum c = false := ⟨c, hc, (hs c (hmem c hc)).1⟩
          rw [C43_tags_no_hmm E s p hp' hwd ha, C43_tags_no_hmm E p.1 q hqm (by rw [hq]; exact hwd) (by rw [hq]; exact ha), hq]
        · simp only [not_forall] at hwd
          obtain ⟨c, hc, hcw⟩ := hwd
          have hcw : isWordChPos c = false := by simpa using hcw
          rw [(C44_nonword_is_x E false (by simp) hσ s p hp' ⟨c, hc, hcw⟩).1,
            (C44_nonword_is_x E false (by simp) hσ p.1 q hqm ⟨c, by rw [hq]; exact hc, hcw⟩).1]
      rw [show q = p from Prod.ext hq this]
      rfl
  refine ⟨h1, ?_⟩
  rw [C136_posseg_pieces E false d hd (ps.map Prod.fst) (fun t h => ?_), List.map_map]
  · congr 2
    refine List.map_congr_left (fun p h => ?_)
    show (Pos.cut E false p.1).out = [p]
    rw [h1 p h]; rfl
  · obtain ⟨p, hmem, rfl⟩ := List.mem_map.mp h
    rw [h1 p hmem]; rfl

/-- C136 is false with HMM: 中文人 is cut into 中文 and 人, but in "中文 人" 中文 is cut into its characters. -/
theorem C136_fails_with_hmm :
    cut ⟨intArith, rareWordFreq, 66, sampleTables, []⟩ false true (lit ['中', '文', '人']) = Gen.ok [lit ['中', '文'], lit ['人']] ∧
    cut ⟨intArith, rareWordFreq, 66, sampleTables, []⟩ false true (lit ['中', '文', ' ', '人']) =
      Gen.ok [lit ['中'], lit ['文'], lit [' '], lit ['人']] := by
  decide +kernel

/-- C136: the delimiter must not consist of word characters: a word of the dictionary may contain it. -/
theorem C136_word_character : ∃ freq : Freq, PrefixClosed freq ∧ NonNeg freq ∧
    cut ⟨intArith, freq, 20, sampleTables, []⟩ false false (lit ['甲', '乙']) = Gen.ok [lit ['甲'], lit ['乙']] ∧
    cut ⟨intArith, freq, 20, sampleTables, []⟩ false false (lit ['甲', '-', '乙']) = Gen.ok [lit ['甲', '-', '乙']] := by
  refine ⟨[(lit ['甲'], 0), (lit ['甲', '-'], 0), (lit ['甲', '-', '乙'], 8)], ?_, nonNeg_of_all _ (by decide), by decide +kernel⟩
  have key : ∀ w ∈ ([(lit ['甲'], 0), (lit ['甲', '-'], 0), (lit ['甲', '-', '乙'], 8)] : Freq).map Prod.fst, ∀ p ∈ w.inits, p ≠ [] →
      PyDict.has ([(lit ['甲'], 0), (lit ['甲', '-'], 0), (lit ['甲', '-', '乙'], 8)] : Freq) p = true := by decide +kernel
  intro w hw p hne hpre
  exact key w ((PyDict.mem_keys_iff _ _).mpr hw) p ((List.mem_inits _ _).mpr hpre) hne

/-- The hypotheses of `C136_segmented_again` and `C136_tagged_again` are met. -/
example : PrefixClosed sampleFreq ∧ NonNeg sampleFreq ∧ (∀ w x, sampleFreq.get? w = some x → x ≤ 161) ∧ Delimiter isWordCh (lit [' ']) ∧
    Delimiter isWordChPos (lit [' ']) ∧ (∀ c ∈ lit ['北', '京', '大', '学', '来', ','], isAlnum c = false ∧ c ≠ 0x25 ∧ c ≠ 0x2D) ∧
    (cut ⟨realArith, sampleFreq, 161, realSys.tables, []⟩ false false (lit ['北', '京', '大', '学', '来', ','])).out =
      [lit ['北', '京', '大', '学'], lit ['来'], lit [',']] := by
  refine ⟨sample_prefixClosed, sample_nonNeg, ?_, by unfold Delimiter; decide, by unfold Delimiter; decide, by decide, ?_⟩
  · have key : ∀ p ∈ sampleFreq, p.2 ≤ 161 := by decide
    intro w x h
    exact key (w, x) ((PyDict.get?_eq_some_iff_mem _ (by decide) w x).mp h)
  · rw [cut_real]; decide +kernel

/-- The delimiter of the command line, " / ". -/
example : Delimiter isWordCh (lit [' ', '/', ' ']) ∧ Delimiter isWordChPos (lit [' ', '/', ' ']) ∧
    cut sampleEnv false false (lit ['北', '京', '大', '学', '生', '!']) = Gen.ok [lit ['北', '京', '大', '学'], lit ['生'], lit ['!']] ∧
    cut sampleEnv false false (lit ['北', '京', '大', '学', ' ', '/', ' ', '生', ' ', '/', ' ', '!']) =
      Gen.ok [lit ['北', '京', '大', '学'], lit [' '], lit ['/'], lit [' '], lit ['生'], lit [' '], lit ['/'], lit [' '], lit ['!']] := by
  unfold Delimiter
  decide +kernel

end Jieba.Props
