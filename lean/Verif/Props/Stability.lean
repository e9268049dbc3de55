import Verif.Proofs.Recut
import Verif.Props.Suggest
/-!
# C69, C70, C71: segmenting tokens again, and how changes of the dictionary affect a text
-/

namespace Jieba.Props
open Jieba Jieba.Spec

/-! ## C69 -/

theorem cut_single {F : Type _} [LinearOrder F] (E : Env F) (hn : NonNeg E.freq) (ht : 0 < E.total) (hm : Bool) (c : Ch) :
    cut E false hm [c] = Gen.ok [[c]] := by
  have h := cut_lossless E hm [c]
  have he := C06_cut_never_raises E hn ht false hm [c]
  have hf := h.complete he
  have hne := h.nonempty
  have : (cut E false hm [c]).out = [[c]] := by
    generalize (cut E false hm [c]).out = l at hf hne
    cases l with
    | nil => simp at hf
    | cons w l =>
      cases w with
      | nil => exact absurd rfl (hne [] (by simp))
      | cons d w =>
        simp only [List.flatten_cons, List.cons_append, List.cons.injEq, List.append_eq_nil_iff] at hf
        obtain ⟨rfl, rfl, hl⟩ := hf
        cases l with
        | nil => rfl
        | cons x l =>
          have := hne x (by simp)
          rw [List.flatten_cons] at hl
          exact absurd (List.append_eq_nil_iff.mp hl).1 this
  rw [Gen.eq_ok_of_err _ he, this]

theorem cut_crlf {F : Type _} [LinearOrder F] (E : Env F) (hm : Bool) :
    cut E false hm [0x0D, 0x0A] = Gen.ok [[0x0D, 0x0A]] := by
  rw [cut_accurate_eq_scan]
  have := scan_nonword isWordCh (cutBlock E false hm) (fun b => Gen.ok (charTokens b)) [0x0D, 0x0A] [] (by simp) (by decide) (by simp)
  rw [List.append_nil] at this
  rw [this, scan_nil]
  simp [charTokens]

/-- C69: in exact arithmetic and without HMM, every token of a text is segmented as itself.  The dictionary must be
prefix-closed (C20), without negative frequencies and with no frequency above the total (C22). -/
theorem C69_tokens_are_stable (freq : Freq) (total : Int) (T : FinalSeg.Tables ℝ) (force : List Str)
    (hp : PrefixClosed freq) (hn : NonNeg freq) (ht : 0 < total) (hb : ∀ w x, freq.get? w = some x → x ≤ total) (s : Str) :
    ∀ w ∈ (cut ⟨realArith, freq, total, T, force⟩ false false s).out,
      cut ⟨realArith, freq, total, T, force⟩ false false w = Gen.ok [w] := by
  intro w hw
  rw [cut_accurate_eq_scan] at hw
  have one : w.length = 1 → cut ⟨realArith, freq, total, T, force⟩ false false w = Gen.ok [w] := by
    intro h
    obtain ⟨c, rfl⟩ := List.length_eq_one_iff.mp h
    exact cut_single ⟨realArith, freq, total, T, force⟩ hn ht false c
  obtain ⟨b, -, hbne, ⟨hbw, h⟩ | ⟨-, h⟩⟩ := scan_out_mem _ _ _ _ _ hw
  · rw [← cut_of_word_block _ false b hbne hbw] at h
    obtain ⟨path, ts, h1, h2, h3⟩ := C05_cut_follows_best_path ⟨realArith, freq, total, T, force⟩ realArith_mono hp hn ht b hbne hbw
    rw [h2] at h
    have hfl : path.flatten = b := admissible_flatten _ _ _ (isBest_admissible _ _ _ _ _ h1)
    have hmem : ∀ x ∈ path, ∀ c ∈ x, isWordCh c = true :=
      fun x hx c hc => hbw c (by rw [← hfl]; exact List.mem_flatten.mpr ⟨x, hx, hc⟩)
    have hne : ∀ x ∈ path, x ≠ [] := by
      have : ∀ (l : List Str) (s : Str), Admissible freq s l → ∀ x ∈ l, x ≠ [] := by
        intro l
        induction l with
        | nil => simp
        | cons y l ih =>
          intro s hs x hx
          rcases List.mem_cons.mp hx with rfl | hx
          · exact hs.1.1
          · exact ih _ hs.2 x hx
      exact this _ _ (isBest_admissible _ _ _ _ _ h1)
    rcases regrouped_split h3 w h with ⟨hnl, p, q, rfl⟩ | ⟨p, r, q, rfl, hr1, hr2, rfl⟩
    · by_cases hl : w.length = 1
      · exact one hl
      · have hb1 := isBest_suffix _ _ _ p (w :: q) b h1
        rw [List.flatten_cons] at hb1
        have hd : DictWord freq w := by
          rcases hb1.1.2.2 with h | ⟨h, -⟩
          · exact h
          · exact absurd h hl
        have hbest := isBest_word freq hn total ht hb w q hd hb1
        obtain ⟨path', ts', k1, k2, k3⟩ := C05_cut_follows_best_path ⟨realArith, freq, total, T, force⟩ realArith_mono hp hn ht w
          (hne w (by simp)) (hmem w (by simp))
        have := isBest_unique _ _ _ _ _ _ k1 hbest
        subst this
        rw [k2, regrouped_no_single k3]
        intro x hx
        have : x = w := by simpa using hx
        rw [this]; exact hnl
    · have hb1 := isBest_suffix _ _ _ p (r ++ q) b (by rw [← List.append_assoc]; exact h1)
      rw [List.flatten_append] at hb1
      have hr3 : ∀ x ∈ r, x.length = 1 := by
        intro x hx
        obtain ⟨c, rfl, -⟩ := hr2 x hx
        rfl
      have hbest := isBest_singles freq hn total ht r q hr3 hb1
      have hrf : r.flatten ≠ [] := by
        cases r with
        | nil => exact absurd rfl hr1
        | cons x r =>
          intro e
          rw [List.flatten_cons] at e
          exact hne x (by simp) (List.append_eq_nil_iff.mp e).1
      have hrw : ∀ c ∈ r.flatten, isWordCh c = true := by
        intro c hc
        obtain ⟨x, hx, hc⟩ := List.mem_flatten.mp hc
        exact hmem x (by simp [hx]) c hc
      obtain ⟨path', ts', k1, k2, k3⟩ := C05_cut_follows_best_path ⟨realArith, freq, total, T, force⟩ realArith_mono hp hn ht
        r.flatten hrf hrw
      have := isBest_unique _ _ _ _ _ _ k1 hbest
      subst this
      rw [k2, regrouped_all_single k3 hr1 hr2]
  · simp only [Gen.ok] at h
    rcases charTokens_mem b w h with h | rfl
    · exact one h
    · exact cut_crlf _ false

/-- The hypotheses are met, and there are tokens of all kinds: words, letters, single characters. -/
example : PrefixClosed sampleFreq ∧ NonNeg sampleFreq ∧ (∀ w x, sampleFreq.get? w = some x → x ≤ 161) ∧
    (cut ⟨realArith, sampleFreq, 161, realSys.tables, []⟩ false false
      (lit ['北', '京', '大', '学', 'P', 'C', '来', ',', 'T', '恤', '\r', '\n'])).out =
      [lit ['北', '京', '大', '学'], lit ['P', 'C'], lit ['来'], lit [','], lit ['T', '恤'], lit ['\r', '\n']] := by
  refine ⟨sample_prefixClosed, sample_nonNeg, ?_, ?_⟩
  · have key : ∀ p ∈ sampleFreq, p.2 ≤ 161 := by decide
    intro w x h
    exact key (w, x) ((PyDict.get?_eq_some_iff_mem _ (by decide) w x).mp h)
  · rw [cut_real]; decide +kernel

/-! Final stretches of a segmentation. -/

theorem regrouped_unique {single : Str → Prop} {f : List Str → List Str} {path ts : List Str} (h : Regrouped single f path ts) :
    ∀ ts', Regrouped single f path ts' → ts' = ts := by
  have head : ∀ {path r ps : List Str} {w : Str} {l : List Str}, path = w :: l → path = r ++ ps → r ≠ [] → (∀ x ∈ r, single x) → single w := by
    intro path r ps w l h1 h2 hr hs
    cases r with
    | nil => exact absurd rfl hr
    | cons x r =>
      rw [h1] at h2
      simp only [List.cons_append, List.cons.injEq] at h2
      exact h2.1 ▸ hs x (by simp)
  induction h with
  | nil =>
    intro ts' h'
    generalize e : ([] : List Str) = path at h'
    cases h' with
    | nil => rfl
    | word w ps ts h1 h2 => cases e
    | run r ps ts h1 h2 h3 h4 => exact absurd (List.append_eq_nil_iff.mp e.symm).1 h1
  | word w ps ts hw h ih =>
    intro ts' h'
    generalize e : w :: ps = path at h'
    cases h' with
    | nil => cases e
    | word w' ps' ts' h1 h2 =>
      cases e
      rw [ih _ h2]
    | run r ps' ts' h1 h2 h3 h4 => exact absurd (head e.symm rfl h1 h2) hw
  | run r ps ts h1 h2 h3 h ih =>
    intro ts' h'
    generalize e : r ++ ps = path at h'
    cases h' with
    | nil => exact absurd (List.append_eq_nil_iff.mp e).1 h1
    | word w ps' ts' k1 k2 => exact absurd (head rfl e.symm h1 h2) k1
    | run r' ps' ts' k1 k2 k3 k4 =>
      have key : ∀ (r r' ps ps' : List Str), r ++ ps = r' ++ ps' → (∀ w ∈ r, single w) → (∀ w ∈ r', single w) →
          (∀ w, ps.head? = some w → ¬ single w) → (∀ w, ps'.head? = some w → ¬ single w) → r = r' ∧ ps = ps' := by
        intro r
        induction r with
        | nil =>
          intro r' ps ps' e _ a2 a3 _
          cases r' with
          | nil => exact ⟨rfl, e⟩
          | cons x r' =>
            simp only [List.nil_append] at e
            subst e
            exact absurd (a2 x (by simp)) (a3 x (by simp))
        | cons y r ihr =>
          intro r' ps ps' e a1 a2 a3 a4
          cases r' with
          | nil =>
            simp only [List.nil_append] at e
            subst e
            exact absurd (a1 y (by simp)) (a4 y (by simp))
          | cons x r' =>
            simp only [List.cons_append, List.cons.injEq] at e
            obtain ⟨rfl, e⟩ := e
            obtain ⟨rfl, rfl⟩ := ihr r' ps ps' e (fun w hw => a1 w (by simp [hw])) (fun w hw => a2 w (by simp [hw])) a3 a4
            exact ⟨rfl, rfl⟩
      obtain ⟨rfl, rfl⟩ := key _ _ _ _ e h2 k2 h3 k3
      rw [ih _ k4]

theorem regrouped_suffix {single : Str → Prop} {path ts : List Str} (h : Regrouped single (fun r => [r.flatten]) path ts) :
    ∀ l1 l2, ts = l1 ++ l2 → ∃ p q, path = p ++ q ∧ Regrouped single (fun r => [r.flatten]) q l2 := by
  induction h with
  | nil =>
    intro l1 l2 e
    obtain ⟨rfl, rfl⟩ := List.append_eq_nil_iff.mp e.symm
    exact ⟨[], [], rfl, .nil⟩
  | word w ps ts hw h ih =>
    intro l1 l2 e
    cases l1 with
    | nil => subst e; exact ⟨[], _, rfl, .word w ps ts hw h⟩
    | cons x l1 =>
      simp only [List.cons_append, List.cons.injEq] at e
      obtain ⟨p, q, rfl, hq⟩ := ih l1 l2 e.2
      exact ⟨w :: p, q, rfl, hq⟩
  | run r ps ts h1 h2 h3 h ih =>
    intro l1 l2 e
    cases l1 with
    | nil =>
      simp only [List.nil_append] at e
      rw [← e]; exact ⟨[], _, rfl, .run r ps ts h1 h2 h3 h⟩
    | cons x l1 =>
      simp only [List.cons_append, List.nil_append, List.cons.injEq] at e
      obtain ⟨p, q, rfl, hq⟩ := ih l1 l2 e.2
      exact ⟨r ++ p, q, by simp, hq⟩

theorem regrouped_flatten {single : Str → Prop} {path ts : List Str} (h : Regrouped single (fun r => [r.flatten]) path ts) :
    ts.flatten = path.flatten := by
  induction h with
  | nil => rfl
  | word w ps ts hw h ih => simp [ih]
  | run r ps ts h1 h2 h3 h ih => simp [ih]

theorem charTokens_suffix : ∀ (s : Str) (l1 l2 : List Str), charTokens s = l1 ++ l2 → charTokens l2.flatten = l2 := by
  intro s
  induction s using charTokens.induct with
  | case1 s ih =>
    intro l1 l2 e
    rw [charTokens] at e
    cases l1 with
    | nil =>
      simp only [List.nil_append] at e
      rw [← e, List.flatten_cons, (charTokens_flatten s).1]
      simp [charTokens]
    | cons x l1 =>
      simp only [List.cons_append, List.cons.injEq] at e
      exact ih l1 l2 e.2
  | case2 c s h ih =>
    intro l1 l2 e
    rw [charTokens] at e
    · cases l1 with
      | nil =>
        simp only [List.nil_append] at e
        rw [← e, List.flatten_cons, (charTokens_flatten s).1]
        simp only [List.cons_append, List.nil_append]
        rw [charTokens]
        exact h
      | cons x l1 =>
        simp only [List.cons_append, List.cons.injEq] at e
        exact ih l1 l2 e.2
    · exact h
  | case3 =>
    intro l1 l2 e
    obtain ⟨rfl, rfl⟩ := List.append_eq_nil_iff.mp e.symm
    rfl

/-- C69: without HMM, the tokens from any token on are the segmentation of the rest of the text.  (In contrast to
`C69_tokens_are_stable` this needs no exact arithmetic.) -/
theorem C69_rest_is_stable {F : Type _} [LinearOrder F] (E : Env F) (hA : MonoAdd E.A) (hp : PrefixClosed E.freq) (hn : NonNeg E.freq)
    (ht : 0 < E.total) (s : Str) (l₁ l₂ : List Str) (h : (cut E false false s).out = l₁ ++ l₂) :
    cut E false false l₂.flatten = Gen.ok l₂ := by
  have hok : ∀ s, cut E false false s = Gen.ok (cut E false false s).out := fun s =>
    Gen.eq_ok_of_err _ (C06_cut_never_raises E hn ht false false s)
  have hsc : ∀ s, cut E false false s = scan isWordCh (cutBlock E false false) (fun b => Gen.ok (charTokens b)) s :=
    fun s => cut_accurate_eq_scan E false s
  have block : ∀ u : Str, (∀ c ∈ u, isWordCh c = true) → ∀ l₁ l₂, (cut E false false u).out = l₁ ++ l₂ →
      cut E false false l₂.flatten = Gen.ok l₂ := by
    intro u hu l₁ l₂ h
    by_cases hl : l₂.flatten = []
    · cases l₂ with
      | nil => rfl
      | cons x l₂ =>
        have : x ≠ [] := (cut_lossless E false u).nonempty x (by rw [h]; simp)
        exact absurd (List.append_eq_nil_iff.mp hl).1 this
    have hfl := (cut_lossless E false u).complete (C06_cut_never_raises E hn ht false false u)
    rw [h, List.flatten_append] at hfl
    have hune : u ≠ [] := by rintro rfl; exact hl (List.append_eq_nil_iff.mp hfl).2
    obtain ⟨path, ts, h1, h2, h3⟩ := C05_cut_follows_best_path E hA hp hn ht u hune hu
    rw [h2] at h
    obtain ⟨p, q, rfl, hq⟩ := regrouped_suffix h3 l₁ l₂ h
    have hqf := regrouped_flatten hq
    have hb := isBest_suffix _ _ _ p q u h1
    obtain ⟨path', ts', k1, k2, k3⟩ := C05_cut_follows_best_path E hA hp hn ht l₂.flatten hl
      (fun c hc => hu c (by rw [← hfl]; exact List.mem_append_right _ hc))
    rw [hqf] at k1
    have := isBest_unique _ _ _ _ _ _ k1 hb
    subst this
    rw [k2, regrouped_unique hq _ k3]
  revert l₁ l₂ h
  refine scan_ind (P := fun s => ∀ l₁ l₂, (cut E false false s).out = l₁ ++ l₂ → cut E false false l₂.flatten = Gen.ok l₂) isWordCh ?_ ?_ ?_ s
  · intro l₁ l₂ h
    have : l₁ ++ l₂ = [] := h.symm
    obtain ⟨rfl, rfl⟩ := List.append_eq_nil_iff.mp this
    rfl
  · intro u rest hu hp' hr ih l₁ l₂ h
    have e : ∀ v : Str, v ≠ [] → (∀ c ∈ v, isWordCh c = true) →
        cut E false false (v ++ rest) = Gen.andThen (cut E false false v) (cut E false false rest) := by
      intro v hv hvp
      rw [hsc (v ++ rest), scan_word _ _ _ v rest hv hvp hr, ← hsc rest, cut_of_word_block E false v hv hvp]
    rw [e u hu hp', hok u, hok rest] at h
    simp only [Gen.andThen, Gen.ok] at h
    rcases List.append_eq_append_iff.mp h with ⟨m, rfl, h2⟩ | ⟨m, h1, rfl⟩
    · exact ih m l₂ h2
    · by_cases hm : m = []
      · subst hm
        exact ih [] _ (by simp)
      have hm1 := block u hp' l₁ m h1
      have hfl := (cut_lossless E false u).complete (C06_cut_never_raises E hn ht false false u)
      rw [h1, List.flatten_append] at hfl
      have hrest := (cut_lossless E false rest).complete (C06_cut_never_raises E hn ht false false rest)
      have hmf : m.flatten ≠ [] := by
        cases m with
        | nil => exact absurd rfl hm
        | cons x m =>
          have : x ≠ [] := (cut_lossless E false u).nonempty x (by rw [h1]; simp)
          intro e
          exact this (List.append_eq_nil_iff.mp e).1
      rw [List.flatten_append, hrest, e m.flatten hmf (fun c hc => hp' c (by rw [← hfl]; exact List.mem_append_right _ hc)), hm1, hok rest]
      simp [Gen.andThen, Gen.ok]
  · intro u rest hu hp' hr ih l₁ l₂ h
    have e : ∀ v : Str, v ≠ [] → (∀ c ∈ v, isWordCh c = false) →
        cut E false false (v ++ rest) = Gen.andThen (Gen.ok (charTokens v)) (cut E false false rest) := by
      intro v hv hvp
      rw [hsc (v ++ rest), scan_nonword _ _ _ v rest hv hvp hr, ← hsc rest]
    rw [e u hu hp', hok rest] at h
    simp only [Gen.andThen, Gen.ok] at h
    rcases List.append_eq_append_iff.mp h with ⟨m, rfl, h2⟩ | ⟨m, h1, rfl⟩
    · exact ih m l₂ h2
    · by_cases hm : m = []
      · subst hm
        exact ih [] _ (by simp)
      have hm1 := charTokens_suffix u l₁ m h1
      have hfl := (charTokens_flatten u).1
      rw [h1, List.flatten_append] at hfl
      have hrest := (cut_lossless E false rest).complete (C06_cut_never_raises E hn ht false false rest)
      have hmf : m.flatten ≠ [] := by
        cases m with
        | nil => exact absurd rfl hm
        | cons x m =>
          have : x ≠ [] := (charTokens_flatten u).2 x (by rw [h1]; simp)
          intro e
          exact this (List.append_eq_nil_iff.mp e).1
      rw [List.flatten_append, hrest, e m.flatten hmf (fun c hc => hp' c (by rw [← hfl]; exact List.mem_append_right _ hc)), hm1, hok rest]
      simp [Gen.andThen, Gen.ok]

/-- 甲乙|丙 and 甲|乙丙 compete; 丙丁 and 丁戊己 too. -/
def stretchFreq : Freq :=
  [(lit ['甲'], 2), (lit ['甲', '乙'], 8), (lit ['乙'], 0), (lit ['乙', '丙'], 2), (lit ['丙'], 0), (lit ['丙', '丁'], 1), (lit ['丁'], 0),
   (lit ['丁', '戊'], 0), (lit ['丁', '戊', '己'], 8)]

/-- C69 for initial stretches is false: the first two tokens of this text are segmented differently without the rest. -/
theorem C69_beginning_is_not_stable :
    cut ⟨intArith, stretchFreq, 64, sampleTables, []⟩ false false (lit ['甲', '乙', '丙', '丁', '戊', '己']) =
      Gen.ok [lit ['甲'], lit ['乙', '丙'], lit ['丁', '戊', '己']] ∧
    cut ⟨intArith, stretchFreq, 64, sampleTables, []⟩ false false (lit ['甲', '乙', '丙']) = Gen.ok [lit ['甲', '乙'], lit ['丙']] := by
  decide +kernel

/-- 中 and 文 are frequent, 中文 is a rare word. -/
def rareWordFreq : Freq := [(lit ['中'], 32), (lit ['文'], 32), (lit ['中', '文'], 1), (lit ['人'], 1)]

/-- C69 is false with HMM: in 中文人 the HMM finds 中文, which is also a dictionary word, but alone 中文 is cut into its
characters. -/
theorem C69_fails_with_hmm :
    cut ⟨intArith, rareWordFreq, 66, sampleTables, []⟩ false true (lit ['中', '文', '人']) =
      Gen.ok [lit ['中', '文'], lit ['人']] ∧
    cut ⟨intArith, rareWordFreq, 66, sampleTables, []⟩ false true (lit ['中', '文']) = Gen.ok [lit ['中'], lit ['文']] := by
  decide +kernel

/-! ## C70 -/

theorem cut_out_eq_chunks {F : Type _} [LinearOrder F] (E : Env F) (hn : NonNeg E.freq) (ht : 0 < E.total) (hm : Bool) (s : Str) :
    cut E false hm s = Gen.ok ((chunks isWordCh s).flatMap
      (fun b => if b.any isWordCh then (cut E false hm b).out else charTokens b)) := by
  have e : cut E false hm s = Gen.forEach (chunks isWordCh s)
      (fun b => if b.any isWordCh then cut E false hm b else Gen.ok (charTokens b)) := by
    rw [cut_accurate_eq_scan]
    unfold scan
    apply Gen.forEach_congr
    intro b hb
    split
    · next ha =>
      rcases chunks_uniform _ _ b hb with hu | hu
      · rw [cut_of_word_block E hm b (chunks_ne_nil _ _ b hb) hu]
      · obtain ⟨c, hc, hc2⟩ := List.any_eq_true.mp ha
        rw [hu c hc] at hc2; exact absurd hc2 (by simp)
    · rfl
  rw [e, Gen.forEach_eq_ok]
  · congr 1
    apply List.flatMap_congr
    intro b _
    split <;> rfl
  · intro b _
    split
    · exact C06_cut_never_raises E hn ht false hm b
    · rfl

/-- A block without ASCII letters and digits comes out as its best path. -/
theorem cut_block_path {F : Type _} [LinearOrder F] (E : Env F) (hA : MonoAdd E.A) (hp : PrefixClosed E.freq) (hn : NonNeg E.freq)
    (ht : 0 < E.total) (s : Str) (hne : s ≠ []) (hs : ∀ c ∈ s, isWordCh c = true ∧ isAlnum c = false) :
    ∃ path, IsBest E.A E.freq E.total s path ∧ cut E false false s = Gen.ok path := by
  obtain ⟨path, ts, h1, h2, h3⟩ := C05_cut_follows_best_path E hA hp hn ht s hne (fun c hc => (hs c hc).1)
  refine ⟨path, h1, ?_⟩
  rw [h2, regrouped_no_single h3]
  rintro w hw ⟨c, rfl, hc⟩
  have hin := (admissible_infix _ _ _ (isBest_admissible _ _ _ _ _ h1) _ hw).subset (List.mem_singleton_self c)
  rw [(hs c hin).2] at hc; exact Bool.noConfusion hc

theorem chunk_infix (p : Ch → Bool) (s b : Str) (h : b ∈ chunks p s) : b <:+: s := by
  obtain ⟨x, y, hxy⟩ := List.append_of_mem h
  refine ⟨x.flatten, y.flatten, ?_⟩
  rw [← chunks_flatten p s, hxy]; simp

theorem register_agree (freq : Freq) (v : Str) (f : Int) (s : Str) (h : ¬ v <:+: s) :
    (∀ u, u <:+: s → (DictWord (register freq v f) u ↔ DictWord freq u)) ∧
      (∀ u, u <:+: s → scoreFreq (register freq v f) u = scoreFreq freq u) := by
  have hne : ∀ u, u <:+: s → u ≠ v := by rintro u hu rfl; exact h hu
  exact ⟨fun u hu => by rw [register_dictWord, if_neg (hne u hu)], fun u hu => scoreFreq_register _ _ _ _ (hne u hu)⟩

/-- C70: in exact arithmetic, `add_word(v, f)` for a word that does not occur in a text never makes the segmentation of the
text finer (without HMM, for text without ASCII letters and digits); for `f = 0` it does not change it at all. -/
theorem C70_unrelated_word (S : Sys ℝ) (hS : S.A = realArith) (w : World) (t : Nat) (word : PyText) (f : Int) (tag : Option Str)
    (io : Bool) (hi : (w.tok t).initialized = true) (hp : PrefixClosed (w.tok t).freq) (hn : NonNeg (w.tok t).freq)
    (ht : 0 < (w.tok t).total) (hf : 0 ≤ f) (text : PyText) (s : Str) (hs : strdecode S.gbk text = s)
    (hl : ∀ c ∈ s, isAlnum c = false) (hno : ¬ strdecode S.gbk word <:+: s) (io' : Bool) :
    ∃ w' ts ts', addWord S w t word (.int f) tag io = (w', .ok ()) ∧
      (cutW S w t false false text io').2 = Gen.ok ts ∧ (cutW S w' t false false text io').2 = Gen.ok ts' ∧
      ts'.length ≤ ts.length ∧ (f = 0 → ts' = ts) := by
  generalize hv : strdecode S.gbk word = v at *
  have hi' : ((addFreq w t v f tag).tok t).initialized = true := by rw [addFreq_tok_self]; exact hi
  have henv : w.env S t = ⟨realArith, (w.tok t).freq, (w.tok t).total, S.tables, w.force⟩ := by unfold World.env; rw [hS]
  have henv' : (addFreq w t v f tag).env S t =
      ⟨realArith, register (w.tok t).freq v f, (w.tok t).total + f, S.tables, (addFreq w t v f tag).force⟩ := by
    unfold World.env; rw [hS, addFreq_tok_self]
  generalize (w.tok t).freq = freq at *
  generalize (w.tok t).total = total at *
  have hn' : NonNeg (register freq v f) := nonNeg_register _ _ _ hn hf
  have hp' := prefixClosed_register freq v f hp
  have ht' : 0 < total + f := by omega
  have c1 := cut_out_eq_chunks ⟨realArith, freq, total, S.tables, w.force⟩ hn ht false s
  have c2 := cut_out_eq_chunks ⟨realArith, register freq v f, total + f, S.tables, (addFreq w t v f tag).force⟩ hn' ht' false s
  -- block by block
  have key : ∀ b ∈ chunks isWordCh s, b.any isWordCh = true → ∃ p q,
      cut ⟨realArith, freq, total, S.tables, w.force⟩ false false b = Gen.ok p ∧
      cut ⟨realArith, register freq v f, total + f, S.tables, (addFreq w t v f tag).force⟩ false false b = Gen.ok q ∧
      q.length ≤ p.length ∧ (f = 0 → q = p) := by
    intro b hb hany
    have hbs := chunk_infix _ _ _ hb
    have hbw : ∀ c ∈ b, isWordCh c = true ∧ isAlnum c = false := by
      intro c hc
      refine ⟨?_, hl c (hbs.subset hc)⟩
      rcases chunks_uniform _ _ b hb with hu | hu
      · exact hu c hc
      · obtain ⟨d, hd, hd2⟩ := List.any_eq_true.mp hany
        rw [hu d hd] at hd2; exact absurd hd2 (by simp)
    obtain ⟨a1, a2⟩ := register_agree freq v f b (fun h => hno (h.trans hbs))
    obtain ⟨p, p1, p2⟩ := cut_block_path ⟨realArith, freq, total, S.tables, w.force⟩ realArith_mono hp hn ht b
      (chunks_ne_nil _ _ b hb) hbw
    obtain ⟨q, q1, q2⟩ := cut_block_path ⟨realArith, register freq v f, total + f, S.tables, (addFreq w t v f tag).force⟩
      realArith_mono hp' hn' ht' b (chunks_ne_nil _ _ b hb) hbw
    simp only at p1 q1
    refine ⟨p, q, p2, q2, ?_⟩
    by_cases h0 : f = 0
    · subst h0
      rw [add_zero] at q1
      have : q = p := by
        refine isBest_unique _ _ _ _ _ _ q1 (isBest_restrict _ freq _ total p b p1 ?_ ?_)
        · exact (admissible_agree freq _ p b a1).mpr (isBest_admissible _ _ _ _ _ p1)
        · intro s' hs' l hl
          have hl' := (admissible_agree freq (register freq v 0) l s' (fun u hu => a1 u (hu.trans hs'.isInfix))).mp hl
          exact ⟨hl', segScore_agree _ _ _ _ _ (fun x hx => a2 x ((admissible_infix _ _ _ hl x hx).trans hs'.isInfix))⟩
      exact ⟨by rw [this], fun _ => this⟩
    · exact ⟨isBest_total_mono freq _ total (total + f) ht (by omega) b p q a1 a2 p1 q1, fun h => absurd h h0⟩
  have e1 := cutW_of_init S w t false false io' text hi
  have e2 := cutW_of_init S (addFreq w t v f tag) t false false io' text hi'
  rw [hs, henv, c1] at e1
  rw [hs, henv', c2] at e2
  refine ⟨addFreq w t v f tag, _, _, ?_, congrArg Prod.snd e1, congrArg Prod.snd e2, ?_⟩
  · unfold addWord
    rw [checkInit_of_init S w t io hi]
    simp only [addWordFreq, hv]
  · constructor
    · generalize chunks isWordCh s = l at key
      induction l with
      | nil => simp
      | cons b l ih =>
        have ih := ih (fun x hx => key x (List.mem_cons_of_mem _ hx))
        rw [List.flatMap_cons, List.flatMap_cons, List.length_append, List.length_append]
        refine Nat.add_le_add ?_ ih
        split
        · next ha =>
          obtain ⟨p, q, k1, k2, k3, -⟩ := key b (by simp) ha
          rw [k1, k2]; exact k3
        · exact le_refl _
    · intro h0
      apply List.flatMap_congr
      intro b hb
      split
      · next ha =>
        obtain ⟨p, q, k1, k2, -, k4⟩ := key b hb ha
        rw [k1, k2]; exact k4 h0
      · rfl

/-- 中 and 国 are frequent, 中国 is rare, and 人 has nothing to do with them. -/
def totalFreq : Freq := [(lit ['中'], 10), (lit ['国'], 10), (lit ['中', '国'], 1)]

/-- The hypotheses of C70 are met, with a text of two blocks. -/
example : PrefixClosed totalFreq ∧ NonNeg totalFreq ∧ (∀ c ∈ lit ['中', '国', '。', '国'], isAlnum c = false) ∧
    ¬ lit ['人'] <:+: lit ['中', '国', '。', '国'] := by
  refine ⟨?_, nonNeg_of_all _ (by decide), by decide, by decide⟩
  have key : ∀ w ∈ totalFreq.map Prod.fst, ∀ p ∈ w.inits, p ≠ [] → PyDict.has totalFreq p = true := by decide +kernel
  intro w hw p hne hpre
  exact key w ((PyDict.mem_keys_iff _ _).mpr hw) p ((List.mem_inits _ _).mpr hpre) hne

/-- C70, negative part: a word that does not occur in the text can change its segmentation.  `add_word('人', 1000)` makes 中国
come out whole, because the larger total favours fewer words. -/
theorem C70_unrelated_word_changes :
    (cutW realSys (readyWorld totalFreq 21) 0 false false (.str (lit ['中', '国'])) true).2 = Gen.ok [lit ['中'], lit ['国']] ∧
    (addWord realSys (readyWorld totalFreq 21) 0 (.str (lit ['人'])) (.int 1000) none true).2 = .ok () ∧
    (cutW realSys (addWord realSys (readyWorld totalFreq 21) 0 (.str (lit ['人'])) (.int 1000) none true).1 0 false false
      (.str (lit ['中', '国'])) true).2 = Gen.ok [lit ['中', '国']] := by
  have ha : addWord realSys (readyWorld totalFreq 21) 0 (.str (lit ['人'])) (.int 1000) none true =
      (addFreq (readyWorld totalFreq 21) 0 (lit ['人']) 1000 none, .ok ()) := by
    unfold addWord
    rw [checkInit_of_init _ _ _ _ rfl]
    rfl
  refine ⟨?_, by rw [ha], ?_⟩
  · rw [cutW_of_init _ _ _ _ _ _ _ rfl]
    show cut ⟨realArith, totalFreq, 21, realSys.tables, []⟩ false false (lit ['中', '国']) = _
    rw [cut_real]; decide +kernel
  · rw [ha, cutW_of_init _ _ _ _ _ _ _ (by rw [addFreq_tok_self]; rfl)]
    have he : (addFreq (readyWorld totalFreq 21) 0 (lit ['人']) 1000 none).env realSys 0 =
        ⟨realArith, register totalFreq (lit ['人']) 1000, 1021, realSys.tables, []⟩ := by
      unfold World.env; rw [addFreq_tok_self]; rfl
    rw [he, cut_real]
    decide +kernel

/-! ## C71 -/

/-- C71: `del_word(v)` for a word that is not in the segmentation of a text does not change the segmentation, if wherever `v`
occurs in the text another dictionary word starts (without HMM, for a run of word characters without ASCII letters and digits;
any arithmetic with monotone addition). -/
theorem C71_deleting_unused_word {F : Type _} [LinearOrder F] (S : Sys F) (hA : MonoAdd S.A) (w : World) (t : Nat) (v : Str)
    (io : Bool) (hi : (w.tok t).initialized = true) (hp : PrefixClosed (w.tok t).freq) (hn : NonNeg (w.tok t).freq)
    (ht : 0 < (w.tok t).total) (s : Str) (hs : ∀ c ∈ s, isWordCh c = true ∧ isAlnum c = false) (io' : Bool)
    (hv : v ∉ (cutW S w t false false (.str s) io').2.out)
    (hother : ∀ a b, s = a ++ v ++ b → ∃ u, u ≠ v ∧ u ≠ [] ∧ u <+: v ++ b ∧ DictWord (w.tok t).freq u) :
    (cutW S (delWord S w t (.str v) io).1 t false false (.str s) io').2 = (cutW S w t false false (.str s) io').2 := by
  have ha : delWord S w t (.str v) io = (addFreq w t v 0 none, .ok ()) := by
    unfold delWord addWord
    rw [checkInit_of_init S w t io hi]
    rfl
  have hi' : ((addFreq w t v 0 none).tok t).initialized = true := by rw [addFreq_tok_self]; exact hi
  have henv' : (addFreq w t v 0 none).env S t =
      ⟨S.A, register (w.tok t).freq v 0, (w.tok t).total, S.tables, (addFreq w t v 0 none).force⟩ := by
    unfold World.env; rw [addFreq_tok_self]; simp
  rw [ha, cutW_of_init S _ t _ _ _ _ hi', henv']
  rw [cutW_of_init S w t _ _ _ _ hi] at hv ⊢
  simp only [strdecode, World.env] at hv ⊢
  generalize (w.tok t).freq = freq at *
  generalize (w.tok t).total = total at *
  by_cases hne : s = []
  · subst hne; rfl
  obtain ⟨p, p1, p2⟩ := cut_block_path ⟨S.A, freq, total, S.tables, w.force⟩ hA hp hn ht s hne hs
  obtain ⟨q, q1, q2⟩ := cut_block_path ⟨S.A, register freq v 0, total, S.tables, (addFreq w t v 0 none).force⟩ hA
    (prefixClosed_register freq v 0 hp) (nonNeg_register _ _ _ hn (le_refl _)) ht s hne hs
  rw [p2] at hv
  simp only [Gen.ok] at hv p1 q1
  rw [p2, q2]
  congr 1
  have hdw : ∀ u, DictWord (register freq v 0) u ↔ u ≠ v ∧ DictWord freq u := by
    intro u
    rw [register_dictWord]
    by_cases hu : u = v
    · rw [if_pos hu]; simp [hu]
    · rw [if_neg hu]; simp [hu]
  refine isBest_unique _ _ _ _ _ _ q1 (isBest_restrict _ freq _ total p s p1 ?_ ?_)
  · have key : ∀ (l : List Str) (s : Str), v ∉ l → Admissible freq s l → Admissible (register freq v 0) s l := by
      intro l
      induction l with
      | nil => intro s _ h; exact h
      | cons x l ih =>
        intro s hx h
        obtain ⟨⟨h1, h2, h3⟩, h4⟩ := h
        refine ⟨⟨h1, h2, ?_⟩, ih _ (fun h => hx (List.mem_cons_of_mem _ h)) h4⟩
        rcases h3 with h3 | ⟨h3, h5⟩
        · exact Or.inl ((hdw x).mpr ⟨by rintro rfl; exact hx (by simp), h3⟩)
        · exact Or.inr ⟨h3, fun u a b c => h5 u a b ((hdw u).mp c).2⟩
    exact key p s hv (isBest_admissible _ _ _ _ _ p1)
  · have key : ∀ (l : List Str) (s' : Str), s' <:+ s → Admissible (register freq v 0) s' l →
        Admissible freq s' l ∧ v ∉ l := by
      intro l
      induction l with
      | nil => intro s' _ h; exact ⟨h, by simp⟩
      | cons x l ih =>
        intro s' hs' h
        obtain ⟨⟨h1, h2, h3⟩, h4⟩ := h
        obtain ⟨i1, i2⟩ := ih _ ((List.drop_suffix _ _).trans hs') h4
        -- where `v` starts, a word is left
        have hstart : v <+: s' → ∃ u, u ≠ [] ∧ u <+: s' ∧ DictWord (register freq v 0) u := by
          rintro ⟨b, rfl⟩
          obtain ⟨a, ha⟩ := hs'
          obtain ⟨u, u1, u2, u3, u4⟩ := hother a b (by rw [List.append_assoc]; exact ha.symm)
          exact ⟨u, u2, u3, (hdw u).mpr ⟨u1, u4⟩⟩
        refine ⟨⟨⟨h1, h2, ?_⟩, i1⟩, ?_⟩
        · rcases h3 with h3 | ⟨h3, h5⟩
          · exact Or.inl ((hdw x).mp h3).2
          · refine Or.inr ⟨h3, fun u a b c => ?_⟩
            by_cases hu : u = v
            · subst hu
              obtain ⟨u', k1, k2, k3⟩ := hstart b
              exact h5 u' k1 k2 k3
            · exact h5 u a b ((hdw u).mpr ⟨hu, c⟩)
        · intro hx
          rcases List.mem_cons.mp hx with rfl | hx
          · rcases h3 with h3 | ⟨-, h5⟩
            · exact ((hdw v).mp h3).1 rfl
            · obtain ⟨u', k1, k2, k3⟩ := hstart h2
              exact h5 u' k1 k2 k3
          · exact i2 hx
    intro s' hs' l hl
    obtain ⟨k1, k2⟩ := key l s' hs' hl
    exact ⟨k1, segScore_agree _ _ _ _ _ (fun x hx => scoreFreq_register _ _ _ _ (by rintro rfl; exact k2 hx))⟩

/-- 中国人 is split 中国|人; 国人 and 国 are in the dictionary and unused. -/
def spareFreq : Freq :=
  [(lit ['中'], 1), (lit ['中', '国'], 50), (lit ['国'], 3), (lit ['国', '人'], 2), (lit ['人'], 30)]

/-- The hypotheses of C71 are met by a word that occurs in the text: 国人 in 中国人, where 国 also starts. -/
example : PrefixClosed spareFreq ∧ NonNeg spareFreq ∧
    lit ['国', '人'] ∉ (cutW realSys (readyWorld spareFreq 86) 0 false false (.str (lit ['中', '国', '人'])) true).2.out ∧
    (∀ a b, lit ['中', '国', '人'] = a ++ lit ['国', '人'] ++ b →
      ∃ u, u ≠ lit ['国', '人'] ∧ u ≠ [] ∧ u <+: lit ['国', '人'] ++ b ∧ DictWord spareFreq u) := by
  refine ⟨?_, nonNeg_of_all _ (by decide), ?_, ?_⟩
  · have key : ∀ w ∈ spareFreq.map Prod.fst, ∀ p ∈ w.inits, p ≠ [] → PyDict.has spareFreq p = true := by decide +kernel
    intro w hw p hne hpre
    exact key w ((PyDict.mem_keys_iff _ _).mpr hw) p ((List.mem_inits _ _).mpr hpre) hne
  · rw [cutW_of_init _ _ _ _ _ _ _ rfl]
    show _ ∉ (cut ⟨realArith, spareFreq, 86, realSys.tables, []⟩ false false (lit ['中', '国', '人'])).out
    rw [cut_real]; decide +kernel
  · intro a b _
    exact ⟨lit ['国'], by decide, by decide, ⟨lit ['人'] ++ b, rfl⟩, 3, by decide, by decide⟩

/-- 甲乙, 丁戊 are frequent, 丙丁 rare; 丙 is in no other word and not a word itself. -/
def loneFreq : Freq :=
  [(lit ['甲'], 1), (lit ['甲', '乙'], 33), (lit ['丙'], 0), (lit ['丙', '丁'], 1), (lit ['丁'], 0), (lit ['丁', '戊'], 33),
   (lit ['乙'], 0), (lit ['乙', '丙'], 0), (lit ['乙', '丙', '丁'], 0), (lit ['乙', '丙', '丁', '戊'], 1)]

theorem del_ready (freq : Freq) (total : Int) (v : Str) :
    delWord realSys (readyWorld freq total) 0 (.str v) true = (addFreq (readyWorld freq total) 0 v 0 none, .ok ()) := by
  unfold delWord addWord
  rw [checkInit_of_init _ _ _ _ rfl]
  rfl

/-- C71, negative part: without the condition on the places where the word occurs the claim is false.  丙丁 is not in the output
甲|乙丙丁戊, yet after `del_word('丙丁')` the output is 甲乙|丙|丁戊: only now may 丙 stand alone. -/
theorem C71_deleting_unused_word_matters :
    (cutW realSys (readyWorld loneFreq 100) 0 false false (.str (lit ['甲', '乙', '丙', '丁', '戊'])) true).2 =
      Gen.ok [lit ['甲'], lit ['乙', '丙', '丁', '戊']] ∧
    (cutW realSys (delWord realSys (readyWorld loneFreq 100) 0 (.str (lit ['丙', '丁'])) true).1 0 false false
      (.str (lit ['甲', '乙', '丙', '丁', '戊'])) true).2 = Gen.ok [lit ['甲', '乙'], lit ['丙'], lit ['丁', '戊']] := by
  constructor
  · rw [cutW_of_init _ _ _ _ _ _ _ rfl]
    show cut ⟨realArith, loneFreq, 100, realSys.tables, []⟩ false false _ = _
    rw [cut_real]; decide +kernel
  · rw [del_ready, cutW_of_init _ _ _ _ _ _ _ (by rw [addFreq_tok_self]; rfl)]
    have he : (addFreq (readyWorld loneFreq 100) 0 (lit ['丙', '丁']) 0 none).env realSys 0 =
        ⟨realArith, register loneFreq (lit ['丙', '丁']) 0, 100, realSys.tables,
          (addFreq (readyWorld loneFreq 100) 0 (lit ['丙', '丁']) 0 none).force⟩ := by
      unfold World.env; rw [addFreq_tok_self]; rfl
    rw [he, cut_real]
    decide +kernel

/-- 甲, 乙, 丙 are frequent, 甲乙丙 is not. -/
def raiseFreq : Freq :=
  [(lit ['甲'], 500), (lit ['乙'], 200), (lit ['丙'], 200), (lit ['甲', '乙'], 0), (lit ['甲', '乙', '丙'], 19)]

/-- C71, negative part: raising the frequency of a word that is in the output can remove it from the output.
`add_word('甲', 600)` turns 甲|乙|丙 into 甲乙丙, because the old frequency stays in the total. -/
theorem C71_raising_removes :
    (cutW realSys (readyWorld raiseFreq 1000) 0 false false (.str (lit ['甲', '乙', '丙'])) true).2 =
      Gen.ok [lit ['甲'], lit ['乙'], lit ['丙']] ∧
    (addWord realSys (readyWorld raiseFreq 1000) 0 (.str (lit ['甲'])) (.int 600) none true).2 = .ok () ∧
    (cutW realSys (addWord realSys (readyWorld raiseFreq 1000) 0 (.str (lit ['甲'])) (.int 600) none true).1 0 false false
      (.str (lit ['甲', '乙', '丙'])) true).2 = Gen.ok [lit ['甲', '乙', '丙']] := by
  have ha : addWord realSys (readyWorld raiseFreq 1000) 0 (.str (lit ['甲'])) (.int 600) none true =
      (addFreq (readyWorld raiseFreq 1000) 0 (lit ['甲']) 600 none, .ok ()) := by
    unfold addWord
    rw [checkInit_of_init _ _ _ _ rfl]
    rfl
  refine ⟨?_, by rw [ha], ?_⟩
  · rw [cutW_of_init _ _ _ _ _ _ _ rfl]
    show cut ⟨realArith, raiseFreq, 1000, realSys.tables, []⟩ false false _ = _
    rw [cut_real]; decide +kernel
  · rw [ha, cutW_of_init _ _ _ _ _ _ _ (by rw [addFreq_tok_self]; rfl)]
    have he : (addFreq (readyWorld raiseFreq 1000) 0 (lit ['甲']) 600 none).env realSys 0 =
        ⟨realArith, register raiseFreq (lit ['甲']) 600, 1600, realSys.tables, []⟩ := by
      unfold World.env; rw [addFreq_tok_self]; rfl
    rw [he, cut_real]
    decide +kernel

end Jieba.Props
