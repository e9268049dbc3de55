import Verif.Proofs.Main
import Verif.Props.PosWorld
/-!
# C58, C66: the command line
-/

namespace Jieba.Props
open Jieba Jieba.Spec Jieba.Pos Jieba.Main

variable {F : Type _} [LinearOrder F]

/-! ## C58 -/

theorem run_rel (P : PSys F) (p : PWorld) (a : Args) (text : Str) (io : Bool) (R : Str → Str → Prop)
    (hR : ∀ p l, (cutfunc P p a l io).2.err = none → R l (a.delimiter.intercalate (cutfunc P p a l io).2.out)) :
    List.Forall₂ R ((textLines text).take (run P p a text io).2.out.length) (run P p a text io).2.out ∧
      ((run P p a text io).2.err = none → (run P p a text io).2.out.length = (textLines text).length) := by
  unfold run
  generalize setup P p a io = r
  obtain ⟨p', r⟩ := r
  cases r with
  | error e => simp [Gen.raise]
  | ok u =>
    simp only []
    have h := printLoop_rel P a io R hR (readLines text) p'
    rw [readLines_strip] at h
    refine ⟨h.1, fun h' => ?_⟩
    rw [h.2 h', ← readLines_strip, List.length_map]

/-- C58: whatever the options, `python -m jieba` calls `print` once per input line (lines end with `\n`, `\r\n` or `\r`); if it
ends with an exception it has printed less. -/
theorem C58_one_print_per_line (P : PSys F) (p : PWorld) (a : Args) (text : Str) (io : Bool) :
    (run P p a text io).2.out.length ≤ (textLines text).length ∧
    ((run P p a text io).2.err = none → (run P p a text io).2.out.length = (textLines text).length) := by
  have h := run_rel P p a text io (fun _ _ => True) (fun _ _ _ => trivial)
  refine ⟨?_, h.2⟩
  have := h.1.length_eq
  rw [List.length_take] at this
  omega

theorem mem_intercalate {d : Str} {ts : List Str} {c : Ch} (h : c ∈ d.intercalate ts) : c ∈ d ∨ ∃ t ∈ ts, c ∈ t := by
  induction ts with
  | nil => simp at h
  | cons t ts ih =>
    cases ts with
    | nil => rw [List.intercalate_singleton] at h; exact Or.inr ⟨t, by simp, h⟩
    | cons u us =>
      rw [List.intercalate_cons_cons] at h
      rcases List.mem_append.mp h with h | h
      · rcases List.mem_append.mp h with h | h
        · exact Or.inr ⟨t, by simp, h⟩
        · exact Or.inl h
      · rcases ih h with h | ⟨x, hx, hc⟩
        · exact Or.inl h
        · exact Or.inr ⟨x, by simp [hx], hc⟩

theorem textLines_go_no_break (s acc : Str) (h : ∀ c ∈ acc, c ≠ 0x0D ∧ c ≠ 0x0A) :
    ∀ l ∈ textLines.go s acc, ∀ c ∈ l, c ≠ 0x0D ∧ c ≠ 0x0A := by
  fun_induction textLines.go s acc with
  | case1 => simp
  | case2 acc hacc => simpa using h
  | case3 s acc ih =>
    intro l hl
    rcases List.mem_cons.mp hl with rfl | hl
    · exact h
    · exact ih (by simp) l hl
  | case4 c s acc hne hc ih =>
    intro l hl
    rcases List.mem_cons.mp hl with rfl | hl
    · exact h
    · exact ih (by simp) l hl
  | case5 c s acc hne hc ih =>
    refine ih ?_
    intro d hd
    rcases List.mem_append.mp hd with hd | hd
    · exact h d hd
    · simp at hd; subst hd; exact ⟨fun e => hc (Or.inr e), fun e => hc (Or.inl e)⟩

/-- C58 without POS tagging and outside full mode: each printed line is the join, with the delimiter, of a segmentation of the
input line (without its line end). -/
theorem C58_prints_segmentation (P : PSys F) (p : PWorld) (a : Args) (text : Str) (io : Bool) (hp : truthyStr a.pos = false)
    (hc : a.cutAll = false) :
    List.Forall₂ (fun l o => ∃ ts, IsSegmentation ts l ∧ o = a.delimiter.intercalate ts)
      ((textLines text).take (run P p a text io).2.out.length) (run P p a text io).2.out := by
  refine (run_rel P p a text io _ ?_).1
  intro p l he
  unfold cutfunc at he ⊢
  simp only [hp, hc, Bool.false_eq_true, if_false] at he ⊢
  have h := cutW_lossless P.sys p.w 0 a.hmm (.str l) io
  exact ⟨_, ⟨h.complete he, h.nonempty⟩, rfl⟩

/-- C58: with a delimiter that contains no line end, the output read as a text has exactly one line per input line. -/
theorem C58_one_line_per_line (P : PSys F) (p : PWorld) (a : Args) (text : Str) (io : Bool) (hp : truthyStr a.pos = false)
    (hc : a.cutAll = false) (hd : ∀ c ∈ a.delimiter, c ≠ 0x0D ∧ c ≠ 0x0A) :
    textLines (stdout (run P p a text io).2) = (run P p a text io).2.out := by
  apply textLines_stdout
  have h := C58_prints_segmentation P p a text io hp hc
  intro o ho c hco
  obtain ⟨l, hl, ts, hts, rfl⟩ : ∃ l ∈ (textLines text).take (run P p a text io).2.out.length,
      ∃ ts, IsSegmentation ts l ∧ o = a.delimiter.intercalate ts := by
    generalize (textLines text).take (run P p a text io).2.out.length = L at h
    generalize (run P p a text io).2.out = O at h ho
    induction h with
    | nil => simp at ho
    | cons hx _ ih =>
      rcases List.mem_cons.mp ho with rfl | ho
      · exact ⟨_, by simp, hx⟩
      · obtain ⟨l, hl, h'⟩ := ih ho
        exact ⟨l, by simp [hl], h'⟩
  rcases mem_intercalate hco with h' | ⟨t, ht, hct⟩
  · exact hd c h'
  · refine textLines_go_no_break text [] (by simp) l (List.mem_of_mem_take hl) c ?_
    rw [← hts.1]
    exact List.mem_flatten.mpr ⟨t, ht, hct⟩

/-- C58 with the default delimiter ' / ': cutting a printed line at ' / ' gives pieces that join to the input line, for every
line (the line may contain ' / '); if the line is not empty the pieces are not empty. -/
theorem C58_default_delimiter (P : PSys F) (p : PWorld) (a : Args) (text : Str) (io : Bool) (hp : truthyStr a.pos = false)
    (hc : a.cutAll = false) (hd : a.delimiter = lit [' ', '/', ' ']) :
    List.Forall₂ (fun l o => (splitAround (lit [' ', '/', ' ']) o []).flatten = l ∧
        (l ≠ [] → IsSegmentation (splitAround (lit [' ', '/', ' ']) o []) l))
      ((textLines text).take (run P p a text io).2.out.length) (run P p a text io).2.out := by
  refine (run_rel P p a text io _ ?_).1
  intro p l he
  unfold cutfunc at he ⊢
  simp only [hp, hc, hd, Bool.false_eq_true, if_false] at he ⊢
  have h := cutW_lossless P.sys p.w 0 a.hmm (.str l) io
  have hs := cutW_shape P.sys p.w 0 a.hmm (.str l) io
  have hj := h.complete he
  simp only [strdecode] at hj
  by_cases hne : (cutW P.sys p.w 0 false a.hmm (.str l) io).2.out = []
  · rw [hne] at hj ⊢
    simp only [List.flatten_nil] at hj
    subst hj
    simp [splitAround]
  · have hsp : splitAround (lit [' ', '/', ' ']) ((lit [' ', '/', ' ']).intercalate (cutW P.sys p.w 0 false a.hmm (.str l) io).2.out) [] =
        (cutW P.sys p.w 0 false a.hmm (.str l) io).2.out := by
      refine splitAround_intercalate _ (by decide) _ ?_ hne
      intro t ht
      change ¬ slash <:+: t ++ slash.dropLast
      rcases hs t ht with hw | ⟨c, rfl, -⟩ | rfl
      · refine slash_ok t (fun hm => ?_)
        have := hw 0x20 hm
        revert this; decide
      · by_cases hc : c = 0x20
        · subst hc; exact slash_ok_space
        · exact slash_ok _ (by simpa using fun e => hc e.symm)
      · exact slash_ok _ (by decide)
    rw [hsp]
    exact ⟨hj, fun _ => ⟨hj, h.nonempty⟩⟩

/-- C58 with any other delimiter: the same if no character of the delimiter occurs in the text. -/
theorem C58_disjoint_delimiter (P : PSys F) (p : PWorld) (a : Args) (text : Str) (io : Bool) (hp : truthyStr a.pos = false)
    (hc : a.cutAll = false) (hd : a.delimiter ≠ []) :
    List.Forall₂ (fun l o => (∀ c ∈ a.delimiter, c ∉ l) → (splitAround a.delimiter o []).flatten = l)
      ((textLines text).take (run P p a text io).2.out.length) (run P p a text io).2.out := by
  refine (C58_prints_segmentation P p a text io hp hc).imp ?_
  rintro l o ⟨ts, hts, rfl⟩ hdis
  by_cases hne : ts = []
  · subst hne
    have := hts.1
    simp only [List.flatten_nil] at this
    subst this
    simp [splitAround]
  · rw [splitAround_intercalate _ hd ts ?_ hne]
    · exact hts.1
    · intro t ht
      refine disjoint_ok _ t hd (fun c hcd hct => hdis c hcd ?_)
      rw [← hts.1]
      exact List.mem_flatten.mpr ⟨t, ht, hct⟩

/-- The sample process as the command line finds it. -/
def sampleStart : PWorld := ⟨{ sampleWorld with defaultDict := taggedData }, fun _ => ⟨7, []⟩⟩

/-- Three lines with different line ends; the first contains ' / ' itself. -/
example : run samplePSys sampleStart ⟨lit [' ', '/', ' '], none, none, none, false, true⟩
      (lit ['大', '学', ' ', '/', ' ', '北', '京', '\r', '\n', '\r', 'a', '大', '学']) true =
    ((run samplePSys sampleStart ⟨lit [' ', '/', ' '], none, none, none, false, true⟩
      (lit ['大', '学', ' ', '/', ' ', '北', '京', '\r', '\n', '\r', 'a', '大', '学']) true).1,
     Gen.ok [lit ['大', '学', ' ', '/', ' ', ' ', ' ', '/', ' ', '/', ' ', '/', ' ', ' ', ' ', '/', ' ', '北', '京'], [],
       lit ['a', ' ', '/', ' ', '大', '学']]) := by
  refine Prod.ext rfl ?_
  decide +kernel

/-- C58 as stated for arbitrary delimiters is false: the delimiter 北京北 does not occur in the line 北京大学, but deleting it
from the printed line does not give the line back. -/
theorem C58_fails_for_overlapping_delimiter :
    ∃ (a : Args) (l : Str), truthyStr a.pos = false ∧ a.cutAll = false ∧ ¬ a.delimiter <:+: l ∧
      ∃ o, (run samplePSys sampleStart a l true).2 = Gen.ok [o] ∧ (splitAround a.delimiter o []).flatten ≠ l :=
  ⟨⟨lit ['北', '京', '北'], none, none, none, false, false⟩, lit ['北', '京', '大', '学'], rfl, rfl, by decide +kernel,
    lit ['北', '京', '北', '京', '北', '大', '学'], by decide +kernel, by decide +kernel⟩

/-! ## C66 -/

/-- C66: with `-p` each printed word carries a tag: a printed line is the join of word + separator + flag over a segmentation of
the line into words with flags. -/
theorem C66_prints_tagged (P : PSys F) (hT : PosData.Shipped P.tables) (hσ : ∀ s t l, (P.σ s t l).Perm l) (p : PWorld) (a : Args)
    (text : Str) (io : Bool) (sep : Str) (hp : a.pos = some sep) (hs : sep ≠ []) :
    List.Forall₂ (fun l o => ∃ ps : List (Str × Str), IsSegmentation (ps.map Prod.fst) l ∧
        o = a.delimiter.intercalate (ps.map (fun q => q.1 ++ sep ++ q.2)))
      ((textLines text).take (run P p a text io).2.out.length) (run P p a text io).2.out := by
  refine (run_rel P p a text io _ ?_).1
  intro p l he
  have ht : truthyStr a.pos = true := by
    rw [hp]; cases sep with
    | nil => exact absurd rfl hs
    | cons c s => rfl
  unfold cutfunc at he ⊢
  simp only [ht, if_true] at he ⊢
  have h := cutPW_lossless P hT hσ p 0 a.hmm (.str l) io
  refine ⟨(cutPW P p 0 a.hmm (.str l) io).2.out, ⟨h.complete he, h.nonempty⟩, ?_⟩
  rw [hp]
  rw [List.map_eq_flatMap]; rfl

/-- C66, negative part: `-D` together with `-p` segments with the given dictionary, but the flags are those of the default
dictionary: 大厦 is tagged 'x' although file `/d` contains `大厦 3 zz`, and 北京 is cut into characters since `/d` does not contain it. -/
theorem C66_dict_option_keeps_default_tags :
    let p : PWorld := { sampleStart with w := sampleStart.w.setFile (lit ['/', 'd']) (some ⟨[229, 164, 167, 229, 142, 166, 32, 51, 32, 122, 122, 10], 1⟩) }
    (run samplePSys p ⟨lit [' '], some (lit ['_']), some (lit ['/', 'd']), none, false, false⟩ (lit ['大', '厦', '北', '京']) true).2 =
      Gen.ok [lit ['大', '厦', '_', 'x', ' ', '北', '_', 'x', ' ', '京', '_', 'x']] := by
  decide +kernel

end Jieba.Props
