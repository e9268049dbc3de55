import Verif.Proofs.DictOrder
import Verif.Props.UserFiles
import Verif.Props.SampleKeywords
/-!
# C84: the order of the lines of dictionaries
-/

set_option linter.unusedSectionVars false

namespace Jieba.Props
open Jieba Jieba.Spec

variable {F : Type _} [LinearOrder F]

theorem lastFreq_nodup (es : List (Str × Int)) (hd : (es.map Prod.fst).Nodup) (v : Str) (f : Int) :
    lastFreq es v = some f ↔ (v, f) ∈ es := by
  unfold lastFreq
  have hd' : (es.reverse.map Prod.fst).Nodup := by rw [List.map_reverse]; exact List.nodup_reverse.mpr hd
  rw [← List.mem_reverse]
  generalize es.reverse = l at hd'
  induction l with
  | nil => simp
  | cons e l ih =>
    obtain ⟨w, n⟩ := e
    simp only [List.map_cons, List.nodup_cons] at hd'
    rw [List.find?_cons]
    by_cases h : w = v
    · subst h
      simp only [beq_self_eq_true, Option.map_some, Option.some.injEq, List.mem_cons, Prod.mk.injEq, true_and]
      constructor
      · rintro rfl; exact Or.inl rfl
      · rintro (rfl | hm)
        · rfl
        · exact absurd (List.mem_map.mpr ⟨_, hm, rfl⟩) hd'.1
    · have hb : (w == v) = false := by simpa using h
      rw [show ((w, n).1 == v) = (w == v) from rfl, hb]
      simp only [List.mem_cons, Prod.mk.injEq]
      refine (ih hd'.2).trans ?_
      constructor
      · exact Or.inr
      · rintro (⟨rfl, -⟩ | hm)
        · exact absurd rfl h
        · exact hm

/-- C84: two dictionary files with the same entries in different orders, every word on one line only, give dictionaries with the
same total that answer every look-up alike, so that every mode segments every text alike. -/
theorem C84_dictionary_file (data data' : Bytes) (ls ls' : List Bytes) (es es' : List (Str × Int))
    (hl : FileLines data ls) (hl' : FileLines data' ls')
    (he : List.Forall₂ (fun l e => DictEntry l e.1 e.2) ls es) (he' : List.Forall₂ (fun l e => DictEntry l e.1 e.2) ls' es')
    (hp : es.Perm es') (hd : (es.map Prod.fst).Nodup) :
    ∃ d d' total, genPfdict data = .ok (d, total) ∧ genPfdict data' = .ok (d', total) ∧ (∀ v, d.get? v = d'.get? v) ∧
      ∀ (A : Arith F) tables force s,
        (∀ cutAll hmm, cut ⟨A, d, total, tables, force⟩ cutAll hmm s = cut ⟨A, d', total, tables, force⟩ cutAll hmm s) ∧
        (∀ hmm, cutForSearch ⟨A, d, total, tables, force⟩ hmm s = cutForSearch ⟨A, d', total, tables, force⟩ hmm s) ∧
        ∀ search hmm, tokenize ⟨A, d, total, tables, force⟩ search hmm s = tokenize ⟨A, d', total, tables, force⟩ search hmm s := by
  have key : ∀ (data : Bytes) (ls : List Bytes) (es : List (Str × Int)), FileLines data ls →
      List.Forall₂ (fun l e => DictEntry l e.1 e.2) ls es →
      ∃ d, genPfdict data = .ok (d, (es.map Prod.snd).sum) ∧ ∀ v, d.get? v = match lastFreq es v with
          | some f => some f
          | none => if StartsEntry es v then some 0 else none := by
    intro data ls es hl he
    have h0 : (fileLines data).map dictLine = es.map some := by
      rw [(fileLines_iff _ _).mp hl]
      exact (map_some_iff _ _ _).mpr (he.imp (fun l e h => (dictEntry_iff l e.1 e.2).mp h))
    rcases gen_load data with ⟨es1, h1, h2⟩ | ⟨⟨l, h1, h2⟩, -⟩
    · rw [h0] at h1
      have : es = es1 := List.map_injective_iff.mpr (Option.some_injective _) h1
      rw [this]; exact h2
    · exfalso
      have : none ∈ (fileLines data).map dictLine := List.mem_map.mpr ⟨l, h1, h2⟩
      rw [h0] at this
      simp at this
  obtain ⟨d, hg, hv⟩ := key data ls es hl he
  obtain ⟨d', hg', hv'⟩ := key data' ls' es' hl' he'
  have hsum : (es'.map Prod.snd).sum = (es.map Prod.snd).sum := ((hp.map Prod.snd).sum_eq).symm
  rw [hsum] at hg'
  have hd' : (es'.map Prod.fst).Nodup := (hp.map _).nodup_iff.mp hd
  have hsame : ∀ v, d.get? v = d'.get? v := by
    intro v
    have h1 : lastFreq es v = lastFreq es' v := by
      ext f
      rw [lastFreq_nodup es hd, lastFreq_nodup es' hd', hp.mem_iff]
    have h2 : StartsEntry es v ↔ StartsEntry es' v := by
      unfold StartsEntry
      simp only [hp.mem_iff]
    rw [hv, hv', h1]
    cases lastFreq es' v with
    | some f => rfl
    | none => simp only [h2]
  refine ⟨d, d', _, hg, hg', hsame, fun A tables force s => ?_⟩
  have hE : SameEnv (⟨A, d, (es.map Prod.snd).sum, tables, force⟩ : Env F) ⟨A, d', (es.map Prod.snd).sum, tables, force⟩ :=
    ⟨rfl, rfl, rfl, hsame, fun _ => Iff.rfl⟩
  exact ⟨fun ca hm => hE.cut ca hm s, fun hm => hE.cutForSearch hm s, fun se hm => hE.tokenize se hm s⟩

/-- A line of a user dictionary with what it adds: nothing if it is blank, or a word with a frequency and perhaps a tag. -/
inductive LineAdds : PyText → Option (Str × Int × Option Str) → Prop
  | blank (ln) : UserLine ln [] → LineAdds ln none
  | entry (ln line word f n tag) : UserLine ln line → line ≠ [] → UserEntry line word (some f) tag → IntText f n →
      LineAdds ln (some (word, n, tag))

theorem userdictLoop_adds (S : Sys F) (t : Nat) (lns : List PyText) (es : List (Option (Str × Int × Option Str)))
    (h : List.Forall₂ LineAdds lns es) (w : World) (hi : (w.tok t).initialized = true) :
    userdictLoop S t w lns = (addMany t w (es.filterMap id), .ok ()) := by
  induction h generalizing w with
  | nil => rfl
  | @cons ln e lns es h _ ih =>
    cases h with
    | blank h =>
      have : userdictLine S w t ln = (w, .ok ()) := by
        unfold userdictLine
        rw [(userLine_iff ln []).mpr h]
        simp
      unfold userdictLoop
      rw [this]
      exact ih w hi
    | entry line word f n tag h1 h2 h3 h4 =>
      have : userdictLine S w t ln = (addOne t w (word, n, tag), .ok ()) := by
        unfold userdictLine
        rw [(userLine_iff ln line).mpr h1]
        simp only [if_neg h2, userFields_of_entry _ _ _ _ h3]
        unfold addWord
        rw [checkInit_of_init S w t true hi]
        simp only [strdecode, fieldArg, addWordFreq, (intText_iff f n).mp h4]
        rfl
      unfold userdictLoop
      rw [this]
      exact ih _ (by rw [addOne_init]; exact hi)

/-- C84: loading two user dictionaries with the same lines in different orders (up to blank lines and spelling), every line with a
frequency and every word on one line only, succeeds and leaves the tokenizer in states that answer every look-up of a word or a tag
alike; so every mode segments every text alike. -/
theorem C84_user_dictionary (S : Sys F) (w : World) (t : Nat) (src src' : UserDict) (io : Bool) (lns lns' : List PyText)
    (es es' : List (Option (Str × Int × Option Str))) (hi : (w.tok t).initialized = true)
    (hl : LinesOf w src lns) (hl' : LinesOf w src' lns') (he : List.Forall₂ LineAdds lns es) (he' : List.Forall₂ LineAdds lns' es')
    (hp : (es.filterMap id).Perm (es'.filterMap id)) (hd : ((es.filterMap id).map (·.1)).Nodup) :
    ∃ w1 w2, loadUserdict S w t src io = (w1, .ok ()) ∧ loadUserdict S w t src' io = (w2, .ok ()) ∧
      (∀ v, (w1.tok t).freq.get? v = (w2.tok t).freq.get? v) ∧ (w1.tok t).total = (w2.tok t).total ∧
      (∀ v, (w1.tok t).tags.get? v = (w2.tok t).tags.get? v) ∧
      ∀ cutAll hmm s io, (cutW S w1 t cutAll hmm s io).2 = (cutW S w2 t cutAll hmm s io).2 := by
  have hload : ∀ src lns, LinesOf w src lns → loadUserdict S w t src io = userdictLoop S t w lns := by
    intro src lns hl
    unfold loadUserdict
    rw [checkInit_of_init S w t io hi]
    cases hl with
    | path p f ls h1 h2 => simp only [h1, (fileLines_iff _ _).mp h2]
    | file data ls h => simp only [(fileLines_iff _ _).mp h]
    | lines l => rfl
  have h := addMany_perm t w hp hd
  refine ⟨_, _, by rw [hload src lns hl, userdictLoop_adds S t lns es he w hi],
    by rw [hload src' lns' hl', userdictLoop_adds S t lns' es' he' w hi], h.freq, h.total, h.tags, fun ca hm s io => ?_⟩
  rw [cutW_of_init _ _ _ _ _ _ _ (by rw [addMany_init]; exact hi), cutW_of_init _ _ _ _ _ _ _ (by rw [addMany_init]; exact hi)]
  exact (h.env S).cut ca hm _

/-- C84, negative part: without frequencies the order matters.  北京大学 and 大学北京, added to 北京 (40) and 大学 (32) without a
frequency, get 18 and 15 in one order, 15 and 18 in the other, in exact arithmetic. -/
theorem C84_order_matters_without_frequency :
    ∃ (S : Sys ℚ) (w : World) (a b : Str), Exact S.A ∧ (w.tok 0).initialized = true ∧ a ≠ b ∧
      (∃ w1 w2, loadUserdict S w 0 (.lines [.str a, .str b]) true = (w1, .ok ()) ∧
        loadUserdict S w 0 (.lines [.str b, .str a]) true = (w2, .ok ()) ∧
        (w1.tok 0).freq.get? a = some 18 ∧ (w2.tok 0).freq.get? a = some 15) := by
  refine ⟨ratSys, (initTok ratSys ratPWorld.w 0 none true).1, lit ['北', '京', '大', '学'], lit ['大', '学', '北', '京'],
    ratArith_exact, by decide +kernel, by decide, _, _, Prod.ext rfl ?_, Prod.ext rfl ?_, ?_, ?_⟩ <;> decide +kernel

/-- The order matters too when a word is on two lines: the last one counts. -/
theorem C84_order_matters_for_duplicates :
    ∃ (data data' : Bytes) (l1 l2 : Bytes) (d d' : Freq) (total : Int), FileLines data [l1, l2] ∧ FileLines data' [l2, l1] ∧
      genPfdict data = .ok (d, total) ∧ genPfdict data' = .ok (d', total) ∧ d.get? [97] ≠ d'.get? [97] := by
  refine ⟨[97, 32, 49, 10, 97, 32, 50, 10], [97, 32, 50, 10, 97, 32, 49, 10], [97, 32, 49, 10], [97, 32, 50, 10],
    [([97], 2)], [([97], 1)], 3, ?_, ?_, ?_, ?_, by decide⟩
  · exact (fileLines_iff _ _).mpr (by decide +kernel)
  · exact (fileLines_iff _ _).mpr (by decide +kernel)
  · decide +kernel
  · decide +kernel

/-- Two files with the entries `ab 3`, `b 4` in the two orders. -/
example : FileLines [97, 98, 32, 51, 10, 98, 32, 52, 10] [[97, 98, 32, 51, 10], [98, 32, 52, 10]] ∧
    FileLines [98, 32, 52, 10, 97, 98, 32, 51, 10] [[98, 32, 52, 10], [97, 98, 32, 51, 10]] ∧
    DictEntry [97, 98, 32, 51, 10] [97, 98] 3 ∧ DictEntry [98, 32, 52, 10] [98] 4 :=
  ⟨(fileLines_iff _ _).mpr (by decide +kernel), (fileLines_iff _ _).mpr (by decide +kernel),
    (dictEntry_iff _ _ _).mpr (by decide +kernel), (dictEntry_iff _ _ _).mpr (by decide +kernel)⟩

/-- A line with a word, a frequency and a tag, and a blank one. -/
example : LineAdds (.str (lit ['云', ' ', '5', ' ', 'n', '\n'])) (some (lit ['云'], 5, some (lit ['n']))) ∧ LineAdds (.str (lit [' '])) none := by
  refine ⟨.entry _ (lit ['云', ' ', '5', ' ', 'n']) _ (lit ['5']) _ _ ((userLine_iff _ _).mp (by decide +kernel)) (by decide) ?_
    ((intText_iff _ _).mpr (by decide +kernel)), .blank _ ((userLine_iff _ _).mp (by decide +kernel))⟩
  refine (userFields_some_iff (.str (lit ['云', ' ', '5', ' ', 'n', '\n'])) _ ((userLine_iff _ _).mp (by decide +kernel)) (by decide) _ _ _).mp ?_
  decide +kernel

end Jieba.Props
