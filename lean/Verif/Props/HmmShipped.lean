import Verif.Props.Doubles
import Verif.Data.HmmMasks
import Verif.Proofs.CutAll
/-!
# C95, C96 — the HMM with the tables that are shipped
-/

namespace Jieba.Props
open Jieba Jieba.Spec Jieba.FinalSeg Jieba.HmmData

/-! ## C95 -/

/-- The character has an emission probability for some state. -/
def KnownCh (T : FinalSeg.Tables ℚ) (c : Ch) : Prop := ∃ y, (T.emit y c).isSome = true
/-- … for a word of its own. -/
def SingleCh (T : FinalSeg.Tables ℚ) (c : Ch) : Prop := (T.emit .S c).isSome = true
/-- … within longer words. -/
def InnerCh (T : FinalSeg.Tables ℚ) (c : Ch) : Prop := ∃ y, y ≠ .S ∧ (T.emit y c).isSome = true

theorem shipped_single (c : Ch) : SingleCh tables c ↔ bitsS.testBit c = true := by
  unfold SingleCh; rw [emit_bits]; rfl

theorem shipped_inner (c : Ch) : InnerCh tables c ↔ bitsBME.testBit c = true := by
  unfold InnerCh bitsBME
  rw [Nat.testBit_or, Nat.testBit_or, Bool.or_eq_true, Bool.or_eq_true]
  constructor
  · rintro ⟨y, hy, h⟩
    rw [emit_bits] at h
    cases y
    · exact Or.inl (Or.inl h)
    · exact Or.inl (Or.inr h)
    · exact Or.inr h
    · exact absurd rfl hy
  · rintro ((h | h) | h)
    · exact ⟨.B, by simp, by rw [emit_bits]; exact h⟩
    · exact ⟨.M, by simp, by rw [emit_bits]; exact h⟩
    · exact ⟨.E, by simp, by rw [emit_bits]; exact h⟩

theorem known_iff (T : FinalSeg.Tables ℚ) (c : Ch) : KnownCh T c ↔ SingleCh T c ∨ InnerCh T c := by
  constructor
  · rintro ⟨y, h⟩
    by_cases hy : y = .S
    · subst hy; exact Or.inl h
    · exact Or.inr ⟨y, hy, h⟩
  · rintro (h | ⟨y, -, h⟩)
    · exact ⟨_, h⟩
    · exact ⟨_, h⟩

theorem isHan_small (c : Ch) (h : isHan c = true) : c < 2 ^ 16 := by
  simp only [isHan, Bool.and_eq_true, decide_eq_true_eq] at h
  unfold Ch at *
  omega

/-- C95: which characters the shipped tables know.  Of the 20950 Han characters that `finalseg` passes on to the HMM, 14518 can be words of
their own, 6095 of them nothing else; 113 can be part of a word but not a word; and 6319 do not occur at all. -/
theorem C95_counts :
    Exactly 14518 (fun c => isHan c = true ∧ SingleCh tables c) ∧
    Exactly 6095 (fun c => isHan c = true ∧ SingleCh tables c ∧ ¬ InnerCh tables c) ∧
    Exactly 113 (fun c => isHan c = true ∧ InnerCh tables c ∧ ¬ SingleCh tables c) ∧
    Exactly 6319 (fun c => isHan c = true ∧ ¬ KnownCh tables c) := by
  refine ⟨exactly_of_pop _ _ _ count_single ?_, exactly_of_pop _ _ _ count_onlySingle ?_, exactly_of_pop _ _ _ count_noSingle ?_,
    exactly_of_pop _ _ _ count_unknown ?_⟩ <;>
  · intro c
    simp only [known_iff, shipped_single, shipped_inner, Nat.testBit_and, Nat.testBit_or, Nat.testBit_xor, hanBits_testBit]
    have := isHan_small c
    cases h1 : isHan c <;> cases h2 : bitsS.testBit c <;> cases h3 : bitsBME.testBit c <;> simp_all

/-- C95: the tables have nothing about characters outside U+4E00 to U+9FA5, apart from the ratio sign (which the HMM never sees); in particular
not about the last 48 characters of the range that is passed on to the HMM. -/
theorem C95_range (c : Ch) (h : KnownCh tables c) : (0x4E00 ≤ c ∧ c ≤ 0x9FA5) ∨ (c = 0x2236 ∧ isHan c = false) := by
  rw [known_iff, shipped_single, shipped_inner] at h
  have low : ∀ n : Nat, n >>> 0x4E00 <<< 0x4E00 = n → n.testBit c = true → 0x4E00 ≤ c := by
    intro n hn hb
    rw [← hn, Nat.testBit_shiftLeft, Bool.and_eq_true, decide_eq_true_eq] at hb
    exact hb.1
  have high : ∀ n : Nat, n < 1 <<< 0x9FA6 → n.testBit c = true → c ≤ 0x9FA5 := by
    intro n hn hb
    have := bit_below n c _ hn hb
    unfold Ch at *
    omega
  obtain ⟨l1, l2, l3, l4⟩ := bits_low
  obtain ⟨u1, u2, u3, u4⟩ := bits_high
  rcases h with h | h
  · by_cases hc : c = 0x2236
    · subst hc; exact Or.inr ⟨rfl, by decide⟩
    · refine Or.inl ⟨low _ l4 ?_, high _ u4 h⟩
      rw [Nat.testBit_xor, h, testBit_one_shift]
      simpa using hc
  · left
    unfold bitsBME at h
    rw [Nat.testBit_or, Nat.testBit_or, Bool.or_eq_true, Bool.or_eq_true] at h
    rcases h with (h | h) | h
    · exact ⟨low _ l1 h, high _ u1 h⟩
    · exact ⟨low _ l2 h, high _ u2 h⟩
    · exact ⟨low _ l3 h, high _ u3 h⟩

/-- C95: C91 holds of the shipped tables. -/
theorem C95_unknown_character (log : Nat → ℚ) (force : List Str) (a : Str) (c : Ch) (b : Str) (hhan : ∀ x ∈ a ++ c :: b, isHan x = true)
    (ha : ∀ x ∈ a, SingleCh tables x) (hc : ¬ KnownCh tables c) (hb : ∀ x ∈ b, SingleCh tables x ∨ ¬ KnownCh tables x) (hlen : a.length ≤ 2 ^ 50) :
    ∃ ws, FinalSeg.cut (dblArith log) tables force (a ++ c :: b) = Gen.ok (ws ++ (a.drop (a.length - 1) ++ c :: b).map (fun x => [x])) ∧
      ws.flatten = a.take (a.length - 1) := by
  have unk : ∀ x, ¬ KnownCh tables x → ∀ y, tables.emit y x = none := by
    intro x hx y
    cases h : tables.emit y x with
    | none => rfl
    | some v => exact absurd ⟨y, by rw [h]; rfl⟩ hx
  exact C91_unknown_character log tables moderate force a c b hhan ha (unk c hc) (fun x hx => (hb x hx).imp_right (unk x)) hlen

/-- 杭 and 研 are put together as in the README; 両 between them is unknown and keeps them apart. -/
example : isHan ('両'.toNat) = true ∧ (∀ y, tables.emit y ('両'.toNat) = none) ∧
    FinalSeg.cut (dblArith fun _ => 0) tables [] (lit ['杭', '研']) = Gen.ok [lit ['杭', '研']] ∧
    FinalSeg.cut (dblArith fun _ => 0) tables [] (lit ['杭', '研', '両']) = Gen.ok [lit ['杭'], lit ['研'], lit ['両']] :=
  ⟨by decide, by intro y; cases y <;> decide +kernel, by decide +kernel, by decide +kernel⟩

/-! ## C96 -/

theorem flatMap_force {P : Str → Prop} (force : List Str) (l : List Str) (h : ∀ w ∈ l, P w) (h1 : ∀ w ∈ l, ∀ c ∈ w, P [c]) :
    ∀ w ∈ l.flatMap (fun w => if w ∈ force then w.map (fun c => [c]) else [w]), P w := by
  intro w hw
  obtain ⟨x, hx, hm⟩ := List.mem_flatMap.mp hw
  split at hm
  · obtain ⟨c, hc, rfl⟩ := List.mem_map.mp hm
    exact h1 x hx c hc
  · simp at hm; subst hm; exact h w hx

theorem possibleTags_single (T : FinalSeg.Tables ℚ) (s : Str) (h : ∀ c ∈ s, SingleCh T c) : PossibleTags T s (List.replicate s.length .S) := by
  refine ⟨by simp, ⟨?_, ?_⟩, ?_, ?_⟩
  · exact List.isChain_replicate_of_rel _ rfl
  · intro t ht
    exact Or.inr (List.eq_of_mem_replicate (List.mem_of_getLast? ht))
  · intro t ht
    exact Or.inr (List.eq_of_mem_replicate (List.mem_of_head? ht))
  · intro q hq
    have h1 := List.of_mem_zip hq
    rw [List.eq_of_mem_replicate h1.2]
    exact h _ h1.1

theorem best_words (log : Nat → ℚ) (T : FinalSeg.Tables ℚ) (hT : Moderate T) (hC : Complete T) (u : Str) (hne : u ≠ []) (hlen : u.length ≤ 2 ^ 50)
    (tags other : List St) (hb : BestTags (dblArith log) T u tags) (ho : PossibleTags T u other) :
    ∀ w ∈ wordsByTags (u.zip tags) [], PossibleWord T w := by
  have hp := best_possible log hT hC u hne hlen tags other hb ho
  have hz : (u.zip tags).map Prod.snd = tags := List.map_snd_zip (by rw [hp.length])
  refine possible_words T (u.zip tags) [] (Or.inl rfl) (by rw [hz]; exact hp.valid.chain) (by rw [hz]; exact hp.valid.closed) (fun _ => rfl) ?_ hp.known
  rw [hz]
  intro t ht
  simpa using hp.first t ht

/-- C96: a run of Han characters for which the tables allow some tagging is cut into words that the tables allow. -/
theorem C96_run (log : Nat → ℚ) (T : FinalSeg.Tables ℚ) (hT : Moderate T) (hC : Complete T) (s : Str) (hne : s ≠ [])
    (hhan : ∀ c ∈ s, isHan c = true) (hlen : s.length ≤ 2 ^ 50) (tags : List St) (h : PossibleTags T s tags) :
    ∃ ts, FinalSeg.cut (dblArith log) T [] s = Gen.ok ts ∧ ts.flatten = s ∧ ∀ w ∈ ts, PossibleWord T w := by
  obtain ⟨best, hb, hcut⟩ := hmmCut_words (dblArith log) (dbl_mono log) T s hne
  refine ⟨wordsByTags (s.zip best) [], ?_, ?_, best_words log T hT hC s hne hlen best tags hb h⟩
  · rw [FinalSeg.cut_eq_scan]
    have h := scan_word isHan
      (fun blk => (hmmCut (dblArith log) T blk).mapOut (fun word => if word ∉ [] then [word] else word.map (fun c => [c])))
      (fun blk => Gen.ok ((reSkipFinal.split blk).filter (fun x => x ≠ []))) s [] hne hhan (by simp)
    rw [List.append_nil] at h
    rw [h, hcut]
    show Gen.andThen (Gen.ok _) (Gen.ok []) = _
    rw [Gen.ok_andThen_ok, List.append_nil, Gen.ok_out]
    simp
  · rw [wordsByTags_flatten, List.nil_append, List.map_fst_zip (by rw [hb.length])]

theorem finalTokens_possible (log : Nat → ℚ) (T : FinalSeg.Tables ℚ) (hT : Moderate T) (hC : Complete T) (force : List Str) (s : Str) (ts : List Str)
    (hs : ∀ c ∈ s, isHan c = true → SingleCh T c) (hlen : s.length ≤ 2 ^ 50) (h : FinalTokens (dblArith log) T force s ts) :
    ∀ w ∈ ts, PossibleWord T w ∨ ∀ c ∈ w, isHan c = false := by
  induction h with
  | nil => simp
  | han u rest tags ts hne hu _ hb _ ih =>
    simp only [List.length_append] at hlen
    have hS : ∀ c ∈ u, SingleCh T c := fun c hc => hs c (by simp [hc]) (hu c hc)
    have h1 := best_words log T hT hC u hne (by omega) tags _ hb (possibleTags_single T u hS)
    intro w hw
    rcases List.mem_append.mp hw with hw | hw
    · left
      refine flatMap_force force _ h1 ?_ w hw
      intro x hx c hc
      refine PossibleWord.single c (hS c ?_)
      have hfl := wordsByTags_flatten (u.zip tags) []
      rw [List.nil_append, List.map_fst_zip (by rw [hb.length])] at hfl
      rw [← hfl]
      exact List.mem_flatten.mpr ⟨x, hx, hc⟩
    · exact ih (fun c hc => hs c (by simp [hc])) (by omega) w hw
  | other u rest ws ts hne hu _ hn _ ih =>
    simp only [List.length_append] at hlen
    intro w hw
    rcases List.mem_append.mp hw with hw | hw
    · right
      have sub : ∀ (u : Str) (ws : List Str), NumberTokens u ws → ws.flatten = u := by
        intro u ws h
        induction h with
        | nil => rfl
        | other u rest ts _ _ _ _ ih => simp [ih]
        | number w f p rest ts _ _ _ _ _ _ ih => simp [ih]
      intro c hc
      apply hu
      rw [← sub u ws hn]
      exact List.mem_flatten.mpr ⟨w, hw, hc⟩
    · exact ih (fun c hc => hs c (by simp [hc])) (by omega) w hw

theorem admissible_word (A : Arith ℚ) (freq : Freq) (total : Int) (s : Str) (path : List Str) (h : IsBest A freq total s path) :
    ∀ w ∈ path, DictWord freq w ∨ w.length = 1 := by
  induction path generalizing s with
  | nil => simp
  | cons w path ih =>
    intro x hx
    rcases List.mem_cons.mp hx with rfl | hx
    · obtain ⟨-, -, h3⟩ := h.1
      exact h3.imp_right (·.1)
    · exact ih _ h.2.1 x hx

/-- C96: every token of `cut` with HMM is a single character, a dictionary word, a token without Han characters or a word that the tables of the
HMM allow; if the tables know all Han characters of the text as words. -/
theorem C96_cut (log : Nat → ℚ) (freq : Freq) (total : Int) (T : FinalSeg.Tables ℚ) (hT : Moderate T) (hC : Complete T) (force : List Str)
    (hp : PrefixClosed freq) (hn : NonNeg freq) (ht : 0 < total) (s : Str) (hs : ∀ c ∈ s, isHan c = true → SingleCh T c) (hlen : s.length ≤ 2 ^ 50) :
    ∃ ts, cut ⟨dblArith log, freq, total, T, force⟩ false true s = Gen.ok ts ∧
      ∀ w ∈ ts, w.length = 1 ∨ DictWord freq w ∨ (∀ c ∈ w, isHan c = false) ∨ PossibleWord T w := by
  rw [cut_accurate_eq_scan]
  revert hs hlen
  refine scan_ind (P := fun s => (∀ c ∈ s, isHan c = true → SingleCh T c) → s.length ≤ 2 ^ 50 → ∃ ts,
    scan isWordCh (cutBlock ⟨dblArith log, freq, total, T, force⟩ false true) (fun b => Gen.ok (charTokens b)) s = Gen.ok ts ∧
      ∀ w ∈ ts, w.length = 1 ∨ DictWord freq w ∨ (∀ c ∈ w, isHan c = false) ∨ PossibleWord T w) isWordCh ?_ ?_ ?_ s
  · intro _ _; exact ⟨[], rfl, by simp⟩
  · intro u rest hne hu hr ih hs hlen
    simp only [List.length_append] at hlen
    obtain ⟨ts', e', h'⟩ := ih (fun c hc => hs c (by simp [hc])) (by omega)
    rw [scan_word _ _ _ u rest hne hu hr, e', ← cut_of_word_block _ true u hne hu]
    obtain ⟨path, ts, hbest, ecut, hreg⟩ := hmm_regrouped ⟨dblArith log, freq, total, T, force⟩ (dbl_mono log) hp hn ht u hne hu
    rw [ecut, Gen.ok_andThen_ok]
    refine ⟨ts ++ ts', rfl, ?_⟩
    intro w hw0
    rcases List.mem_append.mp hw0 with hw | hw
    · clear hw0
      have hpw := admissible_word _ _ _ _ _ hbest
      have hfl : path.flatten = u := admissible_flatten _ _ _ (isBest_admissible _ _ _ _ _ hbest)
      have hpu : ∀ w ∈ path, ∀ c ∈ w, isHan c = true → SingleCh T c := by
        intro w hw c hc
        apply hs
        rw [List.mem_append]; left
        rw [← hfl]
        exact List.mem_flatten.mpr ⟨w, hw, hc⟩
      have hlp : path.flatten.length ≤ 2 ^ 50 := by rw [hfl]; omega
      clear hbest hfl ecut
      induction hreg with
      | nil => simp at hw
      | word x ps ts hx _ ih =>
        rcases List.mem_cons.mp hw with rfl | hw
        · rcases hpw w (by simp) with h | h
          · exact Or.inr (Or.inl h)
          · exact Or.inl h
        · exact ih hw (fun w hw => hpw w (by simp [hw])) (fun w hw => hpu w (by simp [hw])) (by simp at hlp ⊢; omega)
      | run r ps ts hr1 hr2 _ _ ih =>
        rcases List.mem_append.mp hw with hw | hw
        · split at hw
          · exact Or.inl (hr2 w hw)
          · obtain ⟨ws, e1, e2⟩ := FinalSeg.cut_tokens (dblArith log) (dbl_mono log) T force r.flatten
            simp only [e1] at hw
            have h1 : ∀ c ∈ r.flatten, isHan c = true → SingleCh T c := by
              intro c hc
              obtain ⟨x, hx, hcx⟩ := List.mem_flatten.mp hc
              exact hpu x (by simp [hx]) c hcx
            have h2 : r.flatten.length ≤ 2 ^ 50 := by
              rw [List.flatten_append, List.length_append] at hlp; omega
            rcases finalTokens_possible log T hT hC force _ _ h1 h2 e2 w hw with h | h
            · exact Or.inr (Or.inr (Or.inr h))
            · exact Or.inr (Or.inr (Or.inl h))
        · exact ih hw (fun w hw => hpw w (by simp [hw])) (fun w hw => hpu w (by simp [hw])) (by simp at hlp ⊢; omega)
    · exact h' w hw
  · intro u rest hne hu hr ih hs hlen
    simp only [List.length_append] at hlen
    obtain ⟨ts', e', h'⟩ := ih (fun c hc => hs c (by simp [hc])) (by omega)
    rw [scan_nonword _ _ _ u rest hne hu hr, e', Gen.ok_andThen_ok]
    refine ⟨_, rfl, ?_⟩
    intro w hw
    rcases List.mem_append.mp hw with hw | hw
    · right; right; left
      intro c hc
      have hm : c ∈ u := by
        rw [← (charTokens_flatten u).1]
        exact List.mem_flatten.mpr ⟨w, hw, hc⟩
      have := hu c hm
      cases hh : isHan c with
      | false => rfl
      | true => simp [isWordCh, hh] at this
    · exact h' w hw

/-- C96: a Han character that the shipped tables know only as a word of its own (there are 6095 of these) is never joined to others by the HMM: a
longer token with it is a dictionary word. -/
theorem C96_only_single (log : Nat → ℚ) (freq : Freq) (total : Int) (force : List Str)
    (hp : PrefixClosed freq) (hn : NonNeg freq) (ht : 0 < total) (s : Str) (hs : ∀ c ∈ s, isHan c = true → SingleCh tables c) (hlen : s.length ≤ 2 ^ 50) :
    ∃ ts, cut ⟨dblArith log, freq, total, tables, force⟩ false true s = Gen.ok ts ∧
      ∀ w ∈ ts, ∀ c ∈ w, isHan c = true → ¬ InnerCh tables c → w = [c] ∨ DictWord freq w := by
  obtain ⟨ts, h1, h2⟩ := C96_cut log freq total tables moderate complete force hp hn ht s hs hlen
  refine ⟨ts, h1, ?_⟩
  intro w hw c hc hhan hin
  rcases h2 w hw with h | h | h | h
  · obtain ⟨x, rfl⟩ := List.length_eq_one_iff.mp h
    simp at hc; subst hc; exact Or.inl rfl
  · exact Or.inr h
  · rw [h c hc] at hhan; cases hhan
  · cases h with
    | single x _ => simp at hc; subst hc; exact Or.inl rfl
    | long b ms e hb hm he =>
      exfalso
      simp only [List.mem_cons, List.mem_append, List.not_mem_nil, or_false] at hc
      rcases hc with rfl | hc | rfl
      · exact hin ⟨.B, by simp, hb⟩
      · exact hin ⟨.M, by simp, hm c hc⟩
      · exact hin ⟨.E, by simp, he⟩

/-- The hypotheses of `C96_only_single`, with 銆 (which turns up when UTF-8 text is read as GBK) known as a word of its own
only; and what comes out. -/
example : PrefixClosed sampleFreq ∧ NonNeg sampleFreq ∧ (∀ c ∈ lit ['杭', '研', '銆'], isHan c = true → SingleCh tables c) ∧
    ¬ InnerCh tables ('銆'.toNat) ∧
    cut ⟨dblArith fun _ => 0, sampleFreq, 161, tables, []⟩ false true (lit ['杭', '研', '銆', '杭', '研']) =
      Gen.ok [lit ['杭', '研'], lit ['銆'], lit ['杭', '研']] := by
  refine ⟨sample_prefixClosed, nonNeg_of_all _ (by decide), ?_, ?_, by decide +kernel⟩
  · intro c hc _
    unfold SingleCh
    revert c
    decide +kernel
  · rw [shipped_inner]; decide +kernel

/-- The hypotheses of `C96_run` where not every character can be a word: 醐 cannot, 醍醐 can. -/
example : PossibleTags tables (lit ['醍', '醐']) [.B, .E] ∧ ¬ SingleCh tables ('醐'.toNat) ∧
    FinalSeg.cut (dblArith fun _ => 0) tables [] (lit ['醍', '醐']) = Gen.ok [lit ['醍', '醐']] :=
  ⟨⟨rfl, ⟨by decide, by decide⟩, by decide, by decide +kernel⟩, by rw [shipped_single]; decide +kernel, by decide +kernel⟩

end Jieba.Props
