import Verif.Props.HmmShipped
import Verif.Props.Numbers

/-! # C121: how long tokens can be -/

namespace Jieba.Props
open Jieba Jieba.Spec Jieba.FinalSeg Jieba.HmmData

/-- 早 (which may begin a word), `k` times 稲 (which occurs in the tables as inner character only), 田 (which may end a word). -/
def longName (k : Nat) : Str := '早'.toNat :: (List.replicate k '稲'.toNat ++ [('田'.toNat : Nat)])

theorem emit_inner : (tables.emit .B '稲'.toNat).isSome = false ∧ (tables.emit .M '稲'.toNat).isSome = true ∧
    (tables.emit .E '稲'.toNat).isSome = false ∧ (tables.emit .S '稲'.toNat).isSome = false ∧
    (tables.emit .B '早'.toNat).isSome = true ∧ (tables.emit .E '田'.toNat).isSome = true := by
  decide +kernel

theorem inner_tag (y : St) (h : (tables.emit y '稲'.toNat).isSome = true) : y = .M := by
  have := emit_inner
  cases y <;> simp_all

theorem inner_tags (k : Nat) (tags : List St) (hl : tags.length = k + 1)
    (hc : (St.M :: tags).IsChain (fun a b => mayFollow a b = true)) (he : ∀ t, tags.getLast? = some t → t = .E ∨ t = .S)
    (hk : ∀ q ∈ (List.replicate k ('稲'.toNat : Nat) ++ [('田'.toNat : Nat)]).zip tags, (tables.emit q.2 q.1).isSome = true) :
    tags = List.replicate k .M ++ [.E] := by
  induction k generalizing tags with
  | zero =>
    match tags, hl with
    | [t], _ =>
      have h1 : mayFollow .M t = true := by simpa using hc
      have h2 := he t rfl
      cases t <;> simp_all [mayFollow]
  | succ k ih =>
    match tags, hl with
    | t :: tags, hl =>
      have h1 : t = .M := inner_tag t (hk ('稲'.toNat, t) (by simp [List.replicate_succ]))
      subst h1
      have hne : tags ≠ [] := by rintro rfl; simp at hl
      have := ih tags (by simpa using hl) (List.isChain_cons_cons.mp hc).2
        (fun t ht => he t (by rw [List.getLast?_cons_of_ne_nil hne]; exact ht))
        (fun q hq => hk q (by rw [List.replicate_succ, List.cons_append, List.zip_cons_cons]; exact List.mem_cons_of_mem _ hq))
      rw [this, List.replicate_succ, List.cons_append]

theorem longName_tags (k : Nat) (tags : List St) (h : PossibleTags tables (longName (k + 1)) tags) :
    tags = .B :: (List.replicate (k + 1) .M ++ [.E]) := by
  obtain ⟨hl, ⟨hch, hend⟩, hf, hk⟩ := h
  match tags, hl with
  | t :: u :: tags, hl =>
    have hu : u = .M := inner_tag u (hk ('稲'.toNat, u) (by simp [longName, List.replicate_succ]))
    subst hu
    have ht : t = .B := by
      have h1 := hf t rfl
      have h2 := (List.isChain_cons_cons.mp hch).1
      cases t <;> simp_all [mayFollow]
    subst ht
    have hne : tags ≠ [] := by rintro rfl; simp [longName] at hl
    have := inner_tags k tags (by simp [longName] at hl; omega) (List.isChain_cons_cons.mp hch).2
      (fun t ht => hend t (by rw [List.getLast?_cons_of_ne_nil (by simp), List.getLast?_cons_of_ne_nil hne]; exact ht))
      (fun q hq => hk q (by
        rw [longName, List.replicate_succ, List.cons_append, List.zip_cons_cons, List.zip_cons_cons]
        exact List.mem_cons_of_mem _ (List.mem_cons_of_mem _ hq)))
    rw [this, List.replicate_succ, List.cons_append]
  | [t], hl => simp [longName] at hl

theorem longName_possible (k : Nat) : PossibleTags tables (longName k) (.B :: (List.replicate k .M ++ [.E])) := by
  refine ⟨by simp [longName], ⟨?_, ?_⟩, by simp, ?_⟩
  · induction k with
    | zero => decide
    | succ k ih =>
      rw [List.replicate_succ, List.cons_append]
      refine List.isChain_cons_cons.mpr ⟨rfl, ?_⟩
      cases k with
      | zero => decide
      | succ k =>
        rw [List.replicate_succ, List.cons_append] at ih ⊢
        exact List.isChain_cons_cons.mpr ⟨rfl, (List.isChain_cons_cons.mp ih).2⟩
  · intro t ht
    simp [List.getLast?_cons] at ht
    exact Or.inl ht.symm
  · intro q hq
    have e := emit_inner
    rw [longName, List.zip_cons_cons, List.zip_append (by simp)] at hq
    simp only [List.mem_cons, List.mem_append] at hq
    rcases hq with rfl | hq | hq
    · exact e.2.2.2.2.1
    · obtain ⟨h1, h2⟩ := List.of_mem_zip (a := q.1) (b := q.2) hq
      rw [List.eq_of_mem_replicate h1, List.eq_of_mem_replicate h2]
      exact e.2.1
    · simp at hq; subst hq; exact e.2.2.2.2.2

theorem inner_words (k : Nat) (acc : Str) :
    wordsByTags ((List.replicate k ('稲'.toNat : Nat) ++ [('田'.toNat : Nat)]).zip (List.replicate k St.M ++ [St.E])) acc =
      [acc ++ (List.replicate k ('稲'.toNat : Nat) ++ [('田'.toNat : Nat)])] := by
  induction k generalizing acc with
  | zero => simp [wordsByTags]
  | succ k ih =>
    simp only [List.replicate_succ, List.cons_append, List.zip_cons_cons, wordsByTags]
    rw [if_neg (by simp), ih]
    simp

theorem longName_han (k : Nat) : ∀ c ∈ longName k, isHan c = true := by
  intro c hc
  simp only [longName, List.mem_cons, List.mem_append, List.not_mem_nil, or_false] at hc
  rcases hc with rfl | hc | rfl
  · decide
  · rw [List.eq_of_mem_replicate hc]; decide
  · decide

/-- C121: with the shipped tables and floats, the HMM makes one word of 早稲…稲田, however long it is. -/
theorem C121_hmm_word (log : Nat → ℚ) (force : List Str) (k : Nat) (hk : 0 < k) (hlen : k + 2 ≤ 2 ^ 50) (hf : longName k ∉ force) :
    FinalSeg.cut (dblArith log) tables force (longName k) = Gen.ok [longName k] := by
  obtain ⟨k, rfl⟩ : ∃ j, k = j + 1 := ⟨k - 1, by omega⟩
  have hne : longName (k + 1) ≠ [] := by simp [longName]
  obtain ⟨best, hb, hcut⟩ := hmmCut_words (dblArith log) (dbl_mono log) tables (longName (k + 1)) hne
  have hp := best_possible log moderate complete _ hne (by simp [longName]; omega) best _ hb (longName_possible (k + 1))
  have e := longName_tags k best hp
  have hw : wordsByTags ((longName (k + 1)).zip best) [] = [longName (k + 1)] := by
    rw [e, longName, List.zip_cons_cons, wordsByTags, if_neg (by simp), inner_words]
    simp
  rw [hw] at hcut
  rw [FinalSeg.cut_eq_scan]
  have h := scan_word isHan
    (fun blk => (hmmCut (dblArith log) tables blk).mapOut (fun word => if word ∉ force then [word] else word.map (fun c => [c])))
    (fun blk => Gen.ok ((reSkipFinal.split blk).filter (fun x => x ≠ []))) (longName (k + 1)) [] hne (longName_han _) (by simp)
  rw [List.append_nil] at h
  rw [h, hcut, scan_nil]
  show Gen.andThen (Gen.ok _) (Gen.ok []) = _
  rw [Gen.ok_andThen_ok, List.append_nil, Gen.ok_out]
  simp [hf]

/-- C121: so tokens of `cut` with HMM can have any length, whatever the dictionary, if it has none of the words in question. -/
theorem C121_hmm_unbounded (log : Nat → ℚ) (freq : Freq) (total : Int) (force : List Str) (hn : NonNeg freq) (ht : 0 < total)
    (k : Nat) (hk : 0 < k) (hlen : k + 2 ≤ 2 ^ 50) (hno : NoLongWord freq (longName k)) (hf : longName k ∉ force) :
    cut ⟨dblArith log, freq, total, tables, force⟩ false true (longName k) = Gen.ok [longName k] ∧ (longName k).length = k + 2 := by
  refine ⟨?_, by simp [longName]⟩
  rw [cut_by_hmm ⟨dblArith log, freq, total, tables, force⟩ hn ht _ (by simp [longName]) ?_ hno]
  · exact C121_hmm_word log force k hk hlen hf
  · intro c hc
    unfold isWordCh
    rw [longName_han k c hc]; rfl

/-- C121: without HMM no token is longer than the longest dictionary word, but for runs of letters and digits, and CR LF. -/
theorem C121_no_hmm_bounded {F : Type _} [LinearOrder F] (E : Env F) (n : Nat) (hn : ∀ w, DictWord E.freq w → w.length ≤ n) (s : Str) :
    ∀ w ∈ (cut E false false s).out, w.length ≤ max n 1 ∨ w = lit ['\r', '\n'] ∨ ∀ c ∈ w, isAlnum c = true := by
  intro w hw
  rcases C03_no_hmm_token_provenance E s w hw with h | h | h | h
  · exact Or.inl (le_trans (hn w h) (le_max_left _ _))
  · exact Or.inl (h ▸ le_max_right _ _)
  · exact Or.inr (Or.inl h)
  · exact Or.inr (Or.inr h.2)

/-- The hypotheses hold of a small dictionary; the word is 早稲田. -/
example : NonNeg sampleFreq ∧ NoLongWord sampleFreq (longName 1) ∧ longName 1 = lit ['早', '稲', '田'] ∧
    cut ⟨dblArith fun _ => 0, sampleFreq, 161, tables, []⟩ false true (longName 1) = Gen.ok [longName 1] :=
  ⟨sample_nonNeg, noLongWord_of_keys _ _ (by decide), by decide, by decide +kernel⟩

end Jieba.Props
