import Verif.Proofs.PosBest
import Verif.Proofs.Posseg
import Verif.Proofs.HmmWords
/-!
# Helper lemmas: the tagged words that the HMM of the POS tagger makes of a text
-/

set_option linter.unusedSectionVars false

namespace Jieba.Pos
open Jieba Jieba.Spec

variable {F : Type _} [LinearOrder F]

theorem cutLoop_pairs (sent : Str) (pos : List PState) (hpos : pos.length = sent.length)
    (pre rest : List (Ch × PState)) (acc : List (Ch × PState)) (begin : Nat)
    (hall : pre ++ acc ++ rest = sent.zip pos)
    (hin : ∀ t, (rest.map Prod.snd).head? = some t → ¬ (t.1 = chB ∨ t.1 = chS) → begin = pre.length)
    (hout : ∀ t, (rest.map Prod.snd).head? = some t → (t.1 = chB ∨ t.1 = chS) → acc = [])
    (hv : (rest.map Prod.snd).IsChain (fun x y => mayFollowPos x.1 y.1 = true)) :
    cutLoop sent pos rest (pre.length + acc.length) begin pre.length = Gen.ok (wordsByStates rest acc) := by
  have hfst : sent = pre.map Prod.fst ++ acc.map Prod.fst ++ rest.map Prod.fst := by
    rw [← List.map_append, ← List.map_append, hall, List.map_fst_zip (by omega)]
  have hsnd : pos = pre.map Prod.snd ++ acc.map Prod.snd ++ rest.map Prod.snd := by
    rw [← List.map_append, ← List.map_append, hall, List.map_snd_zip (by omega)]
  have hE' : chE = 'E'.toNat := rfl
  have hS' : chS = 'S'.toNat := rfl
  induction rest generalizing pre acc begin with
  | nil =>
    unfold cutLoop
    simp only [List.map_nil, List.append_nil] at hfst hsnd
    have hl : sent.length = pre.length + acc.length := by rw [hfst]; simp
    cases acc with
    | nil => rw [if_neg (by simp at hl; omega)]; simp [wordsByStates]
    | cons q acc =>
      obtain ⟨c, p⟩ := q
      rw [if_pos (by simp at hl; omega)]
      have : pos[pre.length]? = some p := by
        rw [hsnd, List.getElem?_append_right (by simp)]; simp
      rw [this]
      simp only [wordsByStates]
      congr 3
      rw [hfst, show pre.length = (pre.map Prod.fst).length by simp, List.drop_left]
  | cons q rest ih =>
    obtain ⟨c, p⟩ := q
    have hv' : (rest.map Prod.snd).IsChain (fun x y => mayFollowPos x.1 y.1 = true) := by
      have := hv; rw [List.map_cons] at this; exact this.of_cons
    have hnext : ∀ t, (rest.map Prod.snd).head? = some t → mayFollowPos p.1 t.1 = true := by
      intro t ht
      cases rest with
      | nil => simp at ht
      | cons q' rest =>
        simp at ht; subst ht
        simp only [List.map_cons, List.isChain_cons_cons] at hv
        exact hv.1
    have hnB : chB ≠ chE ∧ chB ≠ chS ∧ chB ≠ chM ∧ chE ≠ chS ∧ chE ≠ chM ∧ chS ≠ chM := by decide
    obtain ⟨n1, n2, n3, n4, n5, n6⟩ := hnB
    have hgo : pre ++ (acc ++ [(c, p)]) ++ rest = sent.zip pos := by rw [← hall]; simp
    have hend : (pre ++ acc ++ [(c, p)]) ++ [] ++ rest = sent.zip pos := by rw [← hall]; simp
    unfold cutLoop wordsByStates
    rw [← hE', ← hS']
    by_cases hB : p.1 = chB
    · rw [if_pos hB, if_neg (by rw [hB]; intro h; rcases h with h | h; exact n1 h; exact n2 h)]
      have e := hout p (by simp) (Or.inl hB)
      subst e
      have := ih pre [(c, p)] pre.length hgo (by intros; rfl) (by
        intro t ht h
        have := hnext t ht
        unfold mayFollowPos at this
        simp only [hB, decide_true, Bool.true_or, if_true, Bool.or_eq_true, decide_eq_true_eq] at this
        rcases h with h | h <;> rcases this with h' | h' <;> simp_all) hv' (by rw [hfst]; simp) (by rw [hsnd]; simp)
      exact this
    rw [if_neg hB]
    by_cases hE : p.1 = chE
    · rw [if_pos hE, if_pos (Or.inl hE)]
      have e := hin p (by simp) (by rw [hE]; intro h; rcases h with h | h; exact n1 h.symm; exact n4 h)
      subst e
      have := ih (pre ++ acc ++ [(c, p)]) [] pre.length hend (by
          intro t ht h
          have := hnext t ht
          unfold mayFollowPos at this
          simp [hE, n1.symm, n5] at this
          exact absurd this h) (by intros; rfl) hv' (by rw [hfst]; simp) (by rw [hsnd]; simp)
      have hl : (pre ++ acc ++ [(c, p)]).length = pre.length + acc.length + 1 := by simp; omega
      rw [hl] at this
      simp only [List.length_nil, Nat.add_zero] at this
      rw [this, Gen.ok_andThen_ok]
      congr 1
      rw [List.singleton_append]
      congr 2
      rw [hfst]
      unfold slice
      have e2 : pre.map Prod.fst ++ acc.map Prod.fst ++ ((c, p) :: rest).map Prod.fst =
          (pre.map Prod.fst ++ (acc.map Prod.fst ++ [c])) ++ rest.map Prod.fst := by simp
      rw [e2, List.take_left' (by simp; omega), List.drop_left' (by simp)]
    rw [if_neg hE]
    by_cases hS : p.1 = chS
    · rw [if_pos hS, if_pos (Or.inr hS)]
      have e := hout p (by simp) (Or.inr hS)
      subst e
      have := ih (pre ++ [(c, p)]) [] begin (by rw [← hall]; simp) (by
          intro t ht h
          have := hnext t ht
          unfold mayFollowPos at this
          simp [hS, n2.symm, n4.symm, n6] at this
          exact absurd this h) (by intros; rfl) hv' (by rw [hfst]; simp) (by rw [hsnd]; simp)
      have hl : (pre ++ [(c, p)]).length = pre.length + 1 := by simp
      rw [hl] at this
      simp only [List.length_nil, Nat.add_zero] at this ⊢
      rw [this, Gen.ok_andThen_ok]
      rfl
    rw [if_neg hS, if_neg (by intro h; rcases h with h | h; exact hE h; exact hS h)]
    have e := hin p (by simp) (by tauto)
    have := ih pre (acc ++ [(c, p)]) begin hgo (by intros; exact e) (by
      intro t ht h
      have := hnext t ht
      unfold mayFollowPos at this
      by_cases hM : p.1 = chM
      · simp [hM] at this
        rcases h with h | h <;> rcases this with h' | h' <;> simp_all
      · simp [hB, hM, hE, hS] at this) hv' (by rw [hfst]; simp) (by rw [hsnd]; simp)
    rw [List.length_append] at this
    exact this

theorem Scored.length {A : Arith F} {T : Tables F} {s : Str} {ys : List PState} {v : F} (h : Scored A T s ys v) :
    ys.length = s.length := by
  induction h with
  | one => rfl
  | snoc s ys x v c y tx p e h1 _ _ _ _ ih => simp at ih ⊢; omega

theorem hmmCut_pairs (E : PEnv F) (hA : MonoAdd E.A) (hT : TablesOK E.tables) (hB : TransBMES E.tables)
    (hσ : ∀ s t l, (E.σ s t l).Perm l) (sent : Str) (h : sent ≠ []) :
    ∃ ys, BestStates E.A E.tables sent ys ∧ hmmCut E sent = Gen.ok (wordsByStates (sent.zip ys) []) := by
  obtain ⟨v, route, h1, h2, h3⟩ := viterbi_best E.A hA E.tables hT (E.σ sent) (hσ sent) sent h
  obtain ⟨p, route', heq, hl, hv⟩ := viterbi_ok E.A E.tables hT (E.σ sent) (hσ sent) sent h
  rw [h1] at heq
  injection heq with heq
  injection heq with e1 e2
  subst e2
  refine ⟨route, ⟨v, h2, fun ys' w hw => (h3 ys' w hw).1⟩, ?_⟩
  unfold hmmCut
  rw [h1]
  have hsnd : (sent.zip route).map Prod.snd = route := List.map_snd_zip (by rw [hl])
  exact cutLoop_pairs sent route hl [] (sent.zip route) [] 0 rfl (by intros; rfl) (by intros; rfl)
    (by rw [hsnd]; exact hv.imp (fun x y hxy => hB.follow x y hxy))

/-! ## Text without Han characters -/

theorem isNumCh_iff (c : Ch) : (c == 0x2E || isDigit c) = true ↔ IsNumCh c := by
  unfold IsNumCh isDigit
  rw [show '.'.toNat = 0x2E from rfl, show '0'.toNat = 0x30 from rfl, show '9'.toNat = 0x39 from rfl]
  simp

theorem isAlnumCh_iff (c : Ch) : isAlnum c = true ↔ IsAlnumCh c := by
  unfold IsAlnumCh isAlnum isDigit isLower isUpper
  rw [show '0'.toNat = 0x30 from rfl, show '9'.toNat = 0x39 from rfl, show 'a'.toNat = 0x61 from rfl, show 'z'.toNat = 0x7A from rfl,
    show 'A'.toNat = 0x41 from rfl, show 'Z'.toNat = 0x5A from rfl]
  simp only [Bool.or_eq_true, Bool.and_eq_true, decide_eq_true_eq]
  tauto

/-- A character of `[\.0-9]`. -/
def numCh (c : Ch) : Bool := c == 0x2E || isDigit c

theorem numCh_iff (c : Ch) : numCh c = true ↔ IsNumCh c := isNumCh_iff c

/-- Length of the match of `re_skip_detail`. -/
def latinLen (s : Str) : Nat :=
  if (s.takeWhile numCh).length ≠ 0 then (s.takeWhile numCh).length else (s.takeWhile isAlnum).length

theorem run_latin (st : Bool) (s : Str) :
    (reSkipDetail.run st s).head? = if latinLen s = 0 then none else some (latinLen s, [(1, s.take (latinLen s))]) := by
  unfold reSkipDetail
  rw [RE.run_grp 1 _ rfl, List.head?_map]
  have : ((RE.alt (.plus (fun c => c == 0x2E || isDigit c)) (.plus isAlnum)).run st s).head? =
      if latinLen s = 0 then none else some (latinLen s, []) := by
    rw [RE.run, List.head?_append, FinalSeg.run_plus, FinalSeg.run_plus]
    unfold latinLen
    change (if (s.takeWhile numCh).length = 0 then _ else _ : Option (Nat × Caps)).or _ = _
    by_cases h : (s.takeWhile numCh).length = 0
    · have e : (if (s.takeWhile numCh).length ≠ 0 then (s.takeWhile numCh).length else (s.takeWhile isAlnum).length) =
          (s.takeWhile isAlnum).length := if_neg (fun hh => hh h)
      rw [if_pos h, e, Option.none_or]
    · have e : (if (s.takeWhile numCh).length ≠ 0 then (s.takeWhile numCh).length else (s.takeWhile isAlnum).length) =
          (s.takeWhile numCh).length := if_pos h
      rw [if_neg h, e, if_neg h]; rfl
  rw [this]
  split <;> rfl

/-- The pairs made of the pieces. -/
def latinPairs (l : List Str) : List Pair := (l.filter (fun x => x ≠ [])).map skipPair

theorem latinPairs_nil (l : List Str) : latinPairs ([] :: l) = latinPairs l := by simp [latinPairs]

theorem latinPairs_cons (x : Str) (l : List Str) (h : x ≠ []) : latinPairs (x :: l) = skipPair x :: latinPairs l := by
  unfold latinPairs
  rw [List.filter_cons_of_pos (p := fun x : Str => decide (x ≠ [])) (decide_eq_true h)]
  rfl

theorem skipPair_num (c : Ch) (u : Str) (h : IsNumCh c) : skipPair (c :: u) = (c :: u, lit ['m']) := by
  unfold skipPair
  have : reNum.isMatch (c :: u) = true := by
    unfold reNum; rw [isMatch_plus']; exact (isNumCh_iff c).mpr h
  rw [if_pos this]; rfl

theorem skipPair_eng (c : Ch) (u : Str) (h : ¬ IsNumCh c) (ha : IsAlnumCh c) : skipPair (c :: u) = (c :: u, lit ['e', 'n', 'g']) := by
  unfold skipPair
  have h1 : ¬ reNum.isMatch (c :: u) = true := by
    unfold reNum; rw [isMatch_plus']; exact fun h' => h ((isNumCh_iff c).mp h')
  have h2 : reEngPos.isMatch (c :: u) = true := by
    unfold reEngPos; rw [isMatch_plus']; exact (isAlnumCh_iff c).mpr ha
  rw [if_neg h1, if_pos h2]; rfl

theorem skipPair_other (u : Str) (h : ∀ c ∈ u, ¬ IsNumCh c ∧ ¬ IsAlnumCh c) (hu : u ≠ []) : skipPair u = (u, lit ['x']) := by
  cases u with
  | nil => exact absurd rfl hu
  | cons c u =>
    obtain ⟨a, b⟩ := h c (by simp)
    unfold skipPair
    have h1 : ¬ reNum.isMatch (c :: u) = true := by
      unfold reNum; rw [isMatch_plus']; exact fun h' => a ((isNumCh_iff c).mp h')
    have h2 : ¬ reEngPos.isMatch (c :: u) = true := by
      unfold reEngPos; rw [isMatch_plus']; exact fun h' => b ((isAlnumCh_iff c).mp h')
    rw [if_neg h1, if_neg h2]; rfl

theorem splitGo_latin (fuel : Nat) (st : Bool) (acc s : Str) (hf : s.length < fuel)
    (hacc : ∀ c ∈ acc, ¬ IsNumCh c ∧ ¬ IsAlnumCh c) :
    LatinPairs (acc ++ s) (latinPairs (reSkipDetail.splitGo fuel st acc s)) := by
  induction fuel generalizing st acc s with
  | zero => omega
  | succ fuel ih =>
    cases s with
    | nil =>
      simp only [RE.splitGo, List.append_nil]
      by_cases h : acc = []
      · subst h; exact LatinPairs.nil
      · rw [latinPairs_cons _ _ h, skipPair_other _ hacc h]
        have := LatinPairs.other acc [] [] h hacc (by simp) .nil
        rw [List.append_nil] at this; exact this
    | cons c s =>
      have hstep0 : reSkipDetail.splitGo (fuel + 1) st acc (c :: s) =
          (match (reSkipDetail.run st (c :: s)).head? with
            | some (n + 1, caps) => acc :: (RE.group caps 1).getD [] :: reSkipDetail.splitGo fuel false [] ((c :: s).drop (n + 1))
            | _ => reSkipDetail.splitGo fuel false (acc ++ [c]) s) := rfl
      by_cases hz : latinLen (c :: s) = 0
      · rw [run_latin, if_pos hz] at hstep0
        rw [hstep0]
        have hc : ¬ IsNumCh c ∧ ¬ IsAlnumCh c := by
          unfold latinLen at hz
          by_cases h1 : numCh c = true
          · exfalso; simp [h1] at hz
          · by_cases h2 : isAlnum c = true
            · exfalso; simp [h1, h2] at hz
            · exact ⟨fun h => h1 ((numCh_iff c).mpr h), fun h => h2 ((isAlnumCh_iff c).mpr h)⟩
        have := ih false (acc ++ [c]) s (by simp at hf; omega) (by
          intro d hd
          rcases List.mem_append.mp hd with hd | hd
          · exact hacc d hd
          · simp at hd; subst hd; exact hc)
        simpa using this
      · obtain ⟨n, hn⟩ : ∃ n, latinLen (c :: s) = n + 1 := ⟨latinLen (c :: s) - 1, by omega⟩
        rw [run_latin, if_neg hz] at hstep0
        rw [hn] at hstep0
        simp only [RE.group] at hstep0
        -- the match and the rest
        have key : ∃ u rest, c :: s = u ++ rest ∧ u.length = n + 1 ∧
            ∀ qs, LatinPairs rest qs → LatinPairs (u ++ rest) (skipPair u :: qs) := by
          unfold latinLen at hn
          by_cases h1 : numCh c = true
          · rw [if_pos (by simp [h1])] at hn
            refine ⟨(c :: s).takeWhile numCh, (c :: s).dropWhile numCh, List.takeWhile_append_dropWhile.symm, hn, ?_⟩
            intro qs hq
            have e : (c :: s).takeWhile numCh = c :: s.takeWhile numCh := by simp [h1]
            rw [e, skipPair_num c _ ((numCh_iff c).mp h1), ← e]
            refine LatinPairs.num _ _ qs (by rw [e]; simp) ?_ ?_ hq
            · intro d hd; exact (numCh_iff d).mp (of_mem_takeWhile _ _ d hd)
            · intro d hd h
              have := head_dropWhile numCh _ d hd
              rw [(numCh_iff d).mpr h] at this
              exact Bool.noConfusion this
          · rw [if_neg (by simp [h1])] at hn
            have h2 : isAlnum c = true := by
              by_contra h2
              simp [h2] at hn
            refine ⟨(c :: s).takeWhile isAlnum, (c :: s).dropWhile isAlnum, List.takeWhile_append_dropWhile.symm, hn, ?_⟩
            intro qs hq
            have e : (c :: s).takeWhile isAlnum = c :: s.takeWhile isAlnum := by simp [h2]
            have h1' : ¬ IsNumCh c := fun h => h1 ((numCh_iff c).mpr h)
            rw [e, skipPair_eng c _ h1' ((isAlnumCh_iff c).mp h2)]
            refine LatinPairs.eng c _ _ qs h1' ?_ ?_ hq
            · intro d hd; rw [← e] at hd; exact (isAlnumCh_iff d).mp (of_mem_takeWhile _ _ d hd)
            · intro d hd h
              have := head_dropWhile isAlnum _ d hd
              rw [(isAlnumCh_iff d).mpr h] at this
              exact Bool.noConfusion this
        obtain ⟨u, rest, e, hu, hmk⟩ := key
        rw [e, ← hu, List.take_left, List.drop_left] at hstep0
        have hrest : rest.length < fuel := by
          have := congrArg List.length e
          simp at this; simp at hf; omega
        have ht := hmk _ (ih false [] rest hrest (by simp))
        have hu0 : u ≠ [] := by rintro rfl; simp at hu
        rw [e, hstep0]
        change LatinPairs (acc ++ (u ++ rest)) (latinPairs (acc :: u :: _))
        have ht' : LatinPairs (u ++ rest) (latinPairs (u :: reSkipDetail.splitGo fuel false [] rest)) := by
          rw [latinPairs_cons _ _ hu0]; exact ht
        by_cases ha : acc = []
        · subst ha
          rw [latinPairs_nil]
          exact ht'
        · rw [latinPairs_cons _ _ ha, skipPair_other _ hacc ha]
          refine LatinPairs.other acc _ _ ha hacc ?_ ht'
          intro d hd
          rw [← e] at hd
          rw [List.head?_cons] at hd
          injection hd with hd
          subst hd
          by_contra hcon
          push Not at hcon
          apply hz
          unfold latinLen
          have h1 : numCh c = false := by
            rw [← Bool.not_eq_true, numCh_iff]; exact hcon.1
          have h2 : isAlnum c = false := by
            rw [← Bool.not_eq_true, isAlnumCh_iff]; exact hcon.2
          simp [h1, h2]

theorem latin_pairs (s : Str) : LatinPairs s (((reSkipDetail.split s).filter (fun x => x ≠ [])).map skipPair) :=
  splitGo_latin (s.length + 1) true [] s (by omega) (by simp)

theorem cutDetail_eq_scan (E : PEnv F) (s : Str) :
    cutDetail E s = scan isHan (hmmCut E) (fun blk => Gen.ok (((reSkipDetail.split blk).filter (fun x => x ≠ [])).map skipPair)) s := by
  unfold cutDetail scan reHan
  rw [forEach_split_plus isHan s _ (by rw [isMatch_plus]; rfl)]
  apply Gen.forEach_congr
  intro b hb
  have hne := chunks_ne_nil _ _ b hb
  rw [isMatch_eq_any _ _ b hne (chunks_uniform _ _ b hb)]

theorem cutDetail_pairs (E : PEnv F) (hA : MonoAdd E.A) (hT : TablesOK E.tables) (hB : TransBMES E.tables)
    (hσ : ∀ s t l, (E.σ s t l).Perm l) (s : Str) :
    ∃ qs, cutDetail E s = Gen.ok qs ∧ DetailPairs E.A E.tables s qs := by
  rw [cutDetail_eq_scan]
  generalize hn : s.length = n
  induction n using Nat.strong_induction_on generalizing s with
  | _ n ih =>
    cases s with
    | nil => exact ⟨[], rfl, .nil⟩
    | cons c s =>
      obtain ⟨u, rest, e, hu, hr⟩ := split_at_class isHan (isHan c) (c :: s)
      have hu0 : u ≠ [] := by
        rintro rfl
        simp at e
        have := hr c (by rw [← e]; rfl)
        cases hc : isHan c <;> rw [hc] at this <;> exact Bool.noConfusion this
      have hlen : rest.length < n := by
        have h1 := congrArg List.length e
        have h2 := List.length_pos_iff.mpr hu0
        rw [List.length_append] at h1; omega
      obtain ⟨ts, h1, h2⟩ := ih rest.length hlen rest rfl
      rw [e]
      cases hc : isHan c with
      | true =>
        rw [hc] at hu hr
        obtain ⟨ys, hb, hw⟩ := hmmCut_pairs E hA hT hB hσ u hu0
        refine ⟨_, ?_, DetailPairs.han u rest ys ts hu0 hu (by simpa using hr) hb h2⟩
        rw [scan_word isHan _ _ u rest hu0 hu (by simpa using hr), h1, hw, Gen.ok_andThen_ok]
      | false =>
        rw [hc] at hu hr
        refine ⟨_, ?_, DetailPairs.other u rest _ ts hu0 hu (by simpa using hr) (latin_pairs u) h2⟩
        rw [scan_nonword isHan _ _ u rest hu0 hu (by simpa using hr), h1, Gen.ok_andThen_ok]

end Jieba.Pos
