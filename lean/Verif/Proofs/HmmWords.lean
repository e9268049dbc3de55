import Verif.Proofs.FinalSeg
import Verif.Proofs.Cut
import Verif.Spec.HmmWords
/-!
# Lemmas about the words that `finalseg.cut` yields
-/

set_option linter.unusedSectionVars false

namespace Jieba.FinalSeg
open Jieba Jieba.Spec

variable {F : Type _} [LinearOrder F]

theorem slice_snoc (sent : Str) (a i : Nat) (h : a ≤ i) (hi : i < sent.length) :
    slice sent a (i + 1) = slice sent a i ++ [sent[i]] := by
  unfold slice
  rw [List.take_add_one, List.getElem?_eq_getElem hi, Option.toList_some, List.drop_append_of_le_length (by simp; omega)]

theorem slice_self (sent : Str) (i : Nat) : slice sent i i = [] := by
  unfold slice; simp

theorem cutLoop_words (sent : Str) (rest : List (Ch × St)) (i begin nexti : Nat)
    (hrest : rest.map Prod.fst = sent.drop i) (hi : i ≤ sent.length) (hn : nexti ≤ i)
    (hin : ∀ t, (rest.map Prod.snd).head? = some t → (t = .M ∨ t = .E) → begin = nexti)
    (hout : ∀ t, (rest.map Prod.snd).head? = some t → (t = .B ∨ t = .S) → nexti = i)
    (hnil : rest = [] → nexti = i)
    (hv : ValidTags (rest.map Prod.snd)) :
    cutLoop sent rest i begin nexti = wordsByTags rest (slice sent nexti i) := by
  induction rest generalizing i begin nexti with
  | nil =>
    have := hnil rfl; subst this
    simp at hrest
    unfold cutLoop wordsByTags
    rw [if_neg (by omega), slice_self, if_pos rfl]
  | cons q rest ih =>
    obtain ⟨c, pos⟩ := q
    have hilt : i < sent.length := by
      by_contra hcon
      have : sent.drop i = [] := List.drop_eq_nil_of_le (by omega)
      rw [this] at hrest; simp at hrest
    rw [List.drop_eq_getElem_cons hilt, List.map_cons] at hrest
    simp only [List.cons.injEq] at hrest
    obtain ⟨hc, hrest'⟩ := hrest
    have hv' : ValidTags (rest.map Prod.snd) := by
      refine ⟨?_, ?_⟩
      · have := hv.chain; rw [List.map_cons] at this; exact this.of_cons
      · intro t ht
        apply hv.closed
        rw [List.map_cons, List.getLast?_cons, ht]; rfl
    have hnext : ∀ t, (rest.map Prod.snd).head? = some t → mayFollow pos t = true := by
      intro t ht
      have := hv.chain
      cases rest with
      | nil => simp at ht
      | cons q' rest =>
        simp at ht; subst ht
        simp only [List.map_cons, List.isChain_cons_cons] at this
        exact this.1
    have hlast : rest = [] → pos = .E ∨ pos = .S := by
      rintro rfl; exact hv.closed pos (by simp)
    have hs : slice sent nexti i ++ [c] = slice sent nexti (i + 1) := by
      rw [slice_snoc sent nexti i hn hilt, ← hc]
    unfold cutLoop wordsByTags
    cases pos with
    | B =>
      have e := hout .B (by simp) (Or.inl rfl)
      simp only [reduceCtorEq, or_self, if_false]
      rw [hs]
      refine ih (i + 1) i nexti hrest' (by omega) (by omega) ?_ ?_ ?_ hv'
      · intros; exact e.symm
      · intro t ht h
        have := hnext t ht
        rcases h with rfl | rfl <;> simp [mayFollow] at this
      · intro h; rcases hlast h with h | h <;> cases h
    | M =>
      have e := hin .M (by simp) (Or.inl rfl)
      simp only [reduceCtorEq, or_self, if_false]
      rw [hs]
      refine ih (i + 1) begin nexti hrest' (by omega) (by omega) ?_ ?_ ?_ hv'
      · intros; exact e
      · intro t ht h
        have := hnext t ht
        rcases h with rfl | rfl <;> simp [mayFollow] at this
      · intro h; rcases hlast h with h | h <;> cases h
    | E =>
      have e := hin .E (by simp) (Or.inr rfl)
      simp only [true_or, if_true]
      rw [hs, e]
      congr 1
      rw [ih (i + 1) nexti (i + 1) hrest' (by omega) (by omega) ?_ ?_ ?_ hv', slice_self]
      · intro t ht h
        have := hnext t ht
        rcases h with rfl | rfl <;> simp [mayFollow] at this
      · intros; rfl
      · intros; rfl
    | S =>
      have e := hout .S (by simp) (Or.inr rfl)
      simp only [or_true, if_true]
      rw [e, slice_self, List.nil_append]
      congr 1
      rw [ih (i + 1) begin (i + 1) hrest' (by omega) (by omega) ?_ ?_ ?_ hv', slice_self]
      · intro t ht h
        have := hnext t ht
        rcases h with rfl | rfl <;> simp [mayFollow] at this
      · intros; rfl
      · intros; rfl

theorem hmmCut_words (A : Arith F) (hA : MonoAdd A) (T : Tables F) (sent : Str) (h : sent ≠ []) :
    ∃ tags, BestTags A T sent tags ∧ hmmCut A T sent = Gen.ok (wordsByTags (sent.zip tags) []) := by
  cases sent with
  | nil => exact absurd rfl h
  | cons c cs =>
    obtain ⟨p, tags, h1, h2, h3⟩ := viterbi_struct A T c cs
    obtain ⟨p', tags', h1', h4, h5⟩ := viterbi_opt A T hA c cs
    rw [h1] at h1'; cases h1'
    refine ⟨tags, ⟨h2, h3, fun o ho hv => h4 ▸ h5 o ho hv⟩, ?_⟩
    unfold hmmCut
    rw [h1]
    show Gen.ok _ = _
    congr 1
    have hz : ((c :: cs).zip tags).map Prod.snd = tags := by
      rw [List.map_snd_zip (by omega)]
    rw [cutLoop_words _ _ 0 0 0 (by rw [List.map_fst_zip (by show _ ≤ tags.length; omega)]; rfl) (by omega) (le_refl _) (by simp) (by simp) (by simp)
      (by rw [hz]; exact h3)]
    rfl

/-! ## Numbers -/

theorem run_seq_head (a b : RE) (st : Bool) (s : Str) (h h' : Nat × Caps) (ha : (a.run st s).head? = some h)
    (hb : (b.run (st && h.1 == 0) (s.drop h.1)).head? = some h') :
    ((RE.seq a b).run st s).head? = some (h.1 + h'.1, h.2 ++ h'.2) := by
  simp only [RE.run]
  cases hr : a.run st s with
  | nil => rw [hr] at ha; simp at ha
  | cons x xs =>
    rw [hr] at ha; simp at ha; subst ha
    rw [List.flatMap_cons]
    cases hq : b.run (st && x.1 == 0) (s.drop x.1) with
    | nil => rw [hq] at hb; simp at hb
    | cons y ys => rw [hq] at hb; simp at hb; subst hb; simp

theorem takeWhile_length_pos (p : Ch → Bool) (c : Ch) (s : Str) (h : p c = true) : 0 < ((c :: s).takeWhile p).length := by
  simp [h]

theorem run_plus (p : Ch → Bool) (st : Bool) (s : Str) :
    ((RE.plus p).run st s).head? = if (s.takeWhile p).length = 0 then none else some ((s.takeWhile p).length, []) := by
  simp only [RE.run]
  cases hl : (s.takeWhile p).length with
  | zero => simp
  | succ n => simp [List.range_succ]

/-- What the optional decimals match. -/
def fracLen (s : Str) : Nat :=
  match s with
  | 0x2E :: d :: r => if isDecimal d then 1 + ((d :: r).takeWhile isDecimal).length else 0
  | _ => 0

theorem run_frac (st : Bool) (s : Str) :
    ((RE.opt (.seq (.cls (· == 0x2E)) (.plus isDecimal))).run st s).head? = some (fracLen s, []) := by
  have hopt : ∀ (r : RE), (r.run st s).head? = none → ((RE.opt r).run st s).head? = some (0, []) := by
    intro r h
    rw [List.head?_eq_none_iff] at h
    simp [RE.run, h]
  have hopt' : ∀ (r : RE) x, (r.run st s).head? = some x → ((RE.opt r).run st s).head? = some x := by
    intro r x h
    cases hr : r.run st s with
    | nil => rw [hr] at h; simp at h
    | cons y ys => rw [hr] at h; simp at h; subst h; simp [RE.run, hr]
  match s with
  | [] => apply hopt; simp [RE.run]
  | [c] =>
    have : fracLen [c] = 0 := by
      unfold fracLen; split
      · next heq => simp at heq
      · rfl
    rw [this]; apply hopt
    by_cases h : c = 0x2E <;> simp [RE.run, h]
  | c :: d :: r =>
    by_cases h : c = 0x2E
    · subst h
      by_cases hd : isDecimal d = true
      · apply hopt'
        have e : fracLen (0x2E :: d :: r) = 1 + ((d :: r).takeWhile isDecimal).length := by
          show (if isDecimal d then _ else _) = _
          rw [if_pos hd]
        rw [e]
        exact run_seq_head _ _ st _ (1, []) (((d :: r).takeWhile isDecimal).length, []) (by simp [RE.run])
          (by
            have := takeWhile_length_pos isDecimal d r hd
            rw [run_plus]
            show (if ((d :: r).takeWhile isDecimal).length = 0 then _ else _) = _
            rw [if_neg (by omega)]
            rfl)
      · have e : fracLen (0x2E :: d :: r) = 0 := by
          show (if isDecimal d then _ else _) = _
          rw [if_neg hd]
        rw [e]; apply hopt
        simp [RE.run, hd]
    · have e : fracLen (c :: d :: r) = 0 := by
        unfold fracLen; split
        · next heq => simp at heq; exact absurd heq.1 h
        · rfl
      rw [e]; apply hopt
      simp [RE.run, h]

/-- What the optional percent sign matches. -/
def pctLen (s : Str) : Nat := match s with | 0x25 :: _ => 1 | _ => 0

theorem run_pct (st : Bool) (s : Str) : ((RE.opt (.cls (· == 0x25))).run st s).head? = some (pctLen s, []) := by
  cases s with
  | nil => rfl
  | cons c s =>
    by_cases h : c = 0x25
    · subst h; rfl
    · have : pctLen (c :: s) = 0 := by
        unfold pctLen; split
        · next heq => simp at heq; exact absurd heq.1 h
        · rfl
      rw [this]; simp [RE.run, h]

/-- Length of the match of `re_skip`. -/
def numLen (s : Str) : Nat :=
  let n := (s.takeWhile isAlnum).length
  n + (fracLen (s.drop n) + pctLen ((s.drop n).drop (fracLen (s.drop n))))

theorem run_number (st : Bool) (c : Ch) (s : Str) :
    (reSkipFinal.run st (c :: s)).head? =
      if isAlnum c then some (numLen (c :: s), [(1, (c :: s).take (numLen (c :: s)))]) else none := by
  unfold reSkipFinal
  rw [RE.run_grp 1 _ rfl, List.head?_map]
  by_cases h : isAlnum c = true
  · have hpos := takeWhile_length_pos isAlnum c s h
    have hh := run_seq_head (.plus isAlnum) (.seq (.opt (.seq (.cls (· == 0x2E)) (.plus isDecimal))) (.opt (.cls (· == 0x25)))) st (c :: s)
      (((c :: s).takeWhile isAlnum).length, []) _ (by rw [run_plus, if_neg (by omega)])
      (run_seq_head _ _ _ _ _ _ (run_frac _ _) (run_pct _ _))
    rw [hh, if_pos h]
    rfl
  · rw [if_neg h]
    have : (RE.run (.seq (.plus isAlnum) (.seq (.opt (.seq (.cls (· == 0x2E)) (.plus isDecimal))) (.opt (.cls (· == 0x25))))) st (c :: s)).head? = none := by
      simp [RE.run, h]
    rw [this]; rfl

theorem number_split (s : Str) (c : Ch) (h : isAlnum c = true) :
    ∃ w f p rest, c :: s = w ++ f ++ p ++ rest ∧ numLen (c :: s) = (w ++ f ++ p).length ∧ w ≠ [] ∧ (∀ c ∈ w, isAlnum c = true) ∧
      (∀ c, (f ++ p ++ rest).head? = some c → isAlnum c = false) ∧ Fraction f (p ++ rest) ∧ Percent p rest := by
  let w := (c :: s).takeWhile isAlnum
  let r1 := (c :: s).dropWhile isAlnum
  have e1 : c :: s = w ++ r1 := (List.takeWhile_append_dropWhile).symm
  have hd1 : (c :: s).drop w.length = r1 := drop_takeWhile_length _ _
  have hw : ∀ c ∈ w, isAlnum c = true := fun d hd => of_mem_takeWhile isAlnum _ d hd
  have hwn : w ≠ [] := by
    have := takeWhile_length_pos isAlnum c s h
    intro e; rw [show ((c :: s).takeWhile isAlnum) = [] from e] at this; simp at this
  have hr1 : ∀ d, r1.head? = some d → isAlnum d = false := fun d hd => head_dropWhile isAlnum _ d hd
  have hlen : numLen (c :: s) = w.length + (fracLen r1 + pctLen (r1.drop (fracLen r1))) := by
    show w.length + (fracLen ((c :: s).drop w.length) + pctLen (((c :: s).drop w.length).drop (fracLen ((c :: s).drop w.length)))) = _
    rw [hd1]
  clear_value w r1
  -- the decimals
  obtain ⟨f, r2, e2, hf, hfr⟩ : ∃ f r2, r1 = f ++ r2 ∧ fracLen r1 = f.length ∧ Fraction f r2 := by
    unfold fracLen
    split
    · next d r =>
      split
      · next hd =>
        refine ⟨0x2E :: (d :: r).takeWhile isDecimal, (d :: r).dropWhile isDecimal, ?_, by simp; omega, Or.inl
          ⟨_, ?_, rfl, fun x hx => of_mem_takeWhile _ _ _ hx, fun x hx => head_dropWhile _ _ _ hx⟩⟩
        · rw [List.cons_append, List.takeWhile_append_dropWhile]
        · simp [hd]
      · next hd =>
        refine ⟨[], _, rfl, rfl, Or.inr ⟨rfl, ?_⟩⟩
        intro d' r' e; simp at e; rw [← e.1]; simpa using hd
    · next hno =>
      refine ⟨[], r1, rfl, rfl, Or.inr ⟨rfl, ?_⟩⟩
      intro d r e; exact absurd e (hno d r)
  obtain ⟨p, r3, e3, hp, hpc⟩ : ∃ p r3, r2 = p ++ r3 ∧ pctLen r2 = p.length ∧ Percent p r3 := by
    unfold pctLen
    split
    · next r => exact ⟨[0x25], r, rfl, rfl, Or.inl rfl⟩
    · next hno =>
      refine ⟨[], r2, rfl, rfl, Or.inr ⟨rfl, ?_⟩⟩
      intro e
      cases r2 with
      | nil => simp at e
      | cons a r => simp at e; subst e; exact hno r rfl
  have hd2 : r1.drop (fracLen r1) = r2 := by rw [hf, e2]; simp
  subst e2; subst e3
  refine ⟨w, f, p, r3, by rw [e1]; simp, ?_, hwn, hw, by simpa using hr1, hfr, hpc⟩
  rw [hlen, hf, List.drop_left, hp]
  simp

theorem splitGo_number (fuel : Nat) (st : Bool) (acc s : Str) (hf : s.length < fuel) (hacc : ∀ c ∈ acc, isAlnum c = false) :
    NumberTokens (acc ++ s) ((reSkipFinal.splitGo fuel st acc s).filter (fun x => x ≠ [])) := by
  induction fuel generalizing st acc s with
  | zero => omega
  | succ fuel ih =>
    cases s with
    | nil =>
      simp only [RE.splitGo, List.append_nil]
      by_cases h : acc = []
      · subst h; exact NumberTokens.nil
      · simpa [h] using NumberTokens.other acc [] [] h hacc (by simp) .nil
    | cons c s =>
      by_cases h : isAlnum c = true
      · obtain ⟨w, f, p, rest, e, hlen, hw, hal, hmax, hfr, hpc⟩ := number_split s c h
        have hn : ∃ n, numLen (c :: s) = n + 1 := by
          refine ⟨numLen (c :: s) - 1, ?_⟩
          have : 0 < w.length := List.length_pos_iff.mpr hw
          rw [hlen]; simp; omega
        obtain ⟨n, hn⟩ := hn
        have hrun : (reSkipFinal.run st (c :: s)).head? = some (n + 1, [(1, w ++ f ++ p)]) := by
          rw [run_number, if_pos h, hn]
          congr 3
          rw [← hn, hlen, e, List.take_left]
        have hdrop : (c :: s).drop (n + 1) = rest := by rw [← hn, hlen, e, List.drop_left]
        have hstep : reSkipFinal.splitGo (fuel + 1) st acc (c :: s) =
            acc :: (w ++ f ++ p) :: reSkipFinal.splitGo fuel false [] rest := by
          show (match (reSkipFinal.run st (c :: s)).head? with
            | some (n + 1, caps) => acc :: (RE.group caps 1).getD [] :: reSkipFinal.splitGo fuel false [] ((c :: s).drop (n + 1))
            | _ => reSkipFinal.splitGo fuel false (acc ++ [c]) s) = _
          rw [hrun]
          simp only [hdrop]
          rfl
        have hrest : rest.length < fuel := by
          have := congrArg List.length e
          have hp : 0 < w.length := List.length_pos_iff.mpr hw
          simp at this; simp at hf; omega
        have ht := ih false [] rest hrest (by simp)
        rw [hstep, e]
        have hnum := NumberTokens.number w f p rest _ hw hal hmax hfr hpc ht
        have hne : (w ++ f ++ p) ≠ [] := by simp [hw]
        by_cases ha : acc = []
        · subst ha
          rw [List.filter_cons_of_neg (by simp), List.filter_cons_of_pos (p := fun x : Str => decide (x ≠ [])) (a := w ++ f ++ p) (decide_eq_true hne), List.nil_append]
          simpa using hnum
        · rw [List.filter_cons_of_pos (by simpa using ha), List.filter_cons_of_pos (p := fun x : Str => decide (x ≠ [])) (a := w ++ f ++ p) (decide_eq_true hne)]
          refine NumberTokens.other acc _ _ ha hacc ?_ (by simpa using hnum)
          intro d hd
          cases w with
          | nil => exact absurd rfl hw
          | cons x w => simp at hd; subst hd; exact hal _ (by simp)
      · have hrun : (reSkipFinal.run st (c :: s)).head? = none := by rw [run_number, if_neg h]
        have hstep : reSkipFinal.splitGo (fuel + 1) st acc (c :: s) = reSkipFinal.splitGo fuel false (acc ++ [c]) s := by
          show (match (reSkipFinal.run st (c :: s)).head? with
            | some (n + 1, caps) => acc :: (RE.group caps 1).getD [] :: reSkipFinal.splitGo fuel false [] ((c :: s).drop (n + 1))
            | _ => reSkipFinal.splitGo fuel false (acc ++ [c]) s) = _
          rw [hrun]
        rw [hstep]
        have := ih false (acc ++ [c]) s (by simp at hf; omega) (by
          intro d hd
          rcases List.mem_append.mp hd with hd | hd
          · exact hacc d hd
          · simp at hd; subst hd; simpa using h)
        simpa using this

theorem skip_tokens (s : Str) : NumberTokens s ((reSkipFinal.split s).filter (fun x => x ≠ [])) := by
  exact splitGo_number (s.length + 1) true [] s (by omega) (by simp)

theorem cut_eq_scan (A : Arith F) (T : Tables F) (force : List Str) (s : Str) :
    cut A T force s = scan isHan
      (fun blk => (hmmCut A T blk).mapOut (fun word => if word ∉ force then [word] else word.map (fun c => [c])))
      (fun blk => Gen.ok ((reSkipFinal.split blk).filter (fun x => x ≠ []))) s := by
  unfold cut scan reHan
  rw [forEach_split_plus isHan s _ (by rw [isMatch_plus]; rfl)]
  apply Gen.forEach_congr
  intro b hb
  have hne := chunks_ne_nil _ _ b hb
  rw [isMatch_eq_any _ _ b hne (chunks_uniform _ _ b hb)]

theorem cut_tokens (A : Arith F) (hA : MonoAdd A) (T : Tables F) (force : List Str) (s : Str) :
    ∃ ts, cut A T force s = Gen.ok ts ∧ FinalTokens A T force s ts := by
  rw [cut_eq_scan]
  generalize hn : s.length = n
  induction n using Nat.strong_induction_on generalizing s with
  | _ n ih =>
    cases s with
    | nil => exact ⟨[], rfl, .nil⟩
    | cons c s =>
      obtain ⟨u, rest, e, hu, hr⟩ := split_at_class isHan (isHan c) (c :: s)
      have hu0 : u ≠ [] := by
        rintro rfl
        simp at e
        have := hr c (by rw [← e]; rfl)
        cases hc : isHan c <;> rw [hc] at this <;> exact Bool.noConfusion this
      have hlen : rest.length < n := by
        have h1 := congrArg List.length e
        have h2 := List.length_pos_iff.mpr hu0
        rw [List.length_append] at h1; omega
      obtain ⟨ts, h1, h2⟩ := ih rest.length hlen rest rfl
      rw [e]
      cases hc : isHan c with
      | true =>
        rw [hc] at hu hr
        obtain ⟨tags, hb, hw⟩ := hmmCut_words A hA T u hu0
        refine ⟨_, ?_, FinalTokens.han u rest tags ts hu0 hu (by simpa using hr) hb h2⟩
        rw [scan_word isHan _ _ u rest hu0 hu (by simpa using hr), h1, hw]
        show Gen.andThen (Gen.ok _) _ = _
        rw [Gen.ok_andThen_ok]
        congr 3
        funext w
        by_cases h : w ∈ force <;> simp [h]
      | false =>
        rw [hc] at hu hr
        refine ⟨_, ?_, FinalTokens.other u rest _ ts hu0 hu (by simpa using hr) (skip_tokens u) h2⟩
        rw [scan_nonword isHan _ _ u rest hu0 hu (by simpa using hr), h1, Gen.ok_andThen_ok]

end Jieba.FinalSeg
