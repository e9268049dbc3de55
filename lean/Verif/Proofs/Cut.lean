import Verif.Model.Tokenizer
import Verif.Spec.Dictionary
import Verif.Spec.Text
import Verif.Proofs.Dag
/-!
# Lemmas about `cut`: decomposition into blocks, losslessness
-/

set_option linter.unusedSectionVars false

namespace Jieba
open Jieba.Spec

/-! ## Lossless generators -/

theorem Spec.Lossless.ok {ws : List Str} {s : Str} (h : IsSegmentation ws s) : Lossless (Gen.ok ws) s :=
  ⟨h.2, by simp [h.1], fun _ => h.1⟩

theorem Spec.Lossless.raise (e : PyErr) (s : Str) : Lossless (Gen.raise e) s :=
  ⟨by simp, by simp, by simp⟩

theorem Spec.Lossless.andThen {g h : Gen Str} {a b : Str} (hg : Lossless g a) (hh : Lossless h b) :
    Lossless (Gen.andThen g h) (a ++ b) := by
  obtain ⟨go, ge⟩ := g
  cases ge with
  | some e =>
    refine ⟨hg.nonempty, ?_, by simp [Gen.andThen]⟩
    exact hg.isPrefix.trans (List.prefix_append _ _)
  | none =>
    have hc := hg.complete rfl
    simp only at hc
    refine ⟨?_, ?_, ?_⟩
    · intro w hw
      rcases List.mem_append.mp hw with hw | hw
      · exact hg.nonempty w hw
      · exact hh.nonempty w hw
    · simp only [Gen.andThen, List.flatten_append, hc]
      exact (List.prefix_append_right_inj a).mpr hh.isPrefix
    · intro he
      simp only [Gen.andThen, List.flatten_append, hc]
      rw [hh.complete he]

theorem Spec.Lossless.forEach {l : List Str} {f : Str → Gen Str} (h : ∀ b ∈ l, Lossless (f b) b) :
    Lossless (Gen.forEach l f) l.flatten := by
  induction l with
  | nil => exact Lossless.ok ⟨rfl, by simp⟩
  | cons b l ih =>
    exact (h b (by simp)).andThen (ih (fun b' hb' => h b' (by simp [hb'])))

/-! ## Scanning a text run by run -/

/-- Process maximal runs: `fW` on runs of `p`-characters, `fN` on the others. -/
def scan {β : Type _} (p : Ch → Bool) (fW fN : Str → Gen β) (s : Str) : Gen β :=
  Gen.forEach (chunks p s) (fun blk => if blk.any p then fW blk else fN blk)

theorem scan_nil {β} (p : Ch → Bool) (fW fN : Str → Gen β) : scan p fW fN [] = Gen.ok [] := rfl

theorem scan_word {β} (p : Ch → Bool) (fW fN : Str → Gen β) (u rest : Str) (hu : u ≠ []) (hp : ∀ c ∈ u, p c = true)
    (hr : ∀ d, rest.head? = some d → p d = false) :
    scan p fW fN (u ++ rest) = Gen.andThen (fW u) (scan p fW fN rest) := by
  unfold scan
  rw [chunks_uniform_append p true u rest hu hp (by simpa using hr), Gen.forEach_cons]
  have : u.any p = true := by
    cases u with
    | nil => exact absurd rfl hu
    | cons c u => simp [hp c (by simp)]
  rw [if_pos this]

theorem scan_nonword {β} (p : Ch → Bool) (fW fN : Str → Gen β) (u rest : Str) (hu : u ≠ [])
    (hp : ∀ c ∈ u, p c = false) (hr : ∀ d, rest.head? = some d → p d = true) :
    scan p fW fN (u ++ rest) = Gen.andThen (fN u) (scan p fW fN rest) := by
  unfold scan
  rw [chunks_uniform_append p false u rest hu hp (by simpa using hr), Gen.forEach_cons]
  have : ¬ u.any p = true := by
    intro h
    obtain ⟨c, hc, h⟩ := List.any_eq_true.mp h
    rw [hp c hc] at h; exact Bool.noConfusion h
  rw [if_neg this]

theorem split_at_class (p : Ch → Bool) (v : Bool) (s : Str) :
    ∃ u rest, s = u ++ rest ∧ (∀ c ∈ u, p c = v) ∧ (∀ d, rest.head? = some d → p d = !v) := by
  refine ⟨s.takeWhile (fun c => p c == v), s.dropWhile (fun c => p c == v), List.takeWhile_append_dropWhile.symm, ?_, ?_⟩
  · intro c hc
    have := of_mem_takeWhile _ _ _ hc
    simpa using this
  · intro d hd
    have := head_dropWhile _ _ _ hd
    cases hv : v <;> cases hp : p d <;> simp_all

/-- Scanning when the non-word handler is compositional (given by `tok` on a list level). -/
theorem scan_nonword_prefix {β} (p : Ch → Bool) (fW : Str → Gen β) (tok : Str → List β) (u rest : Str)
    (hnil : tok [] = []) (hp : ∀ c ∈ u, p c = false)
    (hsplit : ∀ v, (∀ c ∈ v, p c = false) → v <+: rest → tok (u ++ v) = tok u ++ tok v) :
    scan p fW (fun b => Gen.ok (tok b)) (u ++ rest) =
      Gen.andThen (Gen.ok (tok u)) (scan p fW (fun b => Gen.ok (tok b)) rest) := by
  by_cases hu : u = []
  · subst hu; simp [hnil]
  obtain ⟨v, rest', rfl, hv, hr⟩ := split_at_class p false rest
  by_cases hv0 : v = []
  · subst hv0
    rw [List.nil_append]
    exact scan_nonword p _ _ u rest' hu hp (by simpa using hr)
  · rw [scan_nonword p _ _ v rest' hv0 hv (by simpa using hr), ← List.append_assoc,
      scan_nonword p _ _ (u ++ v) rest' (by simp [hu])
        (by intro c hc; rcases List.mem_append.mp hc with h | h; exact hp c h; exact hv c h) (by simpa using hr),
      hsplit v hv (List.prefix_append _ _), ← Gen.andThen_assoc, Gen.ok_andThen_ok]

theorem scan_lossless (p : Ch → Bool) (fW fN : Str → Gen Str) (s : Str)
    (hW : ∀ b, b ≠ [] → (∀ c ∈ b, p c = true) → Lossless (fW b) b)
    (hN : ∀ b, b ≠ [] → (∀ c ∈ b, p c = false) → Lossless (fN b) b) : Lossless (scan p fW fN s) s := by
  unfold scan
  have := Lossless.forEach (l := chunks p s) (f := fun blk => if blk.any p then fW blk else fN blk) ?_
  · rwa [chunks_flatten] at this
  · intro b hb
    have hne := chunks_ne_nil p s b hb
    rcases chunks_uniform p s b hb with h | h
    · have : b.any p = true := by
        cases b with
        | nil => exact absurd rfl hne
        | cons c u => simp [h c (by simp)]
      rw [if_pos this]; exact hW b hne h
    · have : ¬ b.any p = true := by
        intro h'
        obtain ⟨c, hc, h'⟩ := List.any_eq_true.mp h'
        rw [h c hc] at h'; exact Bool.noConfusion h'
      rw [if_neg this]; exact hN b hne h

/-! ## charTokens -/

theorem charTokens_flatten (s : Str) : (charTokens s).flatten = s ∧ ∀ w ∈ charTokens s, w ≠ [] := by
  induction s using charTokens.induct with
  | case1 s ih => simp [charTokens, ih]; exact ih.2
  | case2 c s h ih => rw [charTokens.eq_2 c s h]; simp [ih]; exact ih.2
  | case3 => simp [charTokens]

theorem charTokens_append (a b : Str) (h : ∀ x y, a.getLast? = some x → b.head? = some y → ¬ (x = 0x0D ∧ y = 0x0A)) :
    charTokens (a ++ b) = charTokens a ++ charTokens b := by
  induction a using charTokens.induct with
  | case1 s ih =>
    simp only [List.cons_append, charTokens, ih (by
      intro x y hx hy
      exact h x y (by cases s with | nil => simp at hx | cons c s => simpa [List.getLast?_cons_cons] using hx) hy)]
  | case2 c s hc ih =>
    have hc' : ∀ s', c = 13 → s ++ b = 10 :: s' → False := by
      intro s' e1 e2
      cases s with
      | nil =>
        simp at e2
        exact h c 10 (by simp) (by simp [e2]) ⟨e1, rfl⟩
      | cons d s => simp at e2; exact hc s e1 (by rw [e2.1])
    rw [List.cons_append, charTokens.eq_2 c (s ++ b) hc', charTokens.eq_2 c s hc, ih (by
      intro x y hx hy
      exact h x y (by cases s with | nil => simp at hx | cons c s => simpa [List.getLast?_cons_cons] using hx) hy)]
    rfl
  | case3 => rfl

/-! ## re_skip_default -/

theorem run_skip_head (st : Bool) (c : Ch) (s : Str) :
    (reSkipDefault.run st (c :: s)).head? =
      if c = 0x0D ∧ s.head? = some 0x0A then some (2, [(1, [0x0D, 0x0A])])
      else if isSpace c then some (1, [(1, [c])]) else none := by
  unfold reSkipDefault
  rw [RE.run_grp _ _ rfl]
  by_cases hc : c = 0x0D
  · subst hc
    cases s with
    | nil => simp [RE.run, isSpace]
    | cons d s =>
      by_cases hd : d = 0x0A
      · subst hd; simp [RE.run]
      · simp [RE.run, hd, isSpace]
  · by_cases hs : isSpace c = true
    · simp [RE.run, hc, hs]
    · simp [RE.run, hc, hs]

theorem skip_isMatch (s : Str) : reSkipDefault.isMatch s = (match s with | [] => false | c :: _ => isSpace c) := by
  unfold RE.isMatch RE.pmatch
  cases s with
  | nil => rfl
  | cons c s =>
    rw [run_skip_head]
    by_cases h : c = 0x0D ∧ s.head? = some 0x0A
    · rw [if_pos h]; obtain ⟨rfl, _⟩ := h; rfl
    · rw [if_neg h]; cases hs : isSpace c <;> simp [hs]

/-- What `re_skip.split` does, piece by piece. -/
theorem splitGo_skip_cons (fuel : Nat) (st : Bool) (acc : Str) (c : Ch) (s : Str) :
    reSkipDefault.splitGo (fuel + 1) st acc (c :: s) =
      if c = 0x0D ∧ s.head? = some 0x0A then acc :: [0x0D, 0x0A] :: reSkipDefault.splitGo fuel false [] s.tail
      else if isSpace c then acc :: [c] :: reSkipDefault.splitGo fuel false [] s
      else reSkipDefault.splitGo fuel false (acc ++ [c]) s := by
  conv_lhs => unfold RE.splitGo
  rw [run_skip_head]
  by_cases h : c = 0x0D ∧ s.head? = some 0x0A
  · rw [if_pos h, if_pos h]
    cases s with
    | nil => simp at h
    | cons d s => simp [RE.group]
  · rw [if_neg h, if_neg h]
    by_cases hs : isSpace c = true
    · simp [hs, RE.group]
    · simp [hs]

theorem splitGo_skip_nil (fuel : Nat) (st : Bool) (acc : Str) : reSkipDefault.splitGo fuel st acc [] = [acc] := by
  cases fuel <;> simp [RE.splitGo]

private theorem tok_acc (acc : Str) (h : ∀ c ∈ acc, isSpace c = false) :
    (if reSkipDefault.isMatch acc then [acc] else acc.map (fun c => [c])) = charTokens acc := by
  have hm : reSkipDefault.isMatch acc = false := by
    rw [skip_isMatch]
    cases acc with
    | nil => rfl
    | cons c s => exact h c (by simp)
  rw [hm]
  simp only [Bool.false_eq_true, if_false]
  induction acc with
  | nil => rfl
  | cons c s ih =>
    rw [charTokens.eq_2 c s (by intro s' e; subst e; have := h 13 (by simp); simp [isSpace] at this)]
    rw [List.map_cons, ih (fun c hc => h c (by simp [hc]))]
    rw [skip_isMatch]
    cases s with
    | nil => rfl
    | cons d s => exact h d (by simp)

theorem skip_pieces (fuel : Nat) (st : Bool) (acc s : Str) (hf : s.length ≤ fuel) (hacc : ∀ c ∈ acc, isSpace c = false) :
    (reSkipDefault.splitGo fuel st acc s).flatMap (fun x =>
      if reSkipDefault.isMatch x then [x] else x.map (fun c => [c])) = charTokens (acc ++ s) := by
  induction fuel generalizing st acc s with
  | zero =>
    have : s = [] := List.length_eq_zero_iff.mp (by omega)
    subst this
    rw [splitGo_skip_nil]
    simp [tok_acc acc hacc]
  | succ fuel ih =>
    cases s with
    | nil =>
      rw [splitGo_skip_nil]
      simp [tok_acc acc hacc]
    | cons c s =>
      rw [splitGo_skip_cons]
      have happ : charTokens (acc ++ c :: s) = charTokens acc ++ charTokens (c :: s) := by
        apply charTokens_append
        rintro x y hx hy ⟨rfl, -⟩
        have := hacc 13 (List.mem_of_getLast? hx)
        simp [isSpace] at this
      rw [happ]
      by_cases h : c = 0x0D ∧ s.head? = some 0x0A
      · rw [if_pos h]
        obtain ⟨rfl, h⟩ := h
        cases s with
        | nil => simp at h
        | cons d s =>
          simp at h; subst h
          simp only [List.flatMap_cons, List.tail_cons, tok_acc acc hacc, ih false [] s (by simp at hf; omega) (by simp),
            charTokens, List.nil_append]
          rw [skip_isMatch]; simp [isSpace]
      · rw [if_neg h]
        have hne : ∀ s', c = 13 → s = 10 :: s' → False := by
          rintro s' rfl rfl; exact h ⟨rfl, rfl⟩
        by_cases hs : isSpace c = true
        · rw [if_pos hs]
          simp only [List.flatMap_cons, tok_acc acc hacc, ih false [] s (by simp at hf; omega) (by simp),
            charTokens.eq_2 c s hne, List.nil_append]
          rw [skip_isMatch]; simp [hs]
        · rw [if_neg hs, ih false (acc ++ [c]) s (by simp at hf; omega)
            (by intro d hd; rcases List.mem_append.mp hd with h | h; exact hacc d h; simp at h; subst h; simpa using hs)]
          rw [← happ]; simp

theorem cutSkip_false (s : Str) : cutSkip false s = charTokens s := by
  unfold cutSkip RE.split
  simpa using skip_pieces (s.length + 1) true [] s (by omega) (by simp)

theorem cutSkip_true (s : Str) : cutSkip true s = reSkipDefault.split s := by
  unfold cutSkip
  simp

/-! ## cut as a scan -/

variable {F : Type _} [LinearOrder F]

theorem isMatch_eq_any (p : Ch → Bool) (n : Nat) (b : Str) (hne : b ≠ [])
    (h : (∀ c ∈ b, p c = true) ∨ (∀ c ∈ b, p c = false)) : (RE.grp n (.plus p)).isMatch b = b.any p := by
  rw [isMatch_plus]
  cases b with
  | nil => exact absurd rfl hne
  | cons c b =>
    rcases h with h | h
    · simp [h c (by simp)]
    · have : (c :: b).any p = false := by
        rw [List.any_eq_false]; intro x hx; rw [h x hx]; simp
      rw [this]; exact h c (by simp)

theorem cut_eq_scan (E : Env F) (ca hm : Bool) (s : Str) :
    cut E ca hm s = scan isWordCh (cutBlock E ca hm) (fun b => Gen.ok (cutSkip ca b)) s := by
  unfold cut scan reHanDefault
  rw [forEach_split_plus _ _ _ (by simp)]
  apply Gen.forEach_congr
  intro b hb
  have hne := chunks_ne_nil _ _ b hb
  rw [if_neg hne, isMatch_eq_any _ _ b hne (chunks_uniform _ _ b hb)]

/-- Accurate mode: word runs go to the block cutter, everything else is output character by character. -/
theorem cut_accurate_eq_scan (E : Env F) (hm : Bool) (s : Str) :
    cut E false hm s = scan isWordCh (cutBlock E false hm) (fun b => Gen.ok (charTokens b)) s := by
  rw [cut_eq_scan]; simp only [cutSkip_false]

/-! ## Block cutters -/

theorem mergeEng_flatten (buf : Str) (ws : List Str) (h : ∀ w ∈ ws, w ≠ []) :
    (mergeEng buf ws).flatten = buf ++ ws.flatten ∧ ∀ w ∈ mergeEng buf ws, w ≠ [] := by
  induction ws generalizing buf with
  | nil => unfold mergeEng; by_cases hb : buf = [] <;> simp [hb]
  | cons w ws ih =>
    have h0 := h w (by simp)
    have h1 : ∀ w ∈ ws, w ≠ [] := fun x hx => h x (by simp [hx])
    unfold mergeEng
    split
    · obtain ⟨i1, i2⟩ := ih (buf ++ w) h1
      exact ⟨by simp [i1], i2⟩
    · obtain ⟨i1, i2⟩ := ih [] h1
      by_cases hb : buf = []
      · simp [hb, i1, h0]; exact i2
      · simp [hb, i1, h0]; exact i2

theorem flushBuf_lossless (freq : Freq) (hmm : Str → Gen Str) (hh : ∀ s, s ≠ [] → Lossless (hmm s) s) (buf : Str) :
    Lossless (flushBuf freq hmm buf) buf := by
  unfold flushBuf
  split
  · rename_i h; subst h; exact Lossless.ok ⟨rfl, by simp⟩
  · rename_i hne
    split
    · exact Lossless.ok ⟨by simp, by simpa using hne⟩
    · split
      · exact hh buf hne
      · exact Lossless.ok ⟨FinalSeg.flatten_map_singleton _, by simp⟩

theorem regroup_lossless (freq : Freq) (hmm : Str → Gen Str) (hh : ∀ s, s ≠ [] → Lossless (hmm s) s) (buf : Str)
    (ws : List Str) (h : ∀ w ∈ ws, w ≠ []) : Lossless (regroup freq hmm buf ws) (buf ++ ws.flatten) := by
  induction ws generalizing buf with
  | nil => unfold regroup; simpa using flushBuf_lossless freq hmm hh buf
  | cons w ws ih =>
    unfold regroup
    split
    · have := ih (buf ++ w) (fun x hx => h x (by simp [hx]))
      simpa using this
    · have := (flushBuf_lossless freq hmm hh buf).andThen
        ((Lossless.ok (ws := [w]) (s := w) ⟨by simp, by simpa using h w (by simp)⟩).andThen
          (ih [] (fun x hx => h x (by simp [hx]))))
      simpa using this

theorem cutDAGNoHMM_lossless (A : Arith F) (freq : Freq) (total : Int) (s : Str) :
    Lossless (cutDAGNoHMM A freq total s) s := by
  unfold cutDAGNoHMM
  cases h : calcRoute A freq total s (getDAG freq s) with
  | error e => exact Lossless.raise _ _
  | ok route =>
    have hr := routeWF_of_calc A freq total s route h
    simp only [Gen.ofExcept_ok]
    rw [noHmmLoop_eq s route hr _ _ _ (by omega)]
    obtain ⟨h1, h2⟩ := pathFrom_flatten s route hr s.length 0 (by omega)
    obtain ⟨h3, h4⟩ := mergeEng_flatten [] _ h2
    exact Lossless.ok ⟨by rw [h3, h1]; simp, h4⟩

theorem hmm_lossless (E : Env F) (s : Str) : Lossless (E.hmm s) s := by
  obtain ⟨ws, h1, h2⟩ := FinalSeg.cut_spec E.A E.tables E.force s
  unfold Env.hmm; rw [h1]; exact Lossless.ok h2

theorem cutDAG_lossless (A : Arith F) (freq : Freq) (total : Int) (hmm : Str → Gen Str)
    (hh : ∀ s, s ≠ [] → Lossless (hmm s) s) (s : Str) : Lossless (cutDAG A freq total hmm s) s := by
  unfold cutDAG
  cases h : calcRoute A freq total s (getDAG freq s) with
  | error e => exact Lossless.raise _ _
  | ok route =>
    have hr := routeWF_of_calc A freq total s route h
    simp only [Gen.ofExcept_ok]
    rw [dagCutLoop_eq _ _ s route hr _ _ _ (by omega)]
    obtain ⟨h1, h2⟩ := pathFrom_flatten s route hr s.length 0 (by omega)
    have := regroup_lossless freq hmm hh [] _ h2
    rw [h1] at this
    simpa using this

theorem cut_lossless (E : Env F) (hm : Bool) (s : Str) : Lossless (cut E false hm s) s := by
  rw [cut_accurate_eq_scan]
  apply scan_lossless
  · intro b _ _
    cases hm
    · exact cutDAGNoHMM_lossless _ _ _ _
    · exact cutDAG_lossless _ _ _ _ (fun s _ => hmm_lossless E s) _
  · intro b _ _
    exact Lossless.ok (charTokens_flatten b)

/-! ## Locality -/

theorem scan_append {β} (fW : Str → Gen β) (f : Str → β) (p : Ch → Bool) (a b : Str) (h : CleanBoundary p a b) :
    scan p fW (fun b => Gen.ok ((charTokens b).map f)) (a ++ b) =
      Gen.andThen (scan p fW (fun b => Gen.ok ((charTokens b).map f)) a) (scan p fW (fun b => Gen.ok ((charTokens b).map f)) b) := by
  generalize hn : a.length = n
  induction n using Nat.strong_induction_on generalizing a with
  | _ n ih =>
    cases a with
    | nil => simp [scan_nil]
    | cons c a =>
      cases hc : p c with
      | true =>
        obtain ⟨u, rest, hsplit, hu, hr⟩ := split_at_class p true (c :: a)
        have hu0 : u ≠ [] := by
          rintro rfl
          simp at hsplit
          have := hr c (by rw [← hsplit]; rfl)
          rw [hc] at this; exact Bool.noConfusion this
        rw [hsplit] at h ⊢
        have hlast : ∀ x, rest.getLast? = some x → (u ++ rest).getLast? = some x := by
          intro x hx
          rw [List.getLast?_append_of_ne_nil _ (by rintro rfl; simp at hx)]; exact hx
        rw [List.append_assoc, scan_word p _ _ u (rest ++ b) hu0 hu, scan_word p _ _ u rest hu0 hu (by simpa using hr),
          Gen.andThen_assoc]
        · congr 1
          apply ih rest.length _ rest _ rfl
          · have := congrArg List.length hsplit
            have : 0 < u.length := List.length_pos_of_ne_nil hu0
            simp at *; omega
          · intro x y hx hy; exact h x y (hlast x hx) hy
        · intro d hd
          cases rest with
          | cons e rest => simp at hd; subst hd; simpa using hr e rfl
          | nil =>
            simp at hd
            have hul := u.getLast?_eq_some_getLast hu0
            have := (h (u.getLast hu0) d (by simpa using hul) hd).1
            rw [hu _ (List.getLast_mem hu0)] at this
            simpa using this
      | false =>
        obtain ⟨u, rest, hsplit, hu, hr⟩ := split_at_class p false (c :: a)
        have hu0 : u ≠ [] := by
          rintro rfl
          simp at hsplit
          have := hr c (by rw [← hsplit]; rfl)
          rw [hc] at this; exact Bool.noConfusion this
        rw [hsplit] at h ⊢
        have hlast : ∀ x, rest.getLast? = some x → (u ++ rest).getLast? = some x := by
          intro x hx
          rw [List.getLast?_append_of_ne_nil _ (by rintro rfl; simp at hx)]; exact hx
        have hlen : rest.length < n := by
          have := congrArg List.length hsplit
          have : 0 < u.length := List.length_pos_of_ne_nil hu0
          simp at *; omega
        rw [List.append_assoc, scan_nonword p _ _ u rest hu0 hu (by simpa using hr),
          scan_nonword_prefix p fW (fun b => (charTokens b).map f) u (rest ++ b) rfl hu, Gen.andThen_assoc]
        · congr 1
          exact ih rest.length hlen rest (fun x y hx hy => h x y (hlast x hx) hy) rfl
        · intro v hv hvp
          rw [← List.map_append]
          congr 1
          apply charTokens_append
          intro x y hx hy hxy
          cases rest with
          | cons e rest =>
            have he := hr e rfl
            cases v with
            | nil => simp at hy
            | cons f v =>
              simp at hvp hy
              subst hy
              rw [hvp.1] at hv
              have := hv e (by simp)
              rw [he] at this; simp at this
          | nil =>
            cases v with
            | nil => simp at hy
            | cons f v =>
              simp at hy; subst hy
              refine (h x f (by simpa using hx) ?_).2 hxy
              obtain ⟨t, ht⟩ := hvp
              simp at ht; rw [← ht]; rfl

theorem cut_append (E : Env F) (hm : Bool) (a b : Str) (h : CleanBoundary isWordCh a b) :
    cut E false hm (a ++ b) = Gen.andThen (cut E false hm a) (cut E false hm b) := by
  simp only [cut_accurate_eq_scan]
  simpa using scan_append (cutBlock E false hm) id isWordCh a b h

end Jieba
