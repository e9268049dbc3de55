import Verif.Model.PosLazy
import Verif.Proofs.LazySolo
import Verif.Proofs.PosWorld
import Verif.Proofs.Posseg
/-!
# Lemmas about the generators of `posseg`
-/

set_option linter.unusedSectionVars false

namespace Jieba
namespace Co
open Pos

theorem Safe.onWorld {α β σ : Type} {E : σ → α → σ → Prop} {Q : β → σ → Prop} {c : Co World α β} {s : σ} (h : Safe E Q c s) :
    Safe E Q c.onWorld s := by
  induction c generalizing s with
  | ret b => exact h
  | raise e => trivial
  | yield a k ih => obtain ⟨s', h1, h2⟩ := h; exact ⟨s', h1, ih h2⟩
  | act f k ih => exact fun p => ih p.w (h p.w)

theorem Val.onWorld {α β : Type} {c : Co World α β} {p : PWorld} {r : Except PyErr β} (h : Val c p.w r) : Val c.onWorld p r := by
  have key : ∀ (c : Co World α β) (μ : Nat → PWorld → PWorld) (n : Nat) (q : PWorld) (w : World) (r : Except PyErr β),
      Co.drive (fun _ w => w) c n q.w = (w, [], r) → Co.drive μ c.onWorld n q = ({ q with w := w }, [], r) := by
    intro c
    induction c with
    | ret b => intro μ n q w r h; simp only [Co.drive, Prod.mk.injEq] at h; obtain ⟨rfl, -, rfl⟩ := h; rfl
    | raise e => intro μ n q w r h; simp only [Co.drive, Prod.mk.injEq] at h; obtain ⟨rfl, -, rfl⟩ := h; rfl
    | yield a k ih => intro μ n q w r h; simp [Co.drive] at h
    | act f k ih =>
      intro μ n q w r h
      simp only [Co.drive] at h
      exact ih q.w μ n { q with w := f q.w } w r h
  intro μ n
  exact key c μ n p p.w r (h _ _)

end Co

namespace Pos.Steps
open Co Jieba.Spec

variable {F : Type} [LinearOrder F] {α : Type}

/-! ## Losslessness under interference -/

/-- The next word is taken off the text that remains. -/
def NextPair (rest : Str) (a : Pair) (rest' : Str) : Prop := a.1 ≠ [] ∧ rest = a.1 ++ rest'

theorem trace_nextPair (l : List Pair) (rest : Str) (h : ∀ a ∈ l, a.1 ≠ []) :
    Trace NextPair ((l.map Prod.fst).flatten ++ rest) l rest := by
  induction l with
  | nil => exact .nil _
  | cons a l ih =>
    exact .cons _ _ ((l.map Prod.fst).flatten ++ rest) _ _ ⟨h a List.mem_cons_self, by simp⟩
      (ih (fun b hb => h b (List.mem_cons_of_mem _ hb)))

theorem trace_nextPair_iff {l : List Pair} {s rest : Str} (h : Trace NextPair s l rest) :
    s = (l.map Prod.fst).flatten ++ rest ∧ ∀ a ∈ l, a.1 ≠ [] := by
  induction h with
  | nil s => simp
  | cons s a s' l s'' h1 _ ih =>
    obtain ⟨h2, h3⟩ := h1
    refine ⟨by rw [h3, ih.1]; simp, ?_⟩
    intro b hb
    rcases List.mem_cons.mp hb with rfl | hb
    · exact h2
    · exact ih.2 b hb

/-- The generator `c` yields the words of `b` and leaves the rest for what follows. -/
def Takes (c : Co PWorld Pair Unit) (b : Str) : Prop := ∀ rest, Safe NextPair (fun _ r => r = rest) c (b ++ rest)

theorem Takes.ret : Takes (.ret ()) [] := fun _ => rfl

theorem Takes.bind {c d : Co PWorld Pair Unit} {a b : Str} (hc : Takes c a) (hd : Takes d b) :
    Takes (c >>= fun _ => d) (a ++ b) := by
  intro rest
  rw [bind_def, List.append_assoc]
  refine (hc (b ++ rest)).bind ?_
  rintro _ r rfl
  exact hd rest

theorem Takes.yieldAll {l : List Pair} {s : Str} (h : IsSegmentation (l.map Prod.fst) s) : Takes (Co.yieldAll l) s := by
  intro rest
  refine Safe.yieldAll ?_
  rw [← h.1]
  exact trace_nextPair l rest (fun a ha => h.2 _ (List.mem_map_of_mem ha))

theorem Takes.get {β : Type} {f : PWorld → β} {g : β → Co PWorld Pair Unit} {s : Str} (h : ∀ b, Takes (g b) s) :
    Takes (Co.get f >>= g) s := by
  intro rest
  rw [bind_def]
  refine Safe.get.bind ?_
  rintro b v rfl
  exact h b rest

theorem Takes.lossless {c : Co PWorld Pair Unit} {s : Str} (h : Takes c s) {l : List Pair} {r : Except PyErr Unit}
    (hr : Runs c l r) : Lossless ⟨l.map Prod.fst, Lazy.errOf r⟩ s := by
  have := h []
  rw [List.append_nil] at this
  obtain ⟨rest, h1, h2⟩ := this.run hr
  obtain ⟨h3, h4⟩ := trace_nextPair_iff h1
  refine ⟨?_, ⟨rest, h3.symm⟩, ?_⟩
  · intro a ha
    obtain ⟨q, hq, rfl⟩ := List.mem_map.mp ha
    exact h4 q hq
  · intro he
    cases r with
    | error e => cases he
    | ok u => rw [h2 u rfl] at h3; simpa using h3.symm

theorem yieldTagged_takes (k : Nat) (w : Str) (hw : w ≠ []) : Takes (yieldTagged k w) w :=
  Takes.get (fun _ => Takes.yieldAll ⟨by simp, by simpa using hw⟩)

theorem yieldEng_takes (buf : Str) : Takes (yieldEng buf) buf := by
  unfold yieldEng
  split
  · next h => subst h; exact Takes.ret
  · next h => exact Takes.yieldAll ⟨by simp, by simpa using h⟩

theorem yieldChars_takes (k : Nat) (s : Str) : Takes (yieldChars k s) s := by
  induction s with
  | nil => exact Takes.ret
  | cons c s ih => exact (yieldTagged_takes k [c] (by simp)).bind ih

theorem noHmmLoopL_takes (k : Nat) (s : Str) (route : List (F × Nat)) (hr : RouteWF s route) (fuel x : Nat) (buf : Str)
    (hf : s.length - x ≤ fuel) : Takes (noHmmLoopL k s route fuel x buf) (buf ++ s.drop x) := by
  induction fuel generalizing x buf with
  | zero =>
    rw [show s.drop x = [] from List.drop_eq_nil_of_le (by omega), List.append_nil]
    exact yieldEng_takes buf
  | succ fuel ih =>
    unfold noHmmLoopL
    by_cases hx : x < s.length
    · rw [if_pos hx]
      obtain ⟨r, h1, h2, h3⟩ := hr x hx
      rw [h1]
      simp only []
      have hs : slice s x (r.2 + 1) ++ s.drop (r.2 + 1) = s.drop x := slice_append_drop _ _ _ (by omega)
      split
      · have := ih (r.2 + 1) (buf ++ slice s x (r.2 + 1)) (by omega)
        rwa [List.append_assoc, hs] at this
      · rw [← hs]
        refine (yieldEng_takes buf).bind ?_
        have := ih (r.2 + 1) [] (by omega)
        rw [List.nil_append] at this
        exact (yieldTagged_takes k _ (slice_ne_nil s x (r.2 + 1) (by omega) hx)).bind this
    · rw [if_neg hx, show s.drop x = [] from List.drop_eq_nil_of_le (by omega), List.append_nil]
      exact yieldEng_takes buf

theorem ofGen_takes {g : Gen Pair} {s : Str} (h : ∃ ws, words g = Gen.ok ws ∧ IsSegmentation ws s) : Takes (ofGen g) s := by
  obtain ⟨ws, h1, h2⟩ := h
  obtain ⟨out, err⟩ := g
  unfold words Gen.ok at h1
  simp only [Gen.mk.injEq] at h1
  obtain ⟨h1, h3⟩ := h1
  subst h3
  unfold ofGen
  have := (Takes.yieldAll (l := out) (s := s) (by rw [h1]; exact h2)).bind Takes.ret
  rwa [List.append_nil] at this

theorem flushBufL_takes (P : PSys F) (hd : ∀ b, ∃ ws, words (cutDetail (detailEnv P) b) = Gen.ok ws ∧ IsSegmentation ws b)
    (k : Nat) (buf : Str) : Takes (flushBufL P k buf) buf := by
  unfold flushBufL
  split
  · next h => subst h; exact Takes.ret
  · next hne =>
    split
    · exact yieldTagged_takes k buf hne
    · refine Takes.get (fun freq => ?_)
      split
      · exact ofGen_takes (hd buf)
      · exact yieldChars_takes k buf

theorem dagCutLoopL_takes (P : PSys F) (hd : ∀ b, ∃ ws, words (cutDetail (detailEnv P) b) = Gen.ok ws ∧ IsSegmentation ws b)
    (k : Nat) (s : Str) (route : List (F × Nat)) (hr : RouteWF s route) (fuel x : Nat) (buf : Str)
    (hf : s.length - x ≤ fuel) : Takes (dagCutLoopL P k s route fuel x buf) (buf ++ s.drop x) := by
  induction fuel generalizing x buf with
  | zero =>
    rw [show s.drop x = [] from List.drop_eq_nil_of_le (by omega), List.append_nil]
    exact flushBufL_takes P hd k buf
  | succ fuel ih =>
    unfold dagCutLoopL
    by_cases hx : x < s.length
    · rw [if_pos hx]
      obtain ⟨r, h1, h2, h3⟩ := hr x hx
      rw [h1]
      simp only []
      have hs : slice s x (r.2 + 1) ++ s.drop (r.2 + 1) = s.drop x := slice_append_drop _ _ _ (by omega)
      split
      · have := ih (r.2 + 1) (buf ++ slice s x (r.2 + 1)) (by omega)
        rwa [List.append_assoc, hs] at this
      · rw [← hs]
        refine (flushBufL_takes P hd k buf).bind ?_
        have := ih (r.2 + 1) [] (by omega)
        rw [List.nil_append] at this
        exact (yieldTagged_takes k _ (slice_ne_nil s x (r.2 + 1) (by omega) hx)).bind this
    · rw [if_neg hx, show s.drop x = [] from List.drop_eq_nil_of_le (by omega), List.append_nil]
      exact flushBufL_takes P hd k buf

theorem routeL_safe {σ : Type} (E : σ → α → σ → Prop) (v : σ) (P : PSys F) (k : Nat) (io : Bool) (s : Str) :
    Safe E (fun r v' => RouteWF s r ∧ v' = v) (routeL P k io s) v := by
  unfold routeL
  rw [bind_def]
  refine Safe.get.bind ?_
  rintro t v' rfl
  refine (Lazy.getDAGL_safe E v' P.sys t io s).onWorld.bind ?_
  rintro dag v' ⟨hd, rfl⟩
  refine Safe.get.bind ?_
  rintro t v' rfl
  exact (Lazy.calcRouteL_safe E v' P.sys t s dag hd).onWorld

theorem cutBlockL_takes (P : PSys F) (k : Nat) (hm io : Bool)
    (hd : hm = true → ∀ b, ∃ ws, words (cutDetail (detailEnv P) b) = Gen.ok ws ∧ IsSegmentation ws b) (blk : Str) :
    Takes (cutBlockL P k hm io blk) blk := by
  intro rest
  unfold cutBlockL
  rw [bind_def]
  refine (routeL_safe _ (blk ++ rest) P k io blk).bind ?_
  rintro route v ⟨hr, rfl⟩
  split
  · next h =>
    have := dagCutLoopL_takes P (hd h) k blk route hr blk.length 0 [] (by omega) rest
    simpa using this
  · have := noHmmLoopL_takes k blk route hr blk.length 0 [] (by omega) rest
    simpa using this

theorem cutSkip_words (b : Str) : IsSegmentation ((cutSkip b).map Prod.fst) b := by
  have h : (cutSkip b).map Prod.fst = Jieba.cutSkip false b := by
    unfold cutSkip Jieba.cutSkip
    rw [List.map_flatMap]
    apply List.flatMap_congr
    intro x _
    split
    · rfl
    · simp only [Bool.not_false, if_true, List.map_map]
      apply List.map_congr_left
      intro c _
      simp only [Function.comp]
      split <;> [rfl; split <;> rfl]
  rw [h, cutSkip_false]
  exact charTokens_flatten b

theorem cutBlocksL_takes (P : PSys F) (k : Nat) (hm io : Bool)
    (hd : hm = true → ∀ b, ∃ ws, words (cutDetail (detailEnv P) b) = Gen.ok ws ∧ IsSegmentation ws b) (blks : List Str) :
    Takes (cutBlocksL P k hm io blks) blks.flatten := by
  induction blks with
  | nil => exact Takes.ret
  | cons b blks ih =>
    unfold cutBlocksL
    rw [List.flatten_cons]
    split
    · exact (cutBlockL_takes P k hm io hd b).bind ih
    · exact (Takes.yieldAll (cutSkip_words b)).bind ih

theorem moveTagsL_takes (k : Nat) : Takes (moveTagsL k) [] := by
  unfold moveTagsL
  refine Takes.get (fun b => ?_)
  split
  · exact fun rest _ _ => rfl
  · exact Takes.ret

theorem cutL_takes (P : PSys F) (k : Nat) (hm : Bool) (s : PyText) (io : Bool)
    (hd : hm = true → ∀ b, ∃ ws, words (cutDetail (detailEnv P) b) = Gen.ok ws ∧ IsSegmentation ws b) :
    Takes (cutL P k hm s io) (strdecode P.sys.gbk s) := by
  have := (moveTagsL_takes k).bind (cutBlocksL_takes P k hm io hd (reHanInternal.split (strdecode P.sys.gbk s)))
  rwa [List.nil_append,
    show (reHanInternal.split (strdecode P.sys.gbk s)).flatten = strdecode P.sys.gbk s from RE.split_flatten _ rfl _] at this

/-! ## Without interference -/

theorem sem_bind_ok {c d : Co PWorld Pair Unit} {p : PWorld} {g h : Gen Pair} (hc : sem c p = (p, g)) (hd : sem d p = (p, h)) :
    sem (c >>= fun _ => d) p = (p, Gen.andThen g h) := by
  rw [bind_def, sem_bind, hc]
  simp only []
  cases he : g.err with
  | some e => simp [Gen.andThen, he]
  | none => simp only []; rw [hd]

theorem sem_yieldTagged (k : Nat) (w : Str) (p : PWorld) :
    sem (yieldTagged k w) p = (p, Gen.ok [(w, tagOf (p.pos k).tab w)]) := by
  unfold yieldTagged
  rw [bind_def, (Val.get _ p).sem]
  exact sem_yieldAll _ _

theorem sem_yieldEng (buf : Str) (p : PWorld) :
    sem (yieldEng buf) p = (p, Gen.ok (if buf = [] then [] else [(buf, flagEng)])) := sem_yieldAll _ _

theorem sem_yieldChars (k : Nat) (s : Str) (p : PWorld) :
    sem (yieldChars k s) p = (p, Gen.ok (s.map (fun c => ([c], tagOf (p.pos k).tab [c])))) := by
  induction s with
  | nil => rfl
  | cons c s ih =>
    unfold yieldChars
    rw [sem_bind_ok (sem_yieldTagged k [c] p) ih]
    simp [Gen.andThen, Gen.ok]

theorem sem_noHmmLoopL (k : Nat) (s : Str) (route : List (F × Nat)) (fuel x : Nat) (buf : Str) (p : PWorld) :
    sem (noHmmLoopL k s route fuel x buf) p = (p, noHmmLoop (p.pos k).tab s route fuel x buf) := by
  induction fuel generalizing x buf with
  | zero => exact sem_yieldAll _ _
  | succ fuel ih =>
    unfold noHmmLoopL noHmmLoop
    by_cases hx : x < s.length
    · rw [if_pos hx, if_pos hx]
      cases route[x]? with
      | none => rfl
      | some r =>
        simp only []
        split
        · exact ih _ _
        · rw [sem_bind_ok (sem_yieldEng buf p) (sem_bind_ok (sem_yieldTagged k _ p) (ih _ _))]
          congr 1
          simp [Gen.andThen, Gen.ok]
    · rw [if_neg hx, if_neg hx]
      exact sem_yieldAll _ _

theorem sem_flushBufL (P : PSys F) (k : Nat) (buf : Str) (p : PWorld) :
    sem (flushBufL P k buf) p = (p, flushBuf (p.env P k) buf) := by
  unfold flushBufL flushBuf
  split
  · rfl
  · split
    · exact sem_yieldTagged k buf p
    · rw [bind_def, (Val.get _ p).sem]
      simp only []
      have he : (p.env P k).freq = (p.w.tok (p.pos k).tok).freq := rfl
      rw [he]
      split
      · rw [sem_ofGen]; rfl
      · exact sem_yieldChars k buf p

theorem sem_dagCutLoopL (P : PSys F) (k : Nat) (s : Str) (route : List (F × Nat)) (fuel x : Nat) (buf : Str) (p : PWorld) :
    sem (dagCutLoopL P k s route fuel x buf) p = (p, dagCutLoop (p.env P k) s route fuel x buf) := by
  induction fuel generalizing x buf with
  | zero => exact sem_flushBufL P k buf p
  | succ fuel ih =>
    unfold dagCutLoopL dagCutLoop
    by_cases hx : x < s.length
    · rw [if_pos hx, if_pos hx]
      cases route[x]? with
      | none => rfl
      | some r =>
        simp only []
        split
        · exact ih _ _
        · exact sem_bind_ok (sem_flushBufL P k buf p) (sem_bind_ok (sem_yieldTagged k _ p) (ih _ _))
    · rw [if_neg hx, if_neg hx]
      exact sem_flushBufL P k buf p

theorem sem_routeL (P : PSys F) (k : Nat) (io : Bool) (s : Str) (g : List (F × Nat) → Co PWorld Pair Unit) (p : PWorld) :
    sem (routeL P k io s >>= g) p =
      match checkInit P.sys p.w (p.pos k).tok io with
      | (w, .error e) => ({ p with w := w }, Gen.raise e)
      | (w, .ok ()) =>
        match calcRoute P.sys.A (w.tok (p.pos k).tok).freq (w.tok (p.pos k).tok).total s (getDAG (w.tok (p.pos k).tok).freq s) with
        | .error e => ({ p with w := w }, Gen.raise e)
        | .ok route => sem (g route) { p with w := w } := by
  unfold routeL Lazy.getDAGL
  simp only [bind_def, Co.get, Co.bind, onWorld, sem_act, id]
  generalize checkInit P.sys p.w (p.pos k).tok io = r
  obtain ⟨w, r⟩ := r
  cases r with
  | error e => rfl
  | ok u =>
    simp only []
    have h1 := Val.onWorld (p := { p with w := w }) (Lazy.dagRowsL_val (α := Pair) w (p.pos k).tok s (List.range s.length))
    have h2 : ∀ (c : Co PWorld Pair (List (List Nat))) (g1 : List (List Nat) → Co PWorld Pair (List (F × Nat)))
        (g2 : List (F × Nat) → Co PWorld Pair Unit), (c.bind g1).bind g2 = c.bind (fun b => (g1 b).bind g2) := by
      intro c g1 g2
      induction c with
      | ret b => rfl
      | raise e => rfl
      | yield a k ih => simp only [Co.bind, ih]
      | act f k ih => simp only [Co.bind, ih]
    rw [h2, h1.sem]
    simp only [Co.bind, sem_act, id]
    have h3 := Val.onWorld (p := { p with w := w }) (Lazy.calcRouteL_val (α := Pair) P.sys w (p.pos k).tok s (getDAG (w.tok (p.pos k).tok).freq s))
    have h4 := h3.sem g
    unfold getDAG at h4 ⊢
    rw [h4]
    cases calcRoute P.sys.A (w.tok (p.pos k).tok).freq (w.tok (p.pos k).tok).total s
      ((List.range s.length).map (dagRow (w.tok (p.pos k).tok).freq s)) <;> rfl

theorem sem_cutBlockL (P : PSys F) (k : Nat) (hm io : Bool) (blk : Str) (p : PWorld) :
    sem (cutBlockL P k hm io blk) p =
      match checkInit P.sys p.w (p.pos k).tok io with
      | (w, .error e) => ({ p with w := w }, Gen.raise e)
      | (w, .ok ()) => ({ p with w := w }, cutBlock (({ p with w := w } : PWorld).env P k) hm blk) := by
  unfold cutBlockL
  rw [sem_routeL]
  generalize checkInit P.sys p.w (p.pos k).tok io = r
  obtain ⟨w, r⟩ := r
  cases r with
  | error e => rfl
  | ok u =>
    simp only []
    unfold cutBlock cutDAG cutDAGNoHMM
    simp only [PWorld.env]
    cases calcRoute P.sys.A (w.tok (p.pos k).tok).freq (w.tok (p.pos k).tok).total blk (getDAG (w.tok (p.pos k).tok).freq blk) with
    | error e => cases hm <;> rfl
    | ok route =>
      simp only [Gen.ofExcept]
      split
      · exact sem_dagCutLoopL P k blk route _ _ _ { p with w := w }
      · exact sem_noHmmLoopL k blk route _ _ _ { p with w := w }

theorem sem_cutBlocksL (P : PSys F) (k : Nat) (hm io : Bool) (blks : List Str) (p : PWorld) :
    sem (cutBlocksL P k hm io blks) p = cutBlocksPW P k hm io p blks := by
  induction blks generalizing p with
  | nil => rfl
  | cons b blks ih =>
    unfold cutBlocksL cutBlocksPW
    by_cases hm' : reHanInternal.isMatch b = true
    · simp only [hm', if_true]
      rw [bind_def, sem_bind, sem_cutBlockL]
      generalize checkInit P.sys p.w (p.pos k).tok io = r
      obtain ⟨w, r⟩ := r
      cases r with
      | error e => rfl
      | ok u =>
        simp only []
        cases (cutBlock (({ p with w := w } : PWorld).env P k) hm b).err with
        | some e => rfl
        | none => simp only []; rw [ih]
    · simp only [hm']
      simp only [Bool.false_eq_true, if_false]
      rw [bind_def, sem_bind, sem_yieldAll]
      simp only [Gen.ok]
      rw [ih]

theorem sem_moveTagsL (k : Nat) (p : PWorld) : sem (moveTagsL k : Co PWorld Pair Unit) p = (moveTags p k, Gen.ok []) := by
  unfold moveTagsL moveTags
  rw [bind_def, (Val.get _ p).sem]
  simp only []
  by_cases h : (p.w.tok (p.pos k).tok).tags = []
  · simp only [h]; rfl
  · simp only [h, ne_eq, not_false_eq_true, decide_true, if_true]
    simp only [bind_def, Co.bind, sem_act, sem_ret, if_false, setPos_self]
    rfl

/-- Without interference the generator does what the sequential model says. -/
theorem sem_cutL (P : PSys F) (k : Nat) (hm : Bool) (s : PyText) (io : Bool) (p : PWorld) :
    sem (cutL P k hm s io) p = cutPW P p k hm s io := by
  unfold cutL cutPW
  rw [bind_def, sem_bind, sem_moveTagsL]
  simp only [Gen.ok]
  rw [sem_cutBlocksL]
  simp [Gen.andThen]

end Pos.Steps
end Jieba
