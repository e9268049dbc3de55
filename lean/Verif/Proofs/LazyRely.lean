import Verif.Proofs.LazySearch
import Verif.Proofs.Dict
/-!
# Generators when others only add and delete words

Rely-guarantee reasoning: between two accesses of the generator the state may change in accordance with a relation `R`.
-/

set_option linter.unusedSectionVars false

namespace Jieba
namespace Co
variable {W α β γ σ : Type}

/-- Runs in which the state changes only in accordance with `R` between two accesses. -/
inductive RunsUnder (R : W → W → Prop) : W → Co W α β → List α → Except PyErr β → Prop
  | ret (w b) : RunsUnder R w (.ret b) [] (.ok b)
  | raise (w e) : RunsUnder R w (.raise e) [] (.error e)
  | yield (w a k l r) : RunsUnder R w k l r → RunsUnder R w (.yield a k) (a :: l) r
  | act (w w' f k l r) : R w w' → RunsUnder R (f w') (k w') l r → RunsUnder R w (.act f k) l r

theorem RunsUnder.runs {R : W → W → Prop} {w : W} {c : Co W α β} {l : List α} {r : Except PyErr β} (h : RunsUnder R w c l r) :
    Runs c l r := by
  induction h with
  | ret w b => exact .ret b
  | raise w e => exact .raise e
  | yield w a k l r _ ih => exact .yield _ _ _ _ ih
  | act w w' f k l r _ _ ih => exact .act _ _ w' _ _ ih

theorem drive_runsUnder (R : W → W → Prop) (hrefl : ∀ w, R w w) (htrans : ∀ a b c, R a b → R b c → R a c) (μ : Nat → W → W)
    (hμ : ∀ n w, R w (μ n w)) (c : Co W α β) (n : Nat) (w0 w : W) (h : R w0 w) :
    RunsUnder R w0 c (drive μ c n w).2.1 (drive μ c n w).2.2 := by
  induction c generalizing n w0 w with
  | ret b => exact .ret _ b
  | raise e => exact .raise _ e
  | yield a k ih => exact .yield _ _ _ _ _ (ih _ _ _ (htrans _ _ _ h (hμ n w)))
  | act f k ih => exact .act _ w _ _ _ _ h (ih _ _ _ _ (hrefl _))

/-- No run under `R` from `w` raises, and `Q` holds of result and state at the end. -/
def NoRaise (R : W → W → Prop) (Q : β → W → Prop) : Co W α β → W → Prop
  | .ret b, w => Q b w
  | .raise _, _ => False
  | .yield _ k, w => NoRaise R Q k w
  | .act f k, w => ∀ w', R w w' → NoRaise R Q (k w') (f w')

theorem NoRaise.run {R : W → W → Prop} {Q : β → W → Prop} {c : Co W α β} {w : W} (h : NoRaise R Q c w) {l : List α}
    {r : Except PyErr β} (hr : RunsUnder R w c l r) : ∃ b, r = .ok b := by
  induction hr with
  | ret w b => exact ⟨b, rfl⟩
  | raise w e => exact absurd h id
  | yield w a k l r _ ih => exact ih h
  | act w w' f k l r hR _ ih => exact ih (h w' hR)

theorem NoRaise.bind {R : W → W → Prop} {Q' : β → W → Prop} {Q : γ → W → Prop} {c : Co W α β} {g : β → Co W α γ} {w : W}
    (h : NoRaise R Q' c w) (hg : ∀ b w', Q' b w' → NoRaise R Q (g b) w') : NoRaise R Q (c >>= g) w := by
  rw [bind_def]
  induction c generalizing w with
  | ret b => exact hg b w h
  | raise e => exact absurd h id
  | yield a k ih => exact ih h
  | act f k ih => exact fun w' hR => ih w' (h w' hR)

theorem NoRaise.mono {R : W → W → Prop} {Q' Q : β → W → Prop} {c : Co W α β} {w : W}
    (h : NoRaise R Q' c w) (hq : ∀ b w', Q' b w' → Q b w') : NoRaise R Q c w := by
  induction c generalizing w with
  | ret b => exact hq b w h
  | raise e => exact absurd h id
  | yield a k ih => exact ih h
  | act f k ih => exact fun w' hR => ih w' (h w' hR)

theorem NoRaise.get {R : W → W → Prop} {f : W → β} {w : W} :
    NoRaise R (fun b w' => R w w' ∧ b = f w') (Co.get f : Co W α β) w := fun _ hR => ⟨hR, rfl⟩

theorem NoRaise.lift {R : W → W → Prop} {Q : β → W → Prop} {x : Except PyErr β} {b : β} {w : W} (h : x = .ok b) (hq : Q b w) :
    NoRaise R Q (Co.lift x : Co W α β) w := by subst h; exact hq

theorem NoRaise.yieldAll {R : W → W → Prop} {Q : Unit → W → Prop} (l : List α) {w : W} (hq : Q () w) :
    NoRaise R Q (Co.yieldAll l : Co W α Unit) w := by
  induction l with
  | nil => exact hq
  | cons a l ih => exact ih

end Co

namespace Lazy
open Co Jieba.Spec

variable {F : Type} [LinearOrder F] {α : Type}

/-- An initialised tokenizer with a sane table: no negative frequency, positive total. -/
structure Healthy (t : Nat) (w : World) : Prop where
  init : (w.tok t).initialized = true
  nonneg : NonNeg (w.tok t).freq
  total : 0 < (w.tok t).total

/-- The tokenizer stays healthy and loses no key. -/
def Grows (t : Nat) (w w' : World) : Prop :=
  Healthy t w → Healthy t w' ∧ ∀ k, PyDict.has (w.tok t).freq k = true → PyDict.has (w'.tok t).freq k = true

theorem Grows.refl (t : Nat) (w : World) : Grows t w w := fun h => ⟨h, fun _ hk => hk⟩

theorem Grows.trans (t : Nat) (a b c : World) (h1 : Grows t a b) (h2 : Grows t b c) : Grows t a c := fun h =>
  ⟨(h2 (h1 h).1).1, fun k hk => (h2 (h1 h).1).2 k ((h1 h).2 k hk)⟩

theorem dagLoopL_noRaise (t : Nat) (s : Str) (k fuel i : Nat) (frag : Str) (acc : List Nat) (w : World) (hw : Healthy t w)
    (hi : k ≤ i) (hacc : ∀ x ∈ acc, k ≤ x ∧ x < s.length) :
    NoRaise (Grows t) (fun r w' => (∀ x ∈ r, k ≤ x ∧ x < s.length) ∧ Healthy t w') (dagLoopL t s k fuel i frag acc : Co World α _) w := by
  induction fuel generalizing i frag acc w with
  | zero => exact ⟨hacc, hw⟩
  | succ fuel ih =>
    unfold dagLoopL
    split
    · next hlt =>
      refine NoRaise.get.bind ?_
      rintro b w1 ⟨hR, rfl⟩
      have h1 := (hR hw).1
      split
      · next hb =>
        refine NoRaise.get.bind ?_
        rintro o w2 ⟨hR2, rfl⟩
        obtain ⟨v, hv⟩ := (PyDict.has_iff _ _).mp ((hR2 h1).2 _ hb)
        rw [hv]
        refine ih _ _ _ w2 (hR2 h1).1 (by omega) ?_
        intro x hx
        split at hx
        · rcases List.mem_append.mp hx with h | h
          · exact hacc x h
          · simp only [List.mem_singleton] at h; subst h; exact ⟨hi, hlt⟩
        · exact hacc x hx
      · exact ⟨hacc, h1⟩
    · exact ⟨hacc, hw⟩

theorem dagRowsL_noRaise (t : Nat) (s : Str) (ks : List Nat) (hk : ∀ k ∈ ks, k < s.length) (w : World) (hw : Healthy t w) :
    NoRaise (Grows t) (fun (r : List (List Nat)) w' =>
      (r.length = ks.length ∧ ∀ (i : Nat) (L : List Nat), r[i]? = some L → ∃ k, ks[i]? = some k ∧ RowOK s k L) ∧ Healthy t w')
      (dagRowsL t s ks : Co World α _) w := by
  induction ks generalizing w with
  | nil => exact ⟨⟨rfl, by simp⟩, hw⟩
  | cons k ks ih =>
    unfold dagRowsL
    refine NoRaise.bind (Q' := fun L w' => RowOK s k L ∧ Healthy t w') ?_ ?_
    · unfold dagRowL
      refine (dagLoopL_noRaise t s k _ _ _ _ w hw (le_refl k) (by simp)).bind ?_
      rintro L w' ⟨hL, hw'⟩
      refine ⟨?_, hw'⟩
      split
      · exact ⟨by simp, by simp; exact hk k List.mem_cons_self⟩
      · next h => exact ⟨h, hL⟩
    · rintro L w' ⟨hL, hw'⟩
      refine (ih (fun k h => hk k (List.mem_cons_of_mem _ h)) w' hw').bind ?_
      rintro Ls w'' ⟨⟨hlen, hLs⟩, hw''⟩
      refine ⟨⟨by simp [hlen], ?_⟩, hw''⟩
      intro i L' hi
      cases i with
      | zero => simp only [List.getElem?_cons_zero, Option.some.injEq] at hi; subst hi; exact ⟨k, by simp, hL⟩
      | succ i => simp only [List.getElem?_cons_succ] at hi ⊢; exact hLs i L' hi

theorem getDAGL_noRaise (S : Sys F) (t : Nat) (io : Bool) (s : Str) (w : World) (hw : Healthy t w) :
    NoRaise (Grows t) (fun r w' => (r.length = s.length ∧ DagOK s r) ∧ Healthy t w') (getDAGL S t io s : Co World α _) w := by
  unfold getDAGL
  intro w' hR
  have h1 := (hR hw).1
  simp only [checkInit_of_init S w' t io h1.init]
  refine (dagRowsL_noRaise t s _ (by simp) w' h1).mono ?_
  rintro r w'' ⟨⟨hlen, h⟩, hw''⟩
  refine ⟨⟨by simpa using hlen, ?_⟩, hw''⟩
  intro k L hL
  obtain ⟨k', h1, h2⟩ := h k L hL
  have : k' = k := by
    rw [List.getElem?_eq_some_iff] at h1
    obtain ⟨hlt, h1⟩ := h1
    simpa using h1.symm
  subst this; exact h2

theorem edgesL_noRaise (S : Sys F) (t : Nat) (lt : F) (s : Str) (tail : List (F × Nat)) (idx : Nat) (htl : idx + tail.length = s.length)
    (L : List Nat) (hL : ∀ x ∈ L, idx ≤ x ∧ x < s.length) (w : World) (hw : Healthy t w) :
    NoRaise (Grows t) (fun r w' => (r.length = L.length ∧ ∀ c ∈ r, c.2 ∈ L) ∧ Healthy t w')
      (edgesL S t lt s tail idx L : Co World α _) w := by
  induction L generalizing w with
  | nil => exact ⟨⟨rfl, by simp⟩, hw⟩
  | cons x L ih =>
    unfold edgesL
    refine NoRaise.get.bind ?_
    rintro freq w1 ⟨hR, rfl⟩
    have h1 := (hR hw).1
    obtain ⟨hx1, hx2⟩ := hL x List.mem_cons_self
    obtain ⟨r, hr⟩ : ∃ r, tail[x - idx]? = some r := ⟨tail[x - idx]'(by omega), List.getElem?_eq_getElem _⟩
    have he : edgeScore S.A (w1.tok t).freq lt s tail idx x =
        .ok (S.A.add (S.A.sub (S.A.log (scoreFreq (w1.tok t).freq (slice s idx (x + 1))).toNat) lt) r.1, x) := by
      unfold edgeScore
      simp only [freqOr1_eq, Arith.pylog, scoreFreq_pos _ h1.nonneg, if_true, Bind.bind, Except.bind, if_neg (show ¬ x < idx by omega), hr]
    refine (NoRaise.lift (Q := fun c w' => c.2 = x ∧ Healthy t w') he ⟨rfl, h1⟩).bind ?_
    rintro c w2 ⟨hc, hw2⟩
    refine (ih (fun y hy => hL y (List.mem_cons_of_mem _ hy)) w2 hw2).bind ?_
    rintro cs w3 ⟨⟨hlen, hcs⟩, hw3⟩
    refine ⟨⟨by simp [hlen], ?_⟩, hw3⟩
    intro c' hc'
    rcases List.mem_cons.mp hc' with rfl | h
    · rw [hc]; exact List.mem_cons_self
    · exact List.mem_cons_of_mem _ (hcs c' h)

theorem calcLoopL_noRaise (S : Sys F) (t : Nat) (lt : F) (s : Str) (dag : List (List Nat)) (hlen : dag.length = s.length)
    (hd : DagOK s dag) (n : Nat) (hn : n ≤ s.length) (tail : List (F × Nat)) (ht : TailOK s n tail) (w : World) (hw : Healthy t w) :
    NoRaise (Grows t) (fun r w' => RouteWF s r ∧ Healthy t w') (calcLoopL S t lt s dag n tail : Co World α _) w := by
  induction n generalizing tail w with
  | zero => exact ⟨fun x hx => by simpa using ht.2 x (Nat.zero_le _) hx, hw⟩
  | succ n ih =>
    unfold calcLoopL
    obtain ⟨L, hL⟩ : ∃ L, dag[n]? = some L := ⟨dag[n]'(by omega), List.getElem?_eq_getElem _⟩
    rw [hL]
    have hrow := hd n L hL
    refine (edgesL_noRaise S t lt s tail n (by have := ht.1; omega) L hrow.2 w hw).bind ?_
    rintro cands w1 ⟨⟨hcl, hc⟩, hw1⟩
    obtain ⟨best, hb⟩ := maxTup_exists cands (by
      intro e; rw [e] at hcl; exact hrow.1 (List.length_eq_zero_iff.mp hcl.symm))
    refine (NoRaise.lift (Q := fun b w' => b = best ∧ Healthy t w') hb ⟨rfl, hw1⟩).bind ?_
    rintro b w2 ⟨rfl, hw2⟩
    refine ih (by omega) _ ⟨by simp only [List.length_cons, ht.1]; omega, ?_⟩ w2 hw2
    intro x hx hlt
    rcases Nat.eq_or_lt_of_le hx with rfl | hx'
    · refine ⟨b, by simp, ?_⟩
      exact hrow.2 _ (hc _ ((maxTup_spec _ _ hb).1))
    · obtain ⟨r, h1, h2⟩ := ht.2 x hx' hlt
      refine ⟨r, ?_, h2⟩
      rw [show x - n = (x - (n + 1)) + 1 from by omega, List.getElem?_cons_succ]
      exact h1

theorem calcRouteL_noRaise (S : Sys F) (t : Nat) (s : Str) (dag : List (List Nat)) (hlen : dag.length = s.length)
    (hd : DagOK s dag) (w : World) (hw : Healthy t w) :
    NoRaise (Grows t) (fun r w' => RouteWF s r ∧ Healthy t w') (calcRouteL S t s dag : Co World α _) w := by
  unfold calcRouteL
  refine NoRaise.get.bind ?_
  rintro total w1 ⟨hR, rfl⟩
  have h1 := (hR hw).1
  have hl : S.A.pylog (w1.tok t).total = .ok (S.A.log (w1.tok t).total.toNat) := by
    unfold Arith.pylog; rw [if_pos h1.total]
  refine (NoRaise.lift (Q := fun _ w' => Healthy t w') hl h1).bind ?_
  intro lt w2 hw2
  exact calcLoopL_noRaise S t lt s dag hlen hd s.length (le_refl _) _ ⟨by simp, fun x h1 h2 => absurd h1 (by omega)⟩ w2 hw2

/-- `c` never raises in healthy states, and leaves a healthy state behind. -/
def Calm (t : Nat) (c : Co World α Unit) : Prop := ∀ w, Healthy t w → NoRaise (Grows t) (fun _ w' => Healthy t w') c w

theorem Calm.bind {t : Nat} {c d : Co World α Unit} (hc : Calm t c) (hd : Calm t d) : Calm t (c >>= fun _ => d) :=
  fun w hw => (hc w hw).bind (fun _ w' hw' => hd w' hw')

theorem Calm.yieldAll {t : Nat} (l : List α) : Calm t (Co.yieldAll l : Co World α Unit) := fun _ hw => NoRaise.yieldAll l hw

theorem Calm.ret {t : Nat} : Calm t (.ret () : Co World α Unit) := fun _ hw => hw

theorem Calm.get {t : Nat} {β : Type} {f : World → β} {g : β → Co World α Unit} (h : ∀ b, Calm t (g b)) :
    Calm t (Co.get f >>= g) := by
  intro w hw
  refine NoRaise.get.bind ?_
  rintro b w1 ⟨hR, -⟩
  exact h b w1 (hR hw).1

theorem forceLoopL_calm (t : Nat) (ws : List Str) : Calm t (forceLoopL ws) := by
  induction ws with
  | nil => exact Calm.ret
  | cons word ws ih =>
    unfold forceLoopL
    refine Calm.get (fun force => ?_)
    split <;> exact (Calm.yieldAll _).bind ih

theorem finalsegBlocksL_calm (t : Nat) (S : Sys F) (blks : List Str) : Calm t (finalsegBlocksL S blks) := by
  induction blks with
  | nil => exact Calm.ret
  | cons blk blks ih =>
    unfold finalsegBlocksL
    by_cases hm : reHan.isMatch blk = true
    · simp only [hm, if_true]
      have hne : blk ≠ [] := by rintro rfl; simp [reHan, isMatch_plus] at hm
      obtain ⟨ws, hws, -⟩ := FinalSeg.hmmCut_spec S.A S.tables blk hne
      rw [hws]
      exact (forceLoopL_calm t ws).bind ih
    · simp only [hm]
      exact (Calm.yieldAll _).bind ih

theorem flushBufL_calm (S : Sys F) (t : Nat) (buf : Str) : Calm t (flushBufL S t buf) := by
  unfold flushBufL
  split
  · exact Calm.ret
  · split
    · exact Calm.yieldAll _
    · refine Calm.get (fun freq => ?_)
      split
      · exact finalsegBlocksL_calm t S _
      · exact Calm.yieldAll _

theorem dagCutLoopL_calm (S : Sys F) (t : Nat) (s : Str) (route : List (F × Nat)) (hr : RouteWF s route) (fuel x : Nat) (buf : Str) :
    Calm t (dagCutLoopL S t s route fuel x buf) := by
  induction fuel generalizing x buf with
  | zero => exact flushBufL_calm S t buf
  | succ fuel ih =>
    unfold dagCutLoopL
    by_cases hx : x < s.length
    · rw [if_pos hx]
      obtain ⟨r, h1, h2, h3⟩ := hr x hx
      rw [h1]
      simp only []
      split
      · exact ih _ _
      · exact (flushBufL_calm S t buf).bind ((Calm.yieldAll _).bind (ih _ _))
    · rw [if_neg hx]
      exact flushBufL_calm S t buf

theorem cutBlockL_calm (S : Sys F) (t : Nat) (ca hm io : Bool) (blk : Str) : Calm t (cutBlockL S t ca hm io blk) := by
  have key : ∀ k : List (F × Nat) → Co World Str Unit, (∀ route, RouteWF blk route → Calm t (k route)) →
      Calm t (getDAGL S t io blk >>= fun dag => calcRouteL S t blk dag >>= k) := by
    intro k hk w hw
    refine (getDAGL_noRaise S t io blk w hw).bind ?_
    rintro dag w1 ⟨⟨hlen, hd⟩, hw1⟩
    refine (calcRouteL_noRaise S t blk dag hlen hd w1 hw1).bind ?_
    rintro route w2 ⟨hr, hw2⟩
    exact hk route hr w2 hw2
  unfold cutBlockL
  split
  · intro w hw
    unfold cutAllL
    refine (getDAGL_noRaise S t io blk w hw).bind ?_
    rintro dag w1 ⟨-, hw1⟩
    exact Calm.yieldAll _ w1 hw1
  · split
    · exact key _ (fun route hr => dagCutLoopL_calm S t blk route hr _ _ _)
    · refine key _ (fun route hr => ?_)
      rw [noHmmLoop_eq blk route hr blk.length 0 [] (by omega)]
      exact (Calm.yieldAll _).bind Calm.ret

theorem cutL_calm (S : Sys F) (t : Nat) (ca hm : Bool) (s : PyText) (io : Bool) : Calm t (cutL S t ca hm s io) := by
  unfold cutL
  induction reHanDefault.split (strdecode S.gbk s) with
  | nil => exact Calm.ret
  | cons b blks ih =>
    unfold cutBlocksL
    split
    · exact ih
    · by_cases hm' : reHanDefault.isMatch b = true
      · simp only [hm', if_true]; exact (cutBlockL_calm S t ca hm io b).bind ih
      · simp only [hm']; exact (Calm.yieldAll _).bind ih

/-- Adding or deleting a word with a frequency that is not negative keeps a tokenizer healthy. -/
theorem grows_addFreq (t u : Nat) (w : World) (word : Str) (f : Int) (hf : 0 ≤ f) (tag : Option Str) :
    Grows t w (addFreq w u word f tag) := by
  intro h
  by_cases hu : t = u
  · subst hu
    have := addFreq_tok_self w t word f tag
    refine ⟨⟨?_, ?_, ?_⟩, ?_⟩
    · rw [this]; exact h.init
    · rw [this]; exact nonNeg_register _ _ _ h.nonneg hf
    · rw [this]; have := h.total; simp only []; omega
    · intro k hk; rw [this]; exact (register_has _ _ _ _).mpr (Or.inr (Or.inl hk))
  · have := addFreq_tok_ne w u t word f tag hu
    exact ⟨⟨by rw [this]; exact h.init, by rw [this]; exact h.nonneg, by rw [this]; exact h.total⟩, by rw [this]; exact fun k hk => hk⟩

/-- So does storing one entry of the table, or increasing the total: the single steps of `add_word` in another thread. -/
theorem grows_setEntry (t : Nat) (w : World) (word : Str) (f : Int) (hf : 0 ≤ f) :
    Grows t w (w.setTok t { w.tok t with freq := (w.tok t).freq.set word f }) := by
  intro h
  have ht : (w.setTok t { w.tok t with freq := (w.tok t).freq.set word f }).tok t = { w.tok t with freq := (w.tok t).freq.set word f } := by
    rw [setTok_tok, if_pos rfl]
  refine ⟨⟨by rw [ht]; exact h.init, ?_, by rw [ht]; exact h.total⟩, ?_⟩
  · rw [ht]
    intro k v hk
    simp only [PyDict.get?_set] at hk
    split at hk
    · cases hk; exact hf
    · exact h.nonneg k v hk
  · intro k hk
    rw [ht]
    simp only [PyDict.has, PyDict.get?_set] at hk ⊢
    split
    · rfl
    · exact hk

theorem grows_addTotal (t : Nat) (w : World) (f : Int) (hf : 0 ≤ f) :
    Grows t w (w.setTok t { w.tok t with total := (w.tok t).total + f }) := by
  intro h
  have ht : (w.setTok t { w.tok t with total := (w.tok t).total + f }).tok t = { w.tok t with total := (w.tok t).total + f } := by
    rw [setTok_tok, if_pos rfl]
  refine ⟨⟨by rw [ht]; exact h.init, by rw [ht]; exact h.nonneg, ?_⟩, by rw [ht]; exact fun k hk => hk⟩
  rw [ht]; have := h.total; simp only []; omega

end Lazy
end Jieba
