import Verif.Model.Lazy
import Verif.Proofs.WorldLossless
/-!
# Lemmas about running generators
-/

set_option linter.unusedSectionVars false

namespace Jieba
namespace Co
variable {W α α' β γ σ τ : Type}

theorem bind_def (c : Co W α β) (g : β → Co W α γ) : (c >>= g) = Co.bind c g := rfl
theorem pure_def (b : β) : (pure b : Co W α β) = .ret b := rfl

/-! ## Runs with arbitrary interference -/

/-- Each value is yielded in agreement with `E` (a relation between ghost state before, value, ghost state after), and `Q` holds
at the end. -/
def Safe (E : σ → α → σ → Prop) (Q : β → σ → Prop) : Co W α β → σ → Prop
  | .ret b, s => Q b s
  | .raise _, _ => True
  | .yield a k, s => ∃ s', E s a s' ∧ Safe E Q k s'
  | .act _ k, s => ∀ w, Safe E Q (k w) s

inductive Trace (E : σ → α → σ → Prop) : σ → List α → σ → Prop
  | nil (s) : Trace E s [] s
  | cons (s a s' l s'') : E s a s' → Trace E s' l s'' → Trace E s (a :: l) s''

theorem Safe.run {E : σ → α → σ → Prop} {Q : β → σ → Prop} {c : Co W α β} {s : σ} (h : Safe E Q c s) {l : List α}
    {r : Except PyErr β} (hr : Runs c l r) : ∃ s', Trace E s l s' ∧ ∀ b, r = .ok b → Q b s' := by
  induction hr generalizing s with
  | ret b => exact ⟨s, .nil s, fun b' hb => by cases hb; exact h⟩
  | raise e => exact ⟨s, .nil s, fun b' hb => by cases hb⟩
  | yield a k l r _ ih =>
    obtain ⟨s', h1, h2⟩ := h
    obtain ⟨s'', h3, h4⟩ := ih h2
    exact ⟨s'', .cons _ _ _ _ _ h1 h3, h4⟩
  | act f k w l r _ ih => exact ih (h w)

theorem Safe.bind {E : σ → α → σ → Prop} {Q' : β → σ → Prop} {Q : γ → σ → Prop} {c : Co W α β} {g : β → Co W α γ} {s : σ}
    (h : Safe E Q' c s) (hg : ∀ b s', Q' b s' → Safe E Q (g b) s') : Safe E Q (Co.bind c g) s := by
  induction c generalizing s with
  | ret b => exact hg b s h
  | raise e => trivial
  | yield a k ih => obtain ⟨s', h1, h2⟩ := h; exact ⟨s', h1, ih h2⟩
  | act f k ih => exact fun w => ih w (h w)

theorem Safe.mono {E : σ → α → σ → Prop} {Q' Q : β → σ → Prop} {c : Co W α β} {s : σ}
    (h : Safe E Q' c s) (hq : ∀ b s', Q' b s' → Q b s') : Safe E Q c s := by
  induction c generalizing s with
  | ret b => exact hq b s h
  | raise e => trivial
  | yield a k ih => obtain ⟨s', h1, h2⟩ := h; exact ⟨s', h1, ih h2⟩
  | act f k ih => exact fun w => ih w (h w)

theorem Safe.get {E : σ → α → σ → Prop} {f : W → β} {s : σ} : Safe E (fun _ s' => s' = s) (Co.get f : Co W α β) s := fun _ => rfl

theorem Safe.lift {E : σ → α → σ → Prop} {x : Except PyErr β} {s : σ} :
    Safe E (fun b s' => x = .ok b ∧ s' = s) (Co.lift x : Co W α β) s := by
  cases x with
  | error e => trivial
  | ok b => exact ⟨rfl, rfl⟩

theorem Safe.yieldAll {E : σ → α → σ → Prop} {l : List α} {s s' : σ} (h : Trace E s l s') :
    Safe E (fun _ s'' => s'' = s') (Co.yieldAll l : Co W α Unit) s := by
  induction h with
  | nil s => rfl
  | cons s a s' l s'' h1 _ ih => exact ⟨s', h1, ih⟩

/-- Iterating over a generator. -/
theorem Safe.forIn {E : σ → α → σ → Prop} {Q : Unit → σ → Prop} {E' : τ → α' → τ → Prop} {Q' : γ → τ → Prop}
    {I : σ → γ → τ → Prop} {body : α → γ → Co W α' γ}
    (hbody : ∀ s a s' v g, E s a s' → I s g v → Safe E' (fun g' v' => I s' g' v') (body a g) v)
    (hend : ∀ s g v, Q () s → I s g v → Q' g v)
    {c : Co W α Unit} {s : σ} (h : Safe E Q c s) {g : γ} {v : τ} (hi : I s g v) : Safe E' Q' (Co.forIn c body g) v := by
  induction c generalizing s g v with
  | ret b => exact hend s g v h hi
  | raise e => trivial
  | yield a k ih =>
    obtain ⟨s', h1, h2⟩ := h
    exact (hbody s a s' v g h1 hi).bind (fun g' v' hi' => ih h2 hi')
  | act f k ih => exact fun w => ih w (h w) hi

/-! ## Runs with interference by the caller -/

theorem drive_runs (μ : Nat → W → W) (c : Co W α β) (n : Nat) (w : W) : Runs c (drive μ c n w).2.1 (drive μ c n w).2.2 := by
  induction c generalizing n w with
  | ret b => exact .ret b
  | raise e => exact .raise e
  | yield a k ih => exact .yield _ _ _ _ (ih _ _)
  | act f k ih => exact .act _ _ w _ _ (ih _ _ _)

theorem drive_bind (μ : Nat → W → W) (c : Co W α β) (g : β → Co W α γ) (n : Nat) (w : W) :
    drive μ (Co.bind c g) n w =
      match (drive μ c n w).2.2 with
      | .error e => ((drive μ c n w).1, (drive μ c n w).2.1, .error e)
      | .ok b => let q := drive μ (g b) (n + (drive μ c n w).2.1.length) (drive μ c n w).1
        (q.1, (drive μ c n w).2.1 ++ q.2.1, q.2.2) := by
  induction c generalizing n w with
  | ret b => simp [Co.bind, drive]
  | raise e => simp [Co.bind, drive]
  | yield a k ih =>
    simp only [Co.bind, drive]
    rw [ih]
    cases (drive μ k (n + 1) (μ n w)).2.2 with
    | error e => rfl
    | ok b =>
      simp only [List.length_cons, List.cons_append]
      rw [show n + 1 + (drive μ k (n + 1) (μ n w)).2.1.length = n + ((drive μ k (n + 1) (μ n w)).2.1.length + 1) from by omega]
  | act f k ih => simp only [Co.bind, drive]; exact ih w n (f w)

/-- `c` yields nothing and leaves the state alone: in state `w` it ends with `r`, whatever the caller does. -/
def Val (c : Co W α β) (w : W) (r : Except PyErr β) : Prop := ∀ μ n, drive μ c n w = (w, [], r)

theorem Val.ret (b : β) (w : W) : Val (.ret b : Co W α β) w (.ok b) := fun _ _ => rfl
theorem Val.raise (e : PyErr) (w : W) : Val (.raise e : Co W α β) w (.error e) := fun _ _ => rfl
theorem Val.get (f : W → β) (w : W) : Val (Co.get f : Co W α β) w (.ok (f w)) := fun _ _ => rfl
theorem Val.lift (x : Except PyErr β) (w : W) : Val (Co.lift x : Co W α β) w x := by cases x <;> exact fun _ _ => rfl

theorem Val.drive {c : Co W α β} {w : W} {b : β} (h : Val c w (.ok b)) (g : β → Co W α γ) (μ : Nat → W → W) (n : Nat) :
    drive μ (Co.bind c g) n w = drive μ (g b) n w := by
  rw [drive_bind, h μ n]; simp

theorem Val.drive_error {c : Co W α β} {w : W} {e : PyErr} (h : Val c w (.error e)) (g : β → Co W α γ) (μ : Nat → W → W) (n : Nat) :
    Co.drive μ (Co.bind c g) n w = (w, [], .error e) := by
  rw [drive_bind, h μ n]

theorem Val.bind {c : Co W α β} {w : W} {b : β} {g : β → Co W α γ} {r : Except PyErr γ} (h : Val c w (.ok b)) (hg : Val (g b) w r) :
    Val (Co.bind c g) w r := fun μ n => by rw [h.drive, hg μ n]

theorem Val.bind_error {c : Co W α β} {w : W} {e : PyErr} {g : β → Co W α γ} (h : Val c w (.error e)) :
    Val (Co.bind c g) w (.error e) := fun μ n => h.drive_error g μ n

/-! ## Runs without interference -/

/-- The generator as a whole. -/
def sem (c : Co W α Unit) (w : W) : W × Gen α :=
  let r := drive (fun _ w => w) c 0 w
  (r.1, ⟨r.2.1, match r.2.2 with | .ok _ => none | .error e => some e⟩)

theorem drive_id (c : Co W α β) (n m : Nat) (w : W) : drive (fun _ w => w) c n w = drive (fun _ w => w) c m w := by
  induction c generalizing n m w with
  | ret b => rfl
  | raise e => rfl
  | yield a k ih => simp only [drive]; rw [ih (n + 1) (m + 1)]
  | act f k ih => simp only [drive]; exact ih _ _ _ _

theorem sem_bind (c : Co W α Unit) (g : Unit → Co W α Unit) (w : W) :
    sem (Co.bind c g) w =
      match (sem c w).2.err with
      | some e => ((sem c w).1, ⟨(sem c w).2.out, some e⟩)
      | none => ((sem (g ()) (sem c w).1).1, Gen.andThen (sem c w).2 (sem (g ()) (sem c w).1).2) := by
  unfold sem
  simp only []
  rw [drive_bind]
  cases h : (drive (fun _ w => w) c 0 w).2.2 with
  | error e => rfl
  | ok b =>
    simp only [Gen.andThen]
    rw [drive_id (g b) _ 0]

theorem Val.sem {c : Co W α β} {w : W} {r : Except PyErr β} (h : Val c w r) (g : β → Co W α Unit) :
    Co.sem (Co.bind c g) w = match (generalizing := false) r with
      | .error e => (w, Gen.raise e)
      | .ok b => Co.sem (g b) w := by
  unfold Co.sem
  cases r with
  | error e => rw [h.drive_error]; rfl
  | ok b => rw [h.drive]

theorem sem_ret (w : W) : sem (.ret () : Co W α Unit) w = (w, Gen.ok []) := rfl
theorem sem_raise (e : PyErr) (w : W) : sem (.raise e : Co W α Unit) w = (w, Gen.raise e) := rfl

theorem sem_act (f : W → W) (k : W → Co W α Unit) (w : W) : sem (.act f k) w = sem (k w) (f w) := rfl

theorem drive_yieldAll (l : List α) (n : Nat) (w : W) :
    drive (fun _ w => w) (yieldAll l : Co W α Unit) n w = (w, l, .ok ()) := by
  induction l generalizing n with
  | nil => rfl
  | cons a l ih => simp only [yieldAll, drive, ih]

theorem sem_yieldAll (l : List α) (w : W) : sem (yieldAll l : Co W α Unit) w = (w, Gen.ok l) := by
  unfold sem; rw [drive_yieldAll]; rfl

theorem sem_ofGen (g : Gen α) (w : W) : sem (ofGen g : Co W α Unit) w = (w, g) := by
  obtain ⟨out, err⟩ := g
  unfold ofGen
  rw [bind_def, sem_bind, sem_yieldAll]
  simp only [Gen.ok]
  cases err with
  | none => simp [sem_ret, Gen.andThen, Gen.ok]
  | some e => simp [sem_raise, Gen.andThen, Gen.raise]

end Co

namespace Lazy
open Co Jieba.Spec

variable {F : Type} [LinearOrder F] {α σ : Type}

/-! ## The parts that yield nothing: interference -/

theorem dagLoopL_safe (E : σ → α → σ → Prop) (v : σ) (t : Nat) (s : Str) (k fuel i : Nat) (frag : Str) (acc : List Nat)
    (hi : k ≤ i) (hacc : ∀ x ∈ acc, k ≤ x ∧ x < s.length) :
    Safe E (fun r v' => (∀ x ∈ r, k ≤ x ∧ x < s.length) ∧ v' = v) (dagLoopL t s k fuel i frag acc) v := by
  induction fuel generalizing i frag acc with
  | zero => exact ⟨hacc, rfl⟩
  | succ fuel ih =>
    unfold dagLoopL
    split
    · next hlt =>
      refine Safe.get.bind ?_
      rintro b v' rfl
      split
      · refine Safe.get.bind ?_
        rintro o v' rfl
        cases o with
        | none => trivial
        | some n =>
          refine ih _ _ _ (by omega) ?_
          intro x hx
          split at hx
          · rcases List.mem_append.mp hx with h | h
            · exact hacc x h
            · simp only [List.mem_singleton] at h; subst h; exact ⟨hi, hlt⟩
          · exact hacc x hx
      · exact ⟨hacc, rfl⟩
    · exact ⟨hacc, rfl⟩

/-- The entry of the DAG for `k` is good: not empty, and within the text. -/
def RowOK (s : Str) (k : Nat) (L : List Nat) : Prop := L ≠ [] ∧ ∀ x ∈ L, k ≤ x ∧ x < s.length

theorem dagRowL_safe (E : σ → α → σ → Prop) (v : σ) (t : Nat) (s : Str) (k : Nat) (hk : k < s.length) :
    Safe E (fun r v' => RowOK s k r ∧ v' = v) (dagRowL t s k) v := by
  unfold dagRowL
  rw [bind_def]
  refine (dagLoopL_safe E v t s k _ _ _ _ (le_refl k) (by simp)).bind ?_
  rintro L v' ⟨hL, rfl⟩
  show RowOK s k _ ∧ v' = v'
  refine ⟨?_, rfl⟩
  split
  · exact ⟨by simp, by simp; exact hk⟩
  · next h => exact ⟨h, hL⟩

theorem dagRowsL_safe (E : σ → α → σ → Prop) (v : σ) (t : Nat) (s : Str) (ks : List Nat) (hk : ∀ k ∈ ks, k < s.length) :
    Safe E (fun (r : List (List Nat)) v' => (∀ (i : Nat) (L : List Nat), r[i]? = some L → ∃ k, ks[i]? = some k ∧ RowOK s k L) ∧ v' = v) (dagRowsL t s ks) v := by
  induction ks with
  | nil => exact ⟨by simp, rfl⟩
  | cons k ks ih =>
    unfold dagRowsL
    rw [bind_def]
    refine (dagRowL_safe E v t s k (hk k List.mem_cons_self)).bind ?_
    rintro L v' ⟨hL, rfl⟩
    refine (ih (fun k h => hk k (List.mem_cons_of_mem _ h))).bind ?_
    rintro Ls v'' ⟨hLs, rfl⟩
    refine ⟨?_, rfl⟩
    intro i L' hi
    cases i with
    | zero => simp only [List.getElem?_cons_zero, Option.some.injEq] at hi; subst hi; exact ⟨k, by simp, hL⟩
    | succ i => simp only [List.getElem?_cons_succ] at hi ⊢; exact hLs i L' hi

/-- All the rows present are good. -/
def DagOK (s : Str) (dag : List (List Nat)) : Prop := ∀ k L, dag[k]? = some L → RowOK s k L

theorem getDAGL_safe (E : σ → α → σ → Prop) (v : σ) (S : Sys F) (t : Nat) (io : Bool) (s : Str) :
    Safe E (fun r v' => DagOK s r ∧ v' = v) (getDAGL S t io s) v := by
  unfold getDAGL
  intro w
  simp only []
  split
  · trivial
  · refine (dagRowsL_safe E v t s _ (by simp)).mono ?_
    rintro r v' ⟨h, rfl⟩
    refine ⟨?_, rfl⟩
    intro k L hL
    obtain ⟨k', h1, h2⟩ := h k L hL
    have : k' = k := by
      rw [List.getElem?_eq_some_iff] at h1
      obtain ⟨hlt, h1⟩ := h1
      simpa using h1.symm
    subst this; exact h2

theorem edgesL_safe (E : σ → α → σ → Prop) (v : σ) (S : Sys F) (t : Nat) (lt : F) (s : Str) (tail : List (F × Nat)) (idx : Nat)
    (L : List Nat) : Safe E (fun r v' => (∀ c ∈ r, c.2 ∈ L) ∧ v' = v) (edgesL S t lt s tail idx L) v := by
  induction L with
  | nil => exact ⟨by simp, rfl⟩
  | cons x L ih =>
    unfold edgesL
    rw [bind_def]
    refine Safe.get.bind ?_
    rintro freq v' rfl
    refine Safe.lift.bind ?_
    rintro c v'' ⟨hc, rfl⟩
    refine ih.bind ?_
    rintro cs v''' ⟨hcs, rfl⟩
    refine ⟨?_, rfl⟩
    intro c' hc'
    rcases List.mem_cons.mp hc' with rfl | h
    · have : c'.2 = x := by
        simp only [edgeScore] at hc
        cases hl : S.A.pylog (freqOr1 freq (slice s idx (x + 1))) with
        | error e => rw [hl] at hc; cases hc
        | ok lf =>
          rw [hl] at hc
          simp only [Except.bind, Bind.bind] at hc
          split at hc
          · cases hc
          · split at hc
            · cases hc
            · cases hc; rfl
      rw [this]; exact List.mem_cons_self
    · exact List.mem_cons_of_mem _ (hcs c' h)

/-- `tail` holds good steps for the positions from `n`. -/
def TailOK (s : Str) (n : Nat) (tail : List (F × Nat)) : Prop :=
  tail.length = s.length + 1 - n ∧ ∀ x, n ≤ x → x < s.length → ∃ r, tail[x - n]? = some r ∧ x ≤ r.2 ∧ r.2 < s.length

theorem calcLoopL_safe (E : σ → α → σ → Prop) (v : σ) (S : Sys F) (t : Nat) (lt : F) (s : Str) (dag : List (List Nat))
    (hd : DagOK s dag) (n : Nat) (hn : n ≤ s.length) (tail : List (F × Nat)) (ht : TailOK s n tail) :
    Safe E (fun r v' => RouteWF s r ∧ v' = v) (calcLoopL S t lt s dag n tail) v := by
  induction n generalizing tail with
  | zero => exact ⟨fun x hx => by simpa using ht.2 x (Nat.zero_le _) hx, rfl⟩
  | succ n ih =>
    unfold calcLoopL
    split
    · trivial
    · next L hL =>
      have hrow := hd n L hL
      rw [bind_def]
      refine (edgesL_safe E v S t lt s tail n L).bind ?_
      rintro cands v' ⟨hc, rfl⟩
      refine Safe.lift.bind ?_
      rintro best v'' ⟨hb, rfl⟩
      refine ih (by omega) _ ⟨by simp [ht.1]; omega, ?_⟩
      intro x hx hlt
      rcases Nat.eq_or_lt_of_le hx with rfl | hx'
      · refine ⟨best, by simp, ?_⟩
        exact hrow.2 _ (hc _ ((maxTup_spec _ _ hb).1))
      · obtain ⟨r, h1, h2⟩ := ht.2 x hx' hlt
        refine ⟨r, ?_, h2⟩
        rw [show x - n = (x - (n + 1)) + 1 from by omega, List.getElem?_cons_succ]
        exact h1

theorem calcRouteL_safe (E : σ → α → σ → Prop) (v : σ) (S : Sys F) (t : Nat) (s : Str) (dag : List (List Nat))
    (hd : DagOK s dag) : Safe E (fun r v' => RouteWF s r ∧ v' = v) (calcRouteL S t s dag) v := by
  unfold calcRouteL
  rw [bind_def]
  refine Safe.get.bind ?_
  rintro total v' rfl
  refine Safe.lift.bind ?_
  rintro lt v'' ⟨-, rfl⟩
  exact calcLoopL_safe E v'' S t lt s dag hd s.length (le_refl _) _ ⟨by simp, fun x h1 h2 => absurd h1 (by omega)⟩

/-! ## Losslessness under interference -/

/-- The next token is taken off the text that remains. -/
def Next (rest : Str) (a : Str) (rest' : Str) : Prop := a ≠ [] ∧ rest = a ++ rest'

theorem trace_next (l : List Str) (rest : Str) (h : ∀ a ∈ l, a ≠ []) : Trace Next (l.flatten ++ rest) l rest := by
  induction l with
  | nil => exact .nil _
  | cons a l ih =>
    refine .cons _ _ (l.flatten ++ rest) _ _ ⟨h a List.mem_cons_self, by simp⟩ (ih (fun b hb => h b (List.mem_cons_of_mem _ hb)))

theorem trace_next_iff {l : List Str} {s rest : Str} (h : Trace Next s l rest) : s = l.flatten ++ rest ∧ ∀ a ∈ l, a ≠ [] := by
  induction h with
  | nil s => simp
  | cons s a s' l s'' h1 _ ih =>
    obtain ⟨h2, h3⟩ := ih
    refine ⟨by rw [h1.2, h2]; simp, ?_⟩
    intro b hb
    rcases List.mem_cons.mp hb with rfl | hb
    · exact h1.1
    · exact h3 b hb

/-- The generator `c` yields `b` and leaves the rest for what follows. -/
def Takes {W : Type} (c : Co W Str Unit) (b : Str) : Prop := ∀ rest, Safe Next (fun _ r => r = rest) c (b ++ rest)

theorem Takes.ret {W : Type} : Takes (.ret () : Co W Str Unit) [] := fun _ => rfl

theorem Takes.bind {W : Type} {c d : Co W Str Unit} {a b : Str} (hc : Takes c a) (hd : Takes d b) :
    Takes (c >>= fun _ => d) (a ++ b) := by
  intro rest
  rw [bind_def, List.append_assoc]
  refine (hc (b ++ rest)).bind ?_
  rintro _ r rfl
  exact hd rest

theorem Takes.yieldAll {W : Type} {ws : List Str} {s : Str} (h : IsSegmentation ws s) : Takes (Co.yieldAll ws : Co W Str Unit) s := by
  intro rest
  refine Safe.yieldAll ?_
  rw [← h.1]
  exact trace_next ws rest h.2

theorem Takes.raise {W : Type} (e : PyErr) (s : Str) : Takes (.raise e : Co W Str Unit) s := fun _ => trivial

theorem Takes.get {W β : Type} {f : W → β} {g : β → Co W Str Unit} {s : Str} (h : ∀ b, Takes (g b) s) :
    Takes (Co.get f >>= g) s := by
  intro rest
  rw [bind_def]
  refine Safe.get.bind ?_
  rintro b v rfl
  exact h b rest

theorem Takes.lossless {W : Type} {c : Co W Str Unit} {s : Str} (h : Takes c s) {l : List Str} {r : Except PyErr Unit}
    (hr : Runs c l r) : Lossless ⟨l, match r with | .ok _ => none | .error e => some e⟩ s := by
  have := h []
  rw [List.append_nil] at this
  obtain ⟨rest, h1, h2⟩ := this.run hr
  obtain ⟨h3, h4⟩ := trace_next_iff h1
  refine ⟨h4, ⟨rest, h3.symm⟩, ?_⟩
  intro he
  cases r with
  | error e => cases he
  | ok u => rw [h2 u rfl] at h3; simpa using h3.symm

theorem forceLoopL_takes (ws : List Str) (h : ∀ w ∈ ws, w ≠ []) : Takes (forceLoopL ws) ws.flatten := by
  induction ws with
  | nil => exact Takes.ret
  | cons word ws ih =>
    have ih := ih (fun w hw => h w (List.mem_cons_of_mem _ hw))
    unfold forceLoopL
    refine Takes.get (fun force => ?_)
    have h1 : Takes (Co.yieldAll [word] : Co World Str Unit) word :=
      Takes.yieldAll ⟨by simp, by simpa using h word List.mem_cons_self⟩
    have h2 : Takes (Co.yieldAll (word.map (fun c => [c])) : Co World Str Unit) word :=
      Takes.yieldAll ⟨FinalSeg.flatten_map_singleton _, by simp⟩
    rw [List.flatten_cons]
    split
    · exact h1.bind ih
    · exact h2.bind ih

theorem finalsegBlocksL_takes (S : Sys F) (blks : List Str) : Takes (finalsegBlocksL S blks) blks.flatten := by
  induction blks with
  | nil => exact Takes.ret
  | cons blk blks ih =>
    unfold finalsegBlocksL
    rw [List.flatten_cons]
    by_cases hm : reHan.isMatch blk = true
    · simp only [hm, if_true]
      have hne : blk ≠ [] := by rintro rfl; simp [reHan, isMatch_plus] at hm
      obtain ⟨ws, hws, hseg⟩ := FinalSeg.hmmCut_spec S.A S.tables blk hne
      rw [hws]
      simp only [Gen.ok]
      have := (forceLoopL_takes ws hseg.2).bind ih
      rw [hseg.1] at this
      exact this
    · simp only [hm]
      refine (Takes.yieldAll ?_).bind ih
      have hb := FinalSeg.cut_block_spec S.A S.tables [] blk
      rw [if_neg hm] at hb
      obtain ⟨ws, h1, h2⟩ := hb
      have : ws = (reSkipFinal.split blk).filter (fun x => x ≠ []) := (congrArg Gen.out h1).symm
      rw [← this]; exact h2

theorem flushBufL_takes (S : Sys F) (t : Nat) (buf : Str) : Takes (flushBufL S t buf) buf := by
  unfold flushBufL
  split
  · next h => subst h; exact Takes.ret
  · next hne =>
    split
    · exact Takes.yieldAll ⟨by simp, by simpa using hne⟩
    · refine Takes.get (fun freq => ?_)
      split
      · have := finalsegBlocksL_takes S (reHan.split buf)
        rwa [show (reHan.split buf).flatten = buf from RE.split_flatten _ rfl _] at this
      · exact Takes.yieldAll ⟨FinalSeg.flatten_map_singleton _, by simp⟩

theorem dagCutLoopL_takes (S : Sys F) (t : Nat) (s : Str) (route : List (F × Nat)) (hr : RouteWF s route) (fuel x : Nat) (buf : Str)
    (hf : s.length - x ≤ fuel) : Takes (dagCutLoopL S t s route fuel x buf) (buf ++ s.drop x) := by
  induction fuel generalizing x buf with
  | zero =>
    rw [show s.drop x = [] from List.drop_eq_nil_of_le (by omega), List.append_nil]
    exact flushBufL_takes S t buf
  | succ fuel ih =>
    unfold dagCutLoopL
    by_cases hx : x < s.length
    · rw [if_pos hx]
      obtain ⟨r, h1, h2, h3⟩ := hr x hx
      rw [h1]
      simp only []
      have hs : slice s x (r.2 + 1) ++ s.drop (r.2 + 1) = s.drop x := slice_append_drop _ _ _ (by omega)
      split
      · have := ih (r.2 + 1) (buf ++ slice s x (r.2 + 1)) (by omega)
        rwa [List.append_assoc, hs] at this
      · rw [← hs]
        refine (flushBufL_takes S t buf).bind ?_
        have := ih (r.2 + 1) [] (by omega)
        rw [List.nil_append] at this
        exact (Takes.yieldAll ⟨by simp, by simpa using slice_ne_nil s x (r.2 + 1) (by omega) hx⟩).bind this
    · rw [if_neg hx, show s.drop x = [] from List.drop_eq_nil_of_le (by omega), List.append_nil]
      exact flushBufL_takes S t buf

theorem cutBlockL_takes (S : Sys F) (t : Nat) (hm io : Bool) (blk : Str) : Takes (cutBlockL S t false hm io blk) blk := by
  unfold cutBlockL
  rw [if_neg (by simp)]
  have key : ∀ k : List (F × Nat) → Co World Str Unit, (∀ route, RouteWF blk route → Takes (k route) blk) →
      Takes (getDAGL S t io blk >>= fun dag => calcRouteL S t blk dag >>= k) blk := by
    intro k hk rest
    rw [bind_def]
    refine (getDAGL_safe _ (blk ++ rest) S t io blk).bind ?_
    rintro dag v ⟨hd, rfl⟩
    rw [bind_def]
    refine (calcRouteL_safe _ _ S t blk dag hd).bind ?_
    rintro route v ⟨hr, rfl⟩
    exact hk route hr rest
  split
  · refine key _ (fun route hr => ?_)
    have := dagCutLoopL_takes S t blk route hr blk.length 0 [] (by omega)
    simpa using this
  · refine key _ (fun route hr => ?_)
    have h1 := noHmmLoop_eq blk route hr blk.length 0 [] (by omega)
    obtain ⟨h2, h3⟩ := pathFrom_flatten blk route hr blk.length 0 (by omega)
    have h4 := mergeEng_flatten [] _ h3
    rw [h1]
    unfold ofGen Gen.ok
    have hs : IsSegmentation (mergeEng [] (pathFrom blk route blk.length 0)) blk := by
      refine ⟨by rw [h4.1, h2]; simp, h4.2⟩
    have := (Takes.yieldAll (W := World) hs).bind Takes.ret
    rwa [List.append_nil] at this

theorem cutBlocksL_takes (S : Sys F) (t : Nat) (hm io : Bool) (blks : List Str) :
    Takes (cutBlocksL S t false hm io blks) blks.flatten := by
  induction blks with
  | nil => exact Takes.ret
  | cons b blks ih =>
    unfold cutBlocksL
    rw [List.flatten_cons]
    split
    · next h => subst h; exact ih
    · by_cases hm' : reHanDefault.isMatch b = true
      · simp only [hm', if_true]
        exact (cutBlockL_takes S t hm io b).bind ih
      · simp only [hm']
        rw [if_neg (by simp), cutSkip_false]
        exact (Takes.yieldAll (charTokens_flatten b)).bind ih

/-- The generator of `cut` outside full mode takes the text, whatever happens to the state. -/
theorem cutL_takes (S : Sys F) (t : Nat) (hm : Bool) (s : PyText) (io : Bool) :
    Takes (cutL S t false hm s io) (strdecode S.gbk s) := by
  have := cutBlocksL_takes S t hm io (reHanDefault.split (strdecode S.gbk s))
  rwa [show (reHanDefault.split (strdecode S.gbk s)).flatten = strdecode S.gbk s from RE.split_flatten _ rfl _] at this

end Lazy
end Jieba
