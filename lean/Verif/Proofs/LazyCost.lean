import Verif.Proofs.LazySearch
import Mathlib.Tactic.Ring
/-!
# Counting the accesses to the state
-/

set_option linter.unusedSectionVars false

namespace Jieba
namespace Co
variable {W α α' β γ σ : Type}

/-- The possible runs with their number of accesses, if at each access the state is any one with `P`. -/
inductive RunsIn (P : W → Prop) : Co W α β → Nat → List α → Except PyErr β → Prop
  | ret (b) : RunsIn P (.ret b) 0 [] (.ok b)
  | raise (e) : RunsIn P (.raise e) 0 [] (.error e)
  | yield (a k n l r) : RunsIn P k n l r → RunsIn P (.yield a k) n (a :: l) r
  | act (f k w n l r) : P w → RunsIn P (k w) n l r → RunsIn P (.act f k) (n + 1) l r

/-- At most `n` is spent, where an access costs one and yielding `a` costs `wt a`; `Q` holds of the value returned. -/
def Cost (P : W → Prop) (wt : α → Nat) (Q : β → Prop) : Co W α β → Nat → Prop
  | .ret b, _ => Q b
  | .raise _, _ => True
  | .yield a k, n => wt a ≤ n ∧ Cost P wt Q k (n - wt a)
  | .act _ k, n => 1 ≤ n ∧ ∀ w, P w → Cost P wt Q (k w) (n - 1)

variable {P : W → Prop} {wt : α → Nat}

theorem Cost.run {Q : β → Prop} {c : Co W α β} {n : Nat} (h : Cost P wt Q c n) {m : Nat} {l : List α} {r : Except PyErr β}
    (hr : RunsIn P c m l r) : m + (l.map wt).sum ≤ n := by
  induction hr generalizing n with
  | ret b => simp
  | raise e => simp
  | yield a k m l r _ ih =>
    have h1 := h.1; have := ih h.2
    rw [List.map_cons, List.sum_cons]; omega
  | act f k w m l r hw _ ih => have h1 := h.1; have := ih (h.2 w hw); omega

theorem Cost.mono {Q : β → Prop} {c : Co W α β} {n m : Nat} (h : Cost P wt Q c n) (hm : n ≤ m) : Cost P wt Q c m := by
  induction c generalizing n m with
  | ret b => exact h
  | raise e => trivial
  | yield a k ih => exact ⟨le_trans h.1 hm, ih h.2 (by omega)⟩
  | act f k ih => exact ⟨le_trans h.1 hm, fun w hw => ih w (h.2 w hw) (by omega)⟩

theorem Cost.bind {Q' : β → Prop} {Q : γ → Prop} {c : Co W α β} {g : β → Co W α γ} {n m : Nat} (h : Cost P wt Q' c n)
    (hg : ∀ b, Q' b → Cost P wt Q (g b) m) : Cost P wt Q (Co.bind c g) (n + m) := by
  induction c generalizing n with
  | ret b => exact (hg b h).mono (by omega)
  | raise e => trivial
  | yield a k ih => exact ⟨le_trans h.1 (by omega), (ih h.2).mono (by have := h.1; omega)⟩
  | act f k ih => exact ⟨le_trans h.1 (by omega), fun w hw => (ih w (h.2 w hw)).mono (by have := h.1; omega)⟩

theorem Cost.seq {c : Co W α Unit} {d : Co W α Unit} {n m : Nat} (h : Cost P wt (fun _ => True) c n)
    (hd : Cost P wt (fun _ => True) d m) : Cost P wt (fun _ => True) (c >>= fun _ => d) (n + m) :=
  h.bind (fun _ _ => hd)

theorem Cost.get {f : W → β} {g : β → Co W α γ} {Q : γ → Prop} {n : Nat} (h : ∀ w, P w → Cost P wt Q (g (f w)) n) :
    Cost P wt Q (Co.get f >>= g) (n + 1) := ⟨by omega, fun w hw => h w hw⟩

theorem Cost.lift {x : Except PyErr β} {g : β → Co W α γ} {Q : γ → Prop} {n : Nat} (h : ∀ b, x = .ok b → Cost P wt Q (g b) n) :
    Cost P wt Q (Co.lift x >>= g) n := by
  cases x with
  | error e => trivial
  | ok b => exact h b rfl

theorem Cost.yieldAll (l : List α) : Cost P wt (fun _ => True) (Co.yieldAll l : Co W α Unit) (l.map wt).sum := by
  induction l with
  | nil => trivial
  | cons a l ih =>
    rw [List.map_cons, List.sum_cons]
    exact ⟨by omega, by rw [Nat.add_sub_cancel_left]; exact ih⟩

theorem Cost.and_safe {Q Q' : β → Prop} {c : Co W α β} {n : Nat} (h : Cost P wt Q c n)
    (hs : Safe (σ := Unit) (fun _ _ _ => True) (fun b _ => Q' b) c ()) : Cost P wt (fun b => Q b ∧ Q' b) c n := by
  induction c generalizing n with
  | ret b => exact ⟨h, hs⟩
  | raise e => trivial
  | yield a k ih => obtain ⟨_, _, hs⟩ := hs; exact ⟨h.1, ih h.2 hs⟩
  | act f k ih => exact ⟨h.1, fun w hw => ih w (h.2 w hw) (hs w)⟩

/-- A loop over a generator whose body costs as much as the generator pays for the value. -/
theorem Cost.forIn {wt' : α' → Nat} {Q : Unit → Prop} {c : Co W α Unit} {body : α → σ → Co W α' σ} {n : Nat} (h : Cost P wt Q c n)
    (hb : ∀ a s, Cost P wt' (fun _ => True) (body a s) (wt a)) (s : σ) : Cost P wt' (fun _ => True) (Co.forIn c body s) n := by
  induction c generalizing n s with
  | ret b => trivial
  | raise e => trivial
  | yield a k ih =>
    have := (hb a s).bind (m := n - wt a) (Q := fun _ => True) (g := fun s' => Co.forIn k body s') (fun s' _ => ih h.2 s')
    exact this.mono (by have := h.1; omega)
  | act f k ih => exact ⟨h.1, fun w hw => ih w (h.2 w hw) s⟩

end Co

namespace Lazy
open Co Jieba.Spec

variable {F : Type} [LinearOrder F] {α : Type}

/-- The entries of the dictionary of tokenizer `t` have at most `L` characters. -/
def EntriesWithin (t L : Nat) (w : World) : Prop := ∀ k, PyDict.has (w.tok t).freq k = true → k.length ≤ L

theorem dagLoopL_cost (wt : α → Nat) (t L : Nat) (s : Str) (k fuel i : Nat) (acc : List Nat) (hi : k ≤ i)
    (hacc : acc.length ≤ i - k) (hL : i - k ≤ L) :
    Cost (EntriesWithin t L) wt (fun r => r.length ≤ L) (dagLoopL t s k fuel i (slice s k (i + 1)) acc) (2 * (L - (i - k)) + 1) := by
  induction fuel generalizing i acc with
  | zero => show acc.length ≤ L; omega
  | succ fuel ih =>
    unfold dagLoopL
    split
    · next hlt =>
      refine Cost.get (n := 2 * (L - (i - k))) (fun w hw => ?_)
      split
      · next hhas =>
        have hlen := hw _ hhas
        rw [show (slice s k (i + 1)).length = i + 1 - k from slice_length _ _ _ (by unfold Ch at *; omega)] at hlen
        refine (Cost.get (n := 2 * (L - (i - k)) - 1) (fun w' _ => ?_)).mono (by omega)
        generalize PyDict.get? (w'.tok t).freq (slice s k (i + 1)) = o
        cases o with
        | none => trivial
        | some v =>
          refine (ih (i + 1) _ (by omega) ?_ (by omega)).mono (by omega)
          split
          · rw [List.length_append]; simp; omega
          · omega
      · show acc.length ≤ L; omega
    · show acc.length ≤ L; omega

theorem dagRowL_cost (wt : α → Nat) (t L : Nat) (s : Str) (k : Nat) :
    Cost (EntriesWithin t L) wt (fun r => r.length ≤ L + 1) (dagRowL t s k) (2 * L + 1) := by
  unfold dagRowL
  have := (dagLoopL_cost wt t L s k (s.length + 1) k [] (le_refl k) (by simp) (by omega)).bind (m := 0)
    (Q := fun r => r.length ≤ L + 1) (g := fun tmplist => .ret (if tmplist = [] then [k] else tmplist)) (by
      intro b hb
      show List.length _ ≤ _
      split
      · simp
      · omega)
  refine Cost.mono this (by omega)

theorem dagRowsL_cost (wt : α → Nat) (t L : Nat) (s : Str) (ks : List Nat) :
    Cost (EntriesWithin t L) wt (fun r => ∀ row ∈ r, row.length ≤ L + 1) (dagRowsL t s ks) (ks.length * (2 * L + 1)) := by
  induction ks with
  | nil => intro row h; simp at h
  | cons k ks ih =>
    unfold dagRowsL
    have h2 : ∀ row : List Nat, row.length ≤ L + 1 → Cost (EntriesWithin t L) wt (fun r => ∀ row ∈ r, row.length ≤ L + 1)
        ((dagRowsL t s ks : Co World α _) >>= fun Ls => .ret (row :: Ls)) (ks.length * (2 * L + 1) + 0) := by
      intro row hrow
      refine ih.bind (fun Ls hLs => ?_)
      intro r hr
      rcases List.mem_cons.mp hr with rfl | hr
      · exact hrow
      · exact hLs r hr
    refine ((dagRowL_cost wt t L s k).bind h2).mono ?_
    rw [List.length_cons, Nat.add_mul]; omega

theorem getDAGL_cost (wt : α → Nat) (S : Sys F) (t L : Nat) (io : Bool) (s : Str) :
    Cost (EntriesWithin t L) wt (fun r => (∀ row ∈ r, row.length ≤ L + 1) ∧ DagOK s r) (getDAGL S t io s)
      (s.length * (2 * L + 1) + 1) := by
  refine Cost.and_safe ?_ ((getDAGL_safe _ () S t io s).mono (fun b _ h => h.1))
  unfold getDAGL
  refine ⟨by omega, fun w _ => ?_⟩
  simp only []
  split
  · trivial
  · have := dagRowsL_cost wt t L s (List.range s.length)
    rw [List.length_range] at this
    exact this

theorem edgesL_cost (P : World → Prop) (wt : α → Nat) (S : Sys F) (t : Nat) (lt : F) (s : Str) (tail : List (F × Nat)) (idx : Nat)
    (row : List Nat) : Cost P wt (fun _ => True) (edgesL S t lt s tail idx row) row.length := by
  induction row with
  | nil => trivial
  | cons x row ih =>
    unfold edgesL
    refine Cost.get (fun w _ => Cost.lift (fun c _ => ?_))
    exact ih.bind (m := 0) (fun _ _ => trivial)

theorem calcLoopL_cost (P : World → Prop) (wt : α → Nat) (S : Sys F) (t L : Nat) (lt : F) (s : Str) (dag : List (List Nat))
    (hd : ∀ row ∈ dag, row.length ≤ L) (n : Nat) (tail : List (F × Nat)) :
    Cost P wt (fun _ => True) (calcLoopL S t lt s dag n tail) (n * L) := by
  induction n generalizing tail with
  | zero => trivial
  | succ n ih =>
    unfold calcLoopL
    split
    · trivial
    · next row hrow =>
      have := ((edgesL_cost P wt S t lt s tail n row).mono (hd row (List.mem_of_getElem? hrow))).bind (m := n * L)
        (Q := fun _ => True) (g := fun cands => Co.lift (maxTup cands) >>= fun best => calcLoopL S t lt s dag n (best :: tail))
        (fun _ _ => Cost.lift (fun best _ => ih (best :: tail)))
      exact Cost.mono this (by rw [Nat.succ_mul]; omega)

theorem calcRouteL_cost (P : World → Prop) (wt : α → Nat) (S : Sys F) (t L : Nat) (s : Str) (dag : List (List Nat))
    (hd : ∀ row ∈ dag, row.length ≤ L) (hok : DagOK s dag) :
    Cost P wt (fun r => True ∧ RouteWF s r) (calcRouteL S t s dag) (s.length * L + 1) := by
  refine Cost.and_safe ?_ ((calcRouteL_safe _ () S t s dag hok).mono (fun b _ h => h.1))
  unfold calcRouteL
  exact Cost.get (fun w _ => Cost.lift (fun lt _ => calcLoopL_cost P wt S t L lt s dag hd _ _))

/-! ## What is paid for the words -/

/-- The weight of a word: `m` for each character. -/
def perChar (m : Nat) (a : Str) : Nat := m * a.length

theorem perChar_sum (m : Nat) (l : List Str) : (l.map (perChar m)).sum = m * l.flatten.length := by
  induction l with
  | nil => simp
  | cons a l ih => rw [List.map_cons, List.sum_cons, ih, List.flatten_cons, List.length_append, Nat.mul_add]; rfl

theorem yieldAll_cost (P : World → Prop) (m : Nat) (l : List Str) :
    Cost P (perChar m) (fun _ => True) (Co.yieldAll l : Co World Str Unit) (m * l.flatten.length) := by
  rw [← perChar_sum]; exact Cost.yieldAll l

theorem length_le_flatten (l : List Str) (h : ∀ w ∈ l, w ≠ []) : l.length ≤ l.flatten.length := by
  induction l with
  | nil => simp
  | cons a l ih =>
    have h1 := ih (fun w hw => h w (List.mem_cons_of_mem _ hw))
    have h2 : 0 < a.length := List.length_pos_of_ne_nil (h a List.mem_cons_self)
    rw [List.flatten_cons, List.length_append, List.length_cons]; omega

theorem forceLoopL_cost (P : World → Prop) (m : Nat) (ws : List Str) :
    Cost P (perChar m) (fun _ => True) (forceLoopL ws) (ws.length + m * ws.flatten.length) := by
  induction ws with
  | nil => trivial
  | cons word ws ih =>
    unfold forceLoopL
    rw [List.flatten_cons, List.length_append, List.length_cons]
    have h : ws.length + 1 + m * (word.length + ws.flatten.length) = (m * word.length + (ws.length + m * ws.flatten.length)) + 1 := by
      ring
    rw [h]
    refine Cost.get (fun w _ => ?_)
    have h1 := yieldAll_cost P m [word]
    have h2 := yieldAll_cost P m (word.map (fun c => [c]))
    rw [FinalSeg.flatten_map_singleton] at h2
    rw [List.flatten_singleton] at h1
    split
    · exact h1.seq ih
    · exact h2.seq ih

theorem finalsegBlocksL_cost (P : World → Prop) (S : Sys F) (m : Nat) (blks : List Str) :
    Cost P (perChar m) (fun _ => True) (finalsegBlocksL S blks) ((m + 1) * blks.flatten.length) := by
  induction blks with
  | nil => trivial
  | cons blk blks ih =>
    unfold finalsegBlocksL
    rw [List.flatten_cons, List.length_append, Nat.mul_add]
    by_cases hm : reHan.isMatch blk = true
    · simp only [hm, if_true]
      have hne : blk ≠ [] := by rintro rfl; simp [reHan, isMatch_plus] at hm
      obtain ⟨ws, hws, hseg⟩ := FinalSeg.hmmCut_spec S.A S.tables blk hne
      rw [hws]
      simp only [Gen.ok]
      have h1 := length_le_flatten ws hseg.2
      have h2 := forceLoopL_cost P m ws
      rw [hseg.1] at h1 h2
      refine (h2.mono ?_).seq ih
      rw [Nat.add_mul, Nat.one_mul]; omega
    · simp only [hm]
      have hb := FinalSeg.cut_block_spec S.A S.tables [] blk
      rw [if_neg hm] at hb
      obtain ⟨ws, h1, h2⟩ := hb
      have : ws = (reSkipFinal.split blk).filter (fun x => x ≠ []) := (congrArg Gen.out h1).symm
      have h3 := yieldAll_cost P m ws
      rw [h2.1] at h3
      rw [if_neg (by simp), ← this]
      exact (h3.mono (Nat.mul_le_mul_right _ (by omega))).seq ih

theorem flushBufL_cost (P : World → Prop) (S : Sys F) (t m : Nat) (buf : Str) :
    Cost P (perChar m) (fun _ => True) (flushBufL S t buf) ((m + 2) * buf.length) := by
  have hsplit : (m + 2) * buf.length = (m + 1) * buf.length + buf.length := by ring
  unfold flushBufL
  split
  · trivial
  · next hne =>
    have hpos : 0 < buf.length := List.length_pos_of_ne_nil hne
    split
    · have := yieldAll_cost P m [buf]
      rw [List.flatten_singleton] at this
      exact this.mono (Nat.mul_le_mul_right _ (by omega))
    · refine (Cost.get (n := (m + 1) * buf.length) (fun w _ => ?_)).mono (by omega)
      split
      · have := finalsegBlocksL_cost P S m (reHan.split buf)
        rwa [show (reHan.split buf).flatten = buf from RE.split_flatten _ rfl _] at this
      · have := yieldAll_cost P m (buf.map (fun c => [c]))
        rw [FinalSeg.flatten_map_singleton] at this
        exact this.mono (Nat.mul_le_mul_right _ (by omega))

theorem dagCutLoopL_cost (P : World → Prop) (S : Sys F) (t m : Nat) (s : Str) (route : List (F × Nat)) (hr : RouteWF s route)
    (fuel x : Nat) (buf : Str) :
    Cost P (perChar m) (fun _ => True) (dagCutLoopL S t s route fuel x buf) ((m + 2) * (buf.length + (s.length - x))) := by
  induction fuel generalizing x buf with
  | zero => exact (flushBufL_cost P S t m buf).mono (Nat.mul_le_mul_left _ (by omega))
  | succ fuel ih =>
    unfold dagCutLoopL
    by_cases hx : x < s.length
    · rw [if_pos hx]
      obtain ⟨r, h1, h2, h3⟩ := hr x hx
      rw [h1]
      simp only []
      have hl : (slice s x (r.2 + 1)).length = r.2 + 1 - x := slice_length _ _ _ (by unfold Ch at *; omega)
      split
      · refine (ih (r.2 + 1) (buf ++ slice s x (r.2 + 1))).mono (Nat.mul_le_mul_left _ ?_)
        rw [List.length_append, hl]; omega
      · have h4 := yieldAll_cost P m [slice s x (r.2 + 1)]
        rw [List.flatten_singleton, hl] at h4
        refine ((flushBufL_cost P S t m buf).seq ((h4.mono (Nat.mul_le_mul_right _ (by omega : m ≤ m + 2))).seq (ih (r.2 + 1) []))).mono ?_
        rw [← Nat.mul_add, ← Nat.mul_add]
        refine Nat.mul_le_mul_left _ ?_
        simp only [List.length_nil]; omega
    · rw [if_neg hx]
      exact (flushBufL_cost P S t m buf).mono (Nat.mul_le_mul_left _ (by omega))

theorem ofGen_cost (P : World → Prop) (m : Nat) (g : Gen Str) :
    Cost P (perChar m) (fun _ => True) (Co.ofGen g : Co World Str Unit) (m * g.out.flatten.length) := by
  unfold Co.ofGen
  refine (yieldAll_cost P m g.out).bind (m := 0) (fun _ _ => ?_)
  cases g.err <;> trivial

/-- A block in the accurate mode, with or without the HMM. -/
theorem cutBlockL_cost (S : Sys F) (t L m : Nat) (hm io : Bool) (blk : Str) (hne : blk ≠ []) :
    Cost (EntriesWithin t L) (perChar m) (fun _ => True) (cutBlockL S t false hm io blk) (blk.length * (3 * L + 6 + m)) := by
  have hpos : 0 < blk.length := List.length_pos_of_ne_nil hne
  unfold cutBlockL
  rw [if_neg (by simp)]
  have key : ∀ k : List (F × Nat) → Co World Str Unit,
      (∀ route, RouteWF blk route → Cost (EntriesWithin t L) (perChar m) (fun _ => True) (k route) ((m + 2) * blk.length)) →
      Cost (EntriesWithin t L) (perChar m) (fun _ => True) (getDAGL S t io blk >>= fun dag => calcRouteL S t blk dag >>= k)
        (blk.length * (3 * L + 6 + m)) := by
    intro k hk
    refine ((getDAGL_cost (perChar m) S t L io blk).bind (m := (blk.length * (L + 1) + 1) + (m + 2) * blk.length)
      (fun dag hd => ?_)).mono ?_
    · exact (calcRouteL_cost _ (perChar m) S t (L + 1) blk dag hd.1 hd.2).bind (fun route hr => hk route hr.2)
    · have : blk.length * (3 * L + 6 + m) = blk.length * (2 * L + 1) + (blk.length * (L + 1) + (m + 2) * blk.length) + 2 * blk.length := by
        ring
      omega
  split
  · refine key _ (fun route hr => ?_)
    have := dagCutLoopL_cost (EntriesWithin t L) S t m blk route hr blk.length 0 []
    simpa using this
  · refine key _ (fun route hr => ?_)
    have h1 := noHmmLoop_eq blk route hr blk.length 0 [] (by omega)
    obtain ⟨h2, h3⟩ := pathFrom_flatten blk route hr blk.length 0 (by omega)
    have h4 := mergeEng_flatten [] _ h3
    have h5 := ofGen_cost (EntriesWithin t L) m (noHmmLoop blk route blk.length 0 [])
    rw [h1] at h5 ⊢
    refine h5.mono ?_
    have : (mergeEng [] (pathFrom blk route blk.length 0)).flatten = blk := by rw [h4.1, h2]; simp
    show m * (mergeEng [] (pathFrom blk route blk.length 0)).flatten.length ≤ _
    rw [this]
    exact Nat.mul_le_mul_right _ (by omega)

/-- A block in full mode, where only the accesses are counted. -/
theorem cutBlockL_all_cost (S : Sys F) (t L : Nat) (hm io : Bool) (blk : Str) (hne : blk ≠ []) :
    Cost (EntriesWithin t L) (perChar 0) (fun _ => True) (cutBlockL S t true hm io blk) (blk.length * (3 * L + 6)) := by
  have hpos : 0 < blk.length := List.length_pos_of_ne_nil hne
  unfold cutBlockL
  rw [if_pos rfl]
  unfold cutAllL
  refine ((getDAGL_cost (perChar 0) S t L io blk).bind (m := 0) (fun dag _ => ?_)).mono ?_
  · exact (yieldAll_cost _ 0 _).mono (by simp)
  · have : blk.length * (3 * L + 6) = blk.length * (2 * L + 1) + (blk.length * (L + 4) + blk.length) := by ring
    omega

theorem cutBlocksL_cost (S : Sys F) (t L m : Nat) (ca hm io : Bool) (h : ca = true → m = 0) (blks : List Str) :
    Cost (EntriesWithin t L) (perChar m) (fun _ => True) (cutBlocksL S t ca hm io blks) (blks.flatten.length * (3 * L + 6 + m)) := by
  induction blks with
  | nil => trivial
  | cons b blks ih =>
    unfold cutBlocksL
    rw [List.flatten_cons, List.length_append, Nat.add_mul]
    split
    · next hb => subst hb; exact ih.mono (by simp)
    · next hb =>
      by_cases hm' : reHanDefault.isMatch b = true
      · simp only [hm', if_true]
        refine Cost.seq ?_ ih
        cases ca with
        | false => exact cutBlockL_cost S t L m hm io b hb
        | true => obtain rfl := h rfl; exact cutBlockL_all_cost S t L hm io b hb
      · simp only [hm']
        rw [if_neg (by simp)]
        refine Cost.seq ?_ ih
        refine (yieldAll_cost _ m _).mono ?_
        cases ca with
        | false =>
          rw [cutSkip_false, (charTokens_flatten b).1, Nat.mul_comm]
          exact Nat.mul_le_mul_left _ (by omega)
        | true => obtain rfl := h rfl; simp

theorem cutL_cost (S : Sys F) (t L m : Nat) (ca hm : Bool) (s : PyText) (io : Bool) (h : ca = true → m = 0) :
    Cost (EntriesWithin t L) (perChar m) (fun _ => True) (cutL S t ca hm s io) ((strdecode S.gbk s).length * (3 * L + 6 + m)) := by
  have := cutBlocksL_cost S t L m ca hm io h (reHanDefault.split (strdecode S.gbk s))
  rwa [show (reHanDefault.split (strdecode S.gbk s)).flatten = strdecode S.gbk s from RE.split_flatten _ rfl _] at this

/-! ## The grams -/

theorem gramsL_cost (P : World → Prop) (t n : Nat) (w : Str) (f : Nat → Str → α) (is : List Nat) :
    Cost P (fun _ : α => 0) (fun _ => True) (gramsL t n w f is) is.length := by
  induction is with
  | nil => trivial
  | cons i is ih =>
    unfold gramsL
    refine Cost.get (fun w' _ => ?_)
    rw [← Nat.zero_add is.length]
    split
    · exact Cost.bind (Q' := fun _ => True) (n := 0) ⟨by simp, trivial⟩ (fun _ _ => ih)
    · exact ih.mono (by omega)

theorem if_cost {β : Type} {P : World → Prop} {p : Prop} [Decidable p] {c : Co World α Unit} {k : Co World α β} {n m : Nat}
    (hc : Cost P (fun _ : α => 0) (fun _ => True) c n) (hk : Cost P (fun _ : α => 0) (fun _ => True) k m) :
    Cost P (fun _ : α => 0) (fun _ => True) (if p then c >>= fun _ => k else k) (n + m) := by
  split
  · exact hc.bind (fun _ _ => hk)
  · exact hk.mono (by omega)

theorem grams_both_cost {β : Type} (P : World → Prop) (t : Nat) (w : Str) (f g : Nat → Str → α) (k : Co World α β)
    (hk : Cost P (fun _ : α => 0) (fun _ => True) k 0) :
    Cost P (fun _ : α => 0) (fun _ => True) (do
      if 2 < w.length then gramsL t 2 w f (List.range (w.length - 1))
      if 3 < w.length then gramsL t 3 w g (List.range (w.length - 2))
      k) (perChar 2 w) := by
  have h1 := gramsL_cost P t 2 w f (List.range (w.length - 1))
  have h2 := gramsL_cost P t 3 w g (List.range (w.length - 2))
  rw [List.length_range] at h1 h2
  refine (if_cost h1 (if_cost h2 hk)).mono ?_
  unfold perChar; omega

theorem yield_cost {β : Type} (P : World → Prop) (a : α) (b : β) :
    Cost P (fun _ : α => 0) (fun _ => True) (Co.yieldAll [a] >>= fun _ => (.ret b : Co World α β)) 0 := ⟨le_refl _, trivial⟩

theorem cutForSearchL_cost (S : Sys F) (t L : Nat) (hm : Bool) (s : PyText) (io : Bool) :
    Cost (EntriesWithin t L) (fun _ => 0) (fun _ => True) (cutForSearchL S t hm s io) ((strdecode S.gbk s).length * (3 * L + 8)) := by
  unfold cutForSearchL
  refine (cutL_cost S t L 2 false hm s io (by simp)).forIn (fun w _ => ?_) ()
  exact grams_both_cost _ t w _ _ _ ⟨le_refl _, trivial⟩

theorem tokenizeL_cost (S : Sys F) (t L : Nat) (search hm : Bool) (s : PyText) (io : Bool) :
    Cost (EntriesWithin t L) (fun _ => 0) (fun _ => True) (tokenizeL S t search hm s io) ((strdecode S.gbk s).length * (3 * L + 8)) := by
  unfold tokenizeL
  cases s with
  | bytes b => trivial
  | str s =>
    refine Cost.bind (m := 0) (Q' := fun _ => True) ?_ (fun _ _ => trivial)
    refine (cutL_cost S t L 2 false hm (.str s) io (by simp)).forIn (fun w start => ?_) 0
    cases search with
    | true => exact grams_both_cost _ t w _ _ _ (yield_cost _ _ _)
    | false => exact (yield_cost _ _ _).mono (by omega)

end Lazy
end Jieba
