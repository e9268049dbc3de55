import Verif.Proofs.Lazy
/-!
# The generators without interference are the functions of the sequential model
-/

set_option linter.unusedSectionVars false

namespace Jieba.Lazy
open Co Jieba.Spec

variable {F : Type} [LinearOrder F] {α β : Type}

theorem dagLoopL_val (w : World) (t : Nat) (s : Str) (k fuel i : Nat) (frag : Str) (acc : List Nat) :
    Val (dagLoopL t s k fuel i frag acc : Co World α _) w (.ok (dagLoop (w.tok t).freq s k fuel i frag acc)) := by
  induction fuel generalizing i frag acc with
  | zero => exact Val.ret _ _
  | succ fuel ih =>
    unfold dagLoopL dagLoop
    by_cases hi : i < s.length
    · rw [if_pos hi]
      refine Val.bind (Val.get _ _) ?_
      by_cases hh : PyDict.has (w.tok t).freq frag = true
      · rw [if_pos hh, if_pos ⟨hi, hh⟩]
        refine Val.bind (Val.get _ _) ?_
        obtain ⟨v, hv⟩ := (PyDict.has_iff _ _).mp hh
        rw [hv]
        simp only []
        have : (Freq.truthy (w.tok t).freq frag = true) = (v ≠ 0) := by
          unfold Freq.truthy; rw [hv]; simp
        simp only [this]
        exact ih _ _ _
      · rw [if_neg hh, if_neg (fun h => hh h.2)]
        exact Val.ret _ _
    · rw [if_neg hi, if_neg (fun h => hi h.1)]
      exact Val.ret _ _

theorem dagRowsL_val (w : World) (t : Nat) (s : Str) (ks : List Nat) :
    Val (dagRowsL t s ks : Co World α _) w (.ok (ks.map (dagRow (w.tok t).freq s))) := by
  induction ks with
  | nil => exact Val.ret _ _
  | cons k ks ih =>
    unfold dagRowsL
    refine Val.bind (b := dagRow (w.tok t).freq s k) ?_ (Val.bind ih (Val.ret _ _))
    unfold dagRowL
    exact Val.bind (dagLoopL_val w t s k _ _ _ _) (Val.ret _ _)

theorem edgesL_val (S : Sys F) (w : World) (t : Nat) (lt : F) (s : Str) (tail : List (F × Nat)) (idx : Nat) (L : List Nat) :
    Val (edgesL S t lt s tail idx L : Co World α _) w (L.mapM (edgeScore S.A (w.tok t).freq lt s tail idx)) := by
  induction L with
  | nil => exact Val.ret _ _
  | cons x L ih =>
    unfold edgesL
    refine Val.bind (Val.get _ _) ?_
    rw [List.mapM_cons]
    cases he : edgeScore S.A (w.tok t).freq lt s tail idx x with
    | error e => exact Val.bind_error (Val.lift _ _)
    | ok c =>
      refine Val.bind (Val.lift _ _) ?_
      cases hr : L.mapM (edgeScore S.A (w.tok t).freq lt s tail idx) with
      | error e => rw [hr] at ih; exact Val.bind_error ih
      | ok cs => rw [hr] at ih; exact Val.bind ih (Val.ret _ _)

theorem calcLoopL_val (S : Sys F) (w : World) (t : Nat) (lt : F) (s : Str) (dag : List (List Nat)) (n : Nat) (tail : List (F × Nat)) :
    Val (calcLoopL S t lt s dag n tail : Co World α _) w (calcLoop S.A (w.tok t).freq lt s dag n tail) := by
  induction n generalizing tail with
  | zero => exact Val.ret _ _
  | succ n ih =>
    unfold calcLoopL calcLoop
    cases hd : dag[n]? with
    | none => exact Val.raise _ _
    | some L =>
      simp only []
      cases hr : L.mapM (edgeScore S.A (w.tok t).freq lt s tail n) with
      | error e => have := edgesL_val (α := α) S w t lt s tail n L; rw [hr] at this; exact Val.bind_error this
      | ok cs =>
        have := edgesL_val (α := α) S w t lt s tail n L
        rw [hr] at this
        refine Val.bind this ?_
        simp only [Bind.bind, Except.bind]
        cases hm : maxTup cs with
        | error e => exact Val.bind_error (Val.lift _ _)
        | ok best => exact Val.bind (Val.lift _ _) (ih _)

theorem calcRouteL_val (S : Sys F) (w : World) (t : Nat) (s : Str) (dag : List (List Nat)) :
    Val (calcRouteL S t s dag : Co World α _) w (calcRoute S.A (w.tok t).freq (w.tok t).total s dag) := by
  unfold calcRouteL calcRoute
  refine Val.bind (Val.get _ _) ?_
  cases hl : S.A.pylog (w.tok t).total with
  | error e => exact Val.bind_error (Val.lift _ _)
  | ok lt => exact Val.bind (Val.lift _ _) (calcLoopL_val S w t lt s dag _ _)

/-- `get_DAG` followed by something: initialise, then go on with the DAG for the dictionary there is now. -/
theorem drive_getDAGL (S : Sys F) (t : Nat) (io : Bool) (s : Str) (g : List (List Nat) → Co World α β) (μ : Nat → World → World)
    (n : Nat) (w : World) :
    drive μ (getDAGL S t io s >>= g) n w =
      match checkInit S w t io with
      | (w', .error e) => (w', [], .error e)
      | (w', .ok ()) => drive μ (g (getDAG (w'.tok t).freq s)) n w' := by
  rw [bind_def]
  unfold getDAGL
  simp only [Co.bind, drive]
  obtain ⟨w', r⟩ := checkInit S w t io
  cases r with
  | error e => rfl
  | ok u =>
    simp only []
    exact (dagRowsL_val w' t s _).drive g μ n

theorem drive_yieldAll_out (μ : Nat → World → World) (l : List α) (n : Nat) (w : World) :
    (drive μ (Co.yieldAll l : Co World α Unit) n w).2 = (l, .ok ()) := by
  induction l generalizing n w with
  | nil => rfl
  | cons a l ih => simp only [Co.yieldAll, drive, ih]

theorem drive_ofGen_out (μ : Nat → World → World) (g : Gen α) (n : Nat) (w : World) :
    (drive μ (ofGen g : Co World α Unit) n w).2 = (g.out, match g.err with | some e => .error e | none => .ok ()) := by
  unfold ofGen
  rw [bind_def, drive_bind, drive_yieldAll_out]
  simp only []
  cases g.err <;> simp [drive]

/-- The exception a run ended with. -/
def errOf : Except PyErr β → Option PyErr
  | .ok _ => none
  | .error e => some e

/-- Full mode and accurate mode without HMM read the dictionary only before the first token of a block. -/
theorem drive_cutBlockL (S : Sys F) (t : Nat) (ca hm io : Bool) (h : ca = true ∨ hm = false) (blk : Str) (μ : Nat → World → World)
    (n : Nat) (w : World) :
    (drive μ (cutBlockL S t ca hm io blk) n w).2.1 =
      (match checkInit S w t io with
       | (_, .error _) => []
       | (w', .ok ()) => (cutBlock (w'.env S t) ca hm blk).out) ∧
    errOf (drive μ (cutBlockL S t ca hm io blk) n w).2.2 =
      (match checkInit S w t io with
       | (_, .error e) => some e
       | (w', .ok ()) => (cutBlock (w'.env S t) ca hm blk).err) := by
  unfold cutBlockL
  by_cases hca : ca = true
  · subst hca
    rw [if_pos rfl]
    unfold cutAllL
    rw [drive_getDAGL]
    obtain ⟨w', r⟩ := checkInit S w t io
    cases r with
    | error e => exact ⟨rfl, rfl⟩
    | ok u =>
      simp only []
      rw [drive_yieldAll_out]
      simp [cutBlock, cutAll, World.env, Gen.ok, errOf]
  · rw [if_neg hca]
    rcases h with h | h
    · exact absurd h hca
    subst h
    rw [if_neg (by simp)]
    unfold cutDAGNoHMML
    rw [drive_getDAGL]
    obtain ⟨w', r⟩ := checkInit S w t io
    cases r with
    | error e => exact ⟨rfl, rfl⟩
    | ok u =>
      simp only []
      have hca : ca = false := by simpa using hca
      subst hca
      simp only [cutBlock, Bool.false_eq_true, if_false, cutDAGNoHMM, World.env]
      have hv := calcRouteL_val (α := Str) S w' t blk (getDAG (w'.tok t).freq blk)
      cases hr : calcRoute S.A (w'.tok t).freq (w'.tok t).total blk (getDAG (w'.tok t).freq blk) with
      | error e => rw [hr] at hv; rw [bind_def, hv.drive_error]; exact ⟨rfl, rfl⟩
      | ok route =>
        rw [hr] at hv
        rw [bind_def, hv.drive, drive_ofGen_out]
        simp only [Gen.ofExcept]
        cases (noHmmLoop blk route blk.length 0 []).err <;> simp [errOf]

/-! ## The whole generator -/

theorem sem_forceLoopL (ws : List Str) (w : World) :
    sem (forceLoopL ws) w = (w, Gen.ok (ws.flatMap (fun word => if word ∉ w.force then [word] else word.map (fun c => [c])))) := by
  induction ws with
  | nil => rfl
  | cons word ws ih =>
    unfold forceLoopL
    rw [bind_def, (Val.get _ w).sem]
    simp only []
    rw [List.flatMap_cons]
    split
    · rw [bind_def, sem_bind, sem_yieldAll]; simp only [Gen.ok]; rw [ih]; rfl
    · rw [bind_def, sem_bind, sem_yieldAll]; simp only [Gen.ok]; rw [ih]; rfl

theorem sem_finalsegBlocksL (S : Sys F) (blks : List Str) (w : World) :
    sem (finalsegBlocksL S blks) w = (w, Gen.forEach blks (fun blk =>
      if reHan.isMatch blk then
        (FinalSeg.hmmCut S.A S.tables blk).mapOut (fun word => if word ∉ w.force then [word] else word.map (fun c => [c]))
      else Gen.ok ((reSkipFinal.split blk).filter (fun x => x ≠ [])))) := by
  induction blks with
  | nil => rfl
  | cons blk blks ih =>
    unfold finalsegBlocksL Gen.forEach
    by_cases hm : reHan.isMatch blk = true
    · simp only [hm, if_true]
      have hne : blk ≠ [] := by rintro rfl; simp [reHan, isMatch_plus] at hm
      obtain ⟨ws, hws, -⟩ := FinalSeg.hmmCut_spec S.A S.tables blk hne
      rw [hws]
      simp only [Gen.ok]
      rw [bind_def, sem_bind, sem_forceLoopL]
      simp only [Gen.ok]
      have : ∀ c : Co World Str Unit, (Co.ret () >>= fun _ => c) = c := fun _ => rfl
      rw [show (do Co.ret (); finalsegBlocksL S blks) = finalsegBlocksL S blks from rfl, ih]
      rfl
    · simp only [hm]
      rw [bind_def]
      simp only [Bool.false_eq_true, if_false]
      rw [bind_def, sem_bind, sem_yieldAll]
      simp only [Gen.ok]
      rw [ih]
      rfl

theorem sem_flushBufL (S : Sys F) (t : Nat) (buf : Str) (w : World) :
    sem (flushBufL S t buf) w = (w, flushBuf (w.tok t).freq (w.env S t).hmm buf) := by
  unfold flushBufL flushBuf
  split
  · rfl
  · split
    · exact sem_yieldAll _ _
    · rw [bind_def, (Val.get _ w).sem]
      simp only []
      split
      · exact sem_finalsegBlocksL S _ w
      · exact sem_yieldAll _ _

theorem sem_bind_ok {c d : Co World Str Unit} {w : World} {g h : Gen Str} (hc : sem c w = (w, g)) (hd : sem d w = (w, h)) :
    sem (c >>= fun _ => d) w = (w, Gen.andThen g h) := by
  rw [bind_def, sem_bind, hc]
  simp only []
  cases he : g.err with
  | some e => simp [Gen.andThen, he]
  | none => simp only []; rw [hd]

theorem sem_dagCutLoopL (S : Sys F) (t : Nat) (s : Str) (route : List (F × Nat)) (fuel x : Nat) (buf : Str) (w : World) :
    sem (dagCutLoopL S t s route fuel x buf) w = (w, dagCutLoop (w.tok t).freq (w.env S t).hmm s route fuel x buf) := by
  induction fuel generalizing x buf with
  | zero => exact sem_flushBufL S t buf w
  | succ fuel ih =>
    unfold dagCutLoopL dagCutLoop
    by_cases hx : x < s.length
    · rw [if_pos hx, if_pos hx]
      cases route[x]? with
      | none => rfl
      | some r =>
        simp only []
        split
        · exact ih _ _
        · exact sem_bind_ok (sem_flushBufL S t buf w) (sem_bind_ok (sem_yieldAll _ _) (ih _ _))
    · rw [if_neg hx, if_neg hx]
      exact sem_flushBufL S t buf w

theorem sem_cutBlockL (S : Sys F) (t : Nat) (ca hm io : Bool) (blk : Str) (w : World) :
    sem (cutBlockL S t ca hm io blk) w =
      match checkInit S w t io with
      | (w', .error e) => (w', Gen.raise e)
      | (w', .ok ()) => (w', cutBlock (w'.env S t) ca hm blk) := by
  have key : ∀ g : List (List Nat) → Co World Str Unit, sem (getDAGL S t io blk >>= g) w =
      match checkInit S w t io with
      | (w', .error e) => (w', Gen.raise e)
      | (w', .ok ()) => sem (g (getDAG (w'.tok t).freq blk)) w' := by
    intro g
    unfold sem
    rw [drive_getDAGL]
    obtain ⟨w', r⟩ := checkInit S w t io
    cases r <;> rfl
  have calc1 : ∀ (w' : World) (k : List (F × Nat) → Co World Str Unit) (k' : List (F × Nat) → Gen Str), (∀ route, sem (k route) w' = (w', k' route)) →
      sem (calcRouteL S t blk (getDAG (w'.tok t).freq blk) >>= k) w' =
        (w', Gen.ofExcept (calcRoute S.A (w'.tok t).freq (w'.tok t).total blk (getDAG (w'.tok t).freq blk)) k') := by
    intro w' k k' hk
    rw [bind_def, (calcRouteL_val S w' t blk _).sem]
    cases calcRoute S.A (w'.tok t).freq (w'.tok t).total blk (getDAG (w'.tok t).freq blk) with
    | error e => rfl
    | ok route => simp only [Gen.ofExcept]; exact hk route
  unfold cutBlockL
  split
  · next h =>
    unfold cutAllL
    rw [key]
    obtain ⟨w', r⟩ := checkInit S w t io
    cases r with
    | error e => rfl
    | ok u => simp only []; rw [sem_yieldAll]; simp [cutBlock, h, cutAll, World.env]
  · next h =>
    split
    · next h2 =>
      unfold cutDAGL
      rw [key]
      obtain ⟨w', r⟩ := checkInit S w t io
      cases r with
      | error e => rfl
      | ok u =>
        simp only []
        rw [calc1 w' _ _ (fun route => sem_dagCutLoopL S t blk route _ _ _ w')]
        simp only [cutBlock, h, h2]; rfl
    · next h2 =>
      unfold cutDAGNoHMML
      rw [key]
      obtain ⟨w', r⟩ := checkInit S w t io
      cases r with
      | error e => rfl
      | ok u =>
        simp only []
        rw [calc1 w' _ _ (fun route => sem_ofGen _ w')]
        simp only [cutBlock, h, h2]; rfl

theorem sem_cutBlocksL (S : Sys F) (t : Nat) (ca hm io : Bool) (blks : List Str) (w : World) :
    sem (cutBlocksL S t ca hm io blks) w = cutBlocksW S t ca hm io w blks := by
  induction blks generalizing w with
  | nil => rfl
  | cons b blks ih =>
    unfold cutBlocksL cutBlocksW
    split
    · exact ih w
    · by_cases hm' : reHanDefault.isMatch b = true
      · simp only [hm', if_true]
        rw [bind_def, sem_bind, sem_cutBlockL]
        obtain ⟨w', r⟩ := checkInit S w t io
        cases r with
        | error e => rfl
        | ok u =>
          simp only []
          cases (cutBlock (w'.env S t) ca hm b).err with
          | some e => rfl
          | none => simp only []; rw [ih]
      · simp only [hm']
        rw [bind_def]
        simp only [Bool.false_eq_true, if_false]
        rw [bind_def, sem_bind, sem_yieldAll]
        simp only [Gen.ok]
        rw [ih]

/-- Without interference the generator does what the sequential model says. -/
theorem sem_cutL (S : Sys F) (t : Nat) (ca hm : Bool) (s : PyText) (io : Bool) (w : World) :
    sem (cutL S t ca hm s io) w = cutW S w t ca hm s io := sem_cutBlocksL S t ca hm io _ w

end Jieba.Lazy
