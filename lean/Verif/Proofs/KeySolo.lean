import Verif.Spec.IdfRace
import Verif.Spec.KeyCalls
import Verif.Proofs.LazySolo
import Verif.Proofs.PosLazy
/-!
# Keyword extraction without interference is the sequential model
-/

set_option linter.unusedSectionVars false

namespace Jieba.Analyse.Steps
open Co Jieba.Spec Jieba.Pos Jieba.Pos.Steps

section
variable {W α β γ : Type}

/-- Without interference `c`, started in state `w`, yields nothing, ends in state `w'` and with `r`. -/
def Alone (c : Co W α β) (w w' : W) (r : Except PyErr β) : Prop := ∀ n, drive (fun _ w => w) c n w = (w', [], r)

theorem Alone.bind {c : Co W α β} {g : β → Co W α γ} {w w1 w2 : W} {b : β} {r : Except PyErr γ} (h : Alone c w w1 (.ok b))
    (hg : Alone (g b) w1 w2 r) : Alone (c >>= g) w w2 r := by
  intro n
  rw [bind_def, drive_bind, h n]
  simp only [hg _, List.append_nil]

theorem Alone.error {c : Co W α β} {g : β → Co W α γ} {w w1 : W} {e : PyErr} (h : Alone c w w1 (.error e)) :
    Alone (c >>= g) w w1 (.error e) := by
  intro n
  rw [bind_def, drive_bind, h n]

theorem Alone.ret (b : β) (w : W) : Alone (.ret b : Co W α β) w w (.ok b) := fun _ => rfl
theorem Alone.raise (e : PyErr) (w : W) : Alone (.raise e : Co W α β) w w (.error e) := fun _ => rfl
theorem Alone.get (f : W → β) (w : W) : Alone (Co.get f : Co W α β) w w (.ok (f w)) := fun _ => rfl
theorem Alone.upd (f : W → W) (w : W) : Alone (.act f (fun _ => .ret ()) : Co W α Unit) w (f w) (.ok ()) := fun _ => rfl
theorem Alone.lift (x : Except PyErr β) (w : W) : Alone (Co.lift x : Co W α β) w w x := by cases x <;> exact fun _ => rfl

end

section
variable {F : Type} [LinearOrder F] {α β σ : Type}

theorem drive_onWorld (c : Co World α β) (n : Nat) (p : PWorld) :
    drive (fun _ p => p) c.onWorld n p = ({ p with w := (drive (fun _ w => w) c n p.w).1 }, (drive (fun _ w => w) c n p.w).2) := by
  induction c generalizing n p with
  | ret b => rfl
  | raise e => rfl
  | yield a k ih => simp only [Co.onWorld, drive, ih]
  | act f k ih => simp only [Co.onWorld, drive, ih]

theorem sem_onWorld (c : Co World α Unit) (p : PWorld) : sem c.onWorld p = ({ p with w := (sem c p.w).1 }, (sem c p.w).2) := by
  unfold sem
  rw [drive_onWorld]

/-- `for a in <generator>: body`, where the body only computes with what the generator does not change. -/
theorem forIn_alone (c : Co PWorld α Unit) (body : α → σ → Co (KWorld F) β σ) (next : α → σ → σ) (w : KWorld F)
    (hb : ∀ a s p, Alone (body a s) { w with p := p } { w with p := p } (.ok (next a s))) (s : σ) (p : PWorld) :
    Alone (Co.forIn (onP c) body s) { w with p := p } { w with p := (sem c p).1 }
      (match (sem c p).2.err with
        | some e => .error e
        | none => .ok ((sem c p).2.out.foldl (fun s a => next a s) s)) := by
  have key : ∀ (c : Co PWorld α Unit) (s : σ) (p : PWorld) (m : Nat),
      Alone (Co.forIn (onP c) body s) { w with p := p } { w with p := (drive (fun _ p => p) c m p).1 }
        (match (drive (fun _ p => p) c m p).2.2 with
          | .error e => .error e
          | .ok _ => .ok ((drive (fun _ p => p) c m p).2.1.foldl (fun s a => next a s) s)) := by
    intro c
    induction c with
    | ret b => exact fun s p m => Alone.ret _ _
    | raise e => exact fun s p m => Alone.raise _ _
    | yield a k ih =>
      intro s p m
      have := (hb a s p).bind (ih (next a s) p (m + 1))
      exact this
    | act f k ih => exact fun s p m n => ih p s (f p) m n
  have := key c s p 0
  unfold sem
  cases h : (drive (fun _ p => p) c 0 p).2.2 with
  | error e => simp only [h] at this ⊢; exact this
  | ok b => simp only [h] at this ⊢; exact this

variable (K : KSys F) (w : KWorld F)

/-- tfidf.py:101-103 for one token. -/
def countNext (K : KSys F) (stop : List Str) (k : Key) (d : PyDict Key F) : PyDict Key F :=
  if keeps K stop k then d.set k (K.pos.sys.A.add ((d.get? k).getD K.pos.sys.A.zero) (K.pos.sys.A.ofInt 1)) else d

theorem countL_alone (e : Nat) (k : Key) (d : PyDict Key F) :
    Alone (countL K e k d : Co (KWorld F) α _) w w (.ok (countNext K (w.tf e).stop k d)) := by
  unfold countL countNext keeps
  by_cases h : (stripBy isSpace k.text).length < 2
  · simp only [h, if_true, decide_true, Bool.true_or, Bool.not_true]
    exact Alone.ret _ _
  · simp only [h, if_false, decide_false, Bool.false_or]
    refine (Alone.get _ w).bind ?_
    by_cases h2 : K.lower k.text ∈ (w.tf e).stop
    · simp only [h2, if_true, decide_true, Bool.not_true]; exact Alone.ret _ _
    · simp only [h2, if_false, decide_false, Bool.not_false, if_true]; exact Alone.ret _ _

theorem foldl_countNext (stop : List Str) (ks : List Key) (d : PyDict Key F) :
    ks.foldl (fun d k => countNext K stop k d) d =
      (ks.filter (keeps K stop)).foldl (fun d k => d.set k (K.pos.sys.A.add ((d.get? k).getD K.pos.sys.A.zero) (K.pos.sys.A.ofInt 1))) d := by
  induction ks generalizing d with
  | nil => rfl
  | cons k ks ih =>
    rw [List.foldl_cons, ih, List.filter_cons]
    unfold countNext
    by_cases h : keeps K stop k = true
    · simp only [h, if_true, List.foldl_cons]
    · simp only [h, Bool.false_eq_true, if_false]

theorem countsL_alone (e : Nat) (s : PyText) (allow : List Str) (wf io : Bool) :
    Alone (countsL K e s allow wf io : Co (KWorld F) α _) w
      { w with p := (candidates K w.p (w.tf e).tok (w.tf e).pos s allow wf io).1 }
      (match (candidates K w.p (w.tf e).tok (w.tf e).pos s allow wf io).2.err with
        | some er => .error er
        | none => .ok (countKeys K.pos.sys.A ((candidates K w.p (w.tf e).tok (w.tf e).pos s allow wf io).2.out.filter (keeps K (w.tf e).stop)))) := by
  unfold countsL candidates
  by_cases ha : allow = []
  · simp only [ha, if_true]
    refine (Alone.get _ w).bind ?_
    have h := forIn_alone (Lazy.cutL K.pos.sys (w.tf e).tok false true s io).onWorld (fun x d => countL K e (.word x) d : Str → PyDict Key F → Co (KWorld F) α _)
      (fun x d => countNext K (w.tf e).stop (.word x) d) w (fun a d p => countL_alone K { w with p := p } e (.word a) d) [] w.p
    rw [sem_onWorld, Lazy.sem_cutL] at h
    simp only [Gen.mapOut]
    cases he : (cutW K.pos.sys w.p.w (w.tf e).tok false true s io).2.err with
    | some er => simp only [he] at h ⊢; exact h
    | none =>
      simp only [he] at h ⊢
      rw [countKeys, ← foldl_countNext]
      have : ((cutW K.pos.sys w.p.w (w.tf e).tok false true s io).2.out.flatMap fun w => [Key.word w]) =
          (cutW K.pos.sys w.p.w (w.tf e).tok false true s io).2.out.map Key.word := by
        rw [List.map_eq_flatMap]
      rw [this, List.foldl_map]
      exact h
  · simp only [ha, if_false]
    refine (Alone.get _ w).bind ?_
    have h := forIn_alone (Pos.Steps.cutL K.pos (w.tf e).pos true s io)
      (fun x d => if x.2 ∈ allow then countL K e (if wf then .pair x.1 x.2 else .word x.1) d else .ret d : Pair → PyDict Key F → Co (KWorld F) α _)
      (fun x d => if x.2 ∈ allow then countNext K (w.tf e).stop (if wf then .pair x.1 x.2 else .word x.1) d else d) w (fun a d p => by
        by_cases h1 : a.2 ∈ allow
        · simp only [h1, if_true]; exact countL_alone K { w with p := p } e _ d
        · simp only [h1, if_false]; exact Alone.ret _ _) [] w.p
    rw [Pos.Steps.sem_cutL] at h
    simp only [Gen.mapOut]
    cases he : (cutPW K.pos w.p (w.tf e).pos true s io).2.err with
    | some er => simp only [he] at h ⊢; exact h
    | none =>
      simp only [he] at h ⊢
      rw [countKeys, ← foldl_countNext]
      have : ∀ (l : List Pair) (d : PyDict Key F),
          l.foldl (fun d x => if x.2 ∈ allow then countNext K (w.tf e).stop (if wf then .pair x.1 x.2 else .word x.1) d else d) d =
          (l.flatMap fun t => if t.2 ∈ allow then [if wf then Key.pair t.1 t.2 else Key.word t.1] else []).foldl
            (fun d k => countNext K (w.tf e).stop k d) d := by
        intro l
        induction l with
        | nil => exact fun _ => rfl
        | cons x l ih =>
          intro d
          rw [List.foldl_cons, ih, List.flatMap_cons, List.foldl_append]
          by_cases h1 : x.2 ∈ allow
          · simp only [h1, if_true, List.foldl_cons, List.foldl_nil]
          · simp only [h1, if_false, List.foldl_nil]
      rw [← this]
      exact h

theorem scaleL_alone (e : Nat) (total : F) (d : PyDict Key F) :
    Alone (scaleL K.pos.sys.A e total d : Co (KWorld F) α _) w w (scaleBy K.pos.sys.A (w.dicts (w.tf e).idf) (w.tf e).median total d) := by
  induction d with
  | nil => exact Alone.ret _ _
  | cons a d ih =>
    obtain ⟨k, v⟩ := a
    unfold scaleL scaleBy
    refine (Alone.get _ w).bind ((Alone.get _ w).bind ((Alone.get _ w).bind ?_))
    cases hq : pyDiv K.pos.sys.A (((w.dicts (w.tf e).idf).get? k.text).getD (w.tf e).median) total with
    | error er => exact (Alone.lift _ w).error
    | ok q =>
      refine (Alone.lift (.ok q) w).bind ?_
      cases hd : scaleBy K.pos.sys.A (w.dicts (w.tf e).idf) (w.tf e).median total d with
      | error er => rw [hd] at ih; exact ih.error
      | ok d' => rw [hd] at ih; exact ih.bind (Alone.ret _ _)

/-- `extract_tags` -/
theorem tagsL_alone (e : Nat) (s : PyText) (topK : Option Int) (ww : Bool) (allow : List Str) (wf io : Bool) :
    Alone (tagsL K e s topK ww allow wf io : Co (KWorld F) α _) w
      { w with p := (extractTags K w.p (extractorOf w e) s topK ww allow wf io).1 } (extractTags K w.p (extractorOf w e) s topK ww allow wf io).2 := by
  unfold tagsL extractTags
  have h := countsL_alone (α := α) K w e s allow wf io
  show Alone _ w { w with p := (candidates K w.p (w.tf e).tok (w.tf e).pos s allow wf io).1 } _
  simp only [extractorOf]
  cases he : (candidates K w.p (w.tf e).tok (w.tf e).pos s allow wf io).2.err with
  | some er => simp only [he] at h ⊢; exact h.error
  | none =>
    simp only [he] at h ⊢
    refine h.bind ?_
    have h2 := scaleL_alone (α := α) K { w with p := (candidates K w.p (w.tf e).tok (w.tf e).pos s allow wf io).1 } e
      ((countKeys K.pos.sys.A ((candidates K w.p (w.tf e).tok (w.tf e).pos s allow wf io).2.out.filter (keeps K (w.tf e).stop))).values.foldl
        K.pos.sys.A.add K.pos.sys.A.zero)
      (countKeys K.pos.sys.A ((candidates K w.p (w.tf e).tok (w.tf e).pos s allow wf io).2.out.filter (keeps K (w.tf e).stop)))
    simp only [] at h2
    cases hd : scaleBy K.pos.sys.A (w.dicts (w.tf e).idf) (w.tf e).median
      ((countKeys K.pos.sys.A ((candidates K w.p (w.tf e).tok (w.tf e).pos s allow wf io).2.out.filter (keeps K (w.tf e).stop))).values.foldl
        K.pos.sys.A.add K.pos.sys.A.zero)
      (countKeys K.pos.sys.A ((candidates K w.p (w.tf e).tok (w.tf e).pos s allow wf io).2.out.filter (keeps K (w.tf e).stop))) with
    | error er => rw [hd] at h2; exact h2.error
    | ok d => rw [hd] at h2; exact h2.bind (Alone.lift _ _)

/-! ## `textrank` -/

theorem pairfilterL_alone (e : Nat) (x : Pair) :
    Alone (pairfilterL K e x : Co (KWorld F) α _) w w (.ok (pairfilter K (w.rk e).filt (w.rk e).stop x)) := by
  unfold pairfilterL pairfilter
  refine (Alone.get _ w).bind ?_
  by_cases h1 : x.2 ∈ (w.rk e).filt
  · by_cases h2 : 2 ≤ (stripBy isSpace x.1).length
    · simp only [h1, h2, and_self, if_true, decide_true, Bool.true_and]; exact Alone.get _ w
    · simp only [h1, h2, and_false, if_false, decide_true, decide_false, Bool.true_and, Bool.false_and]; exact Alone.ret _ _
  · simp only [h1, false_and, if_false, decide_false, Bool.false_and]; exact Alone.ret _ _

theorem windowL_alone (e : Nat) (mk : Pair → Key) (wp : Pair) (ws : List Pair) (cm : PyDict (Key × Key) Nat) :
    Alone (windowL K e mk wp ws cm : Co (KWorld F) α _) w w
      (.ok (ws.foldl (fun cm wj => if pairfilter K (w.rk e).filt (w.rk e).stop wj then bump cm (mk wp, mk wj) else cm) cm)) := by
  induction ws generalizing cm with
  | nil => exact Alone.ret _ _
  | cons x ws ih => exact (pairfilterL_alone K w e x).bind (ih _)

theorem cooccurL_alone (e : Nat) (mk : Pair → Key) (ws : List Pair) (cm : PyDict (Key × Key) Nat) :
    Alone (cooccurL K e mk ws cm : Co (KWorld F) α _) w w
      (.ok (cooccur (pairfilter K (w.rk e).filt (w.rk e).stop) mk (w.rk e).span ws cm)) := by
  induction ws generalizing cm with
  | nil => exact Alone.ret _ _
  | cons x ws ih =>
    unfold cooccurL cooccur
    refine (pairfilterL_alone K w e x).bind ?_
    cases pairfilter K (w.rk e).filt (w.rk e).stop x with
    | true => exact (Alone.get _ w).bind ((windowL_alone K w e mk x _ cm).bind (ih _))
    | false => exact ih _

/-- `textrank` -/
theorem rankL_alone (R : RSys F) (e : Nat) (s : PyText) (topK : Option Int) (ww : Bool) (allow : List Str) (wf io : Bool) :
    Alone (rankL R e s topK ww allow wf io : Co (KWorld F) α _) w
      { w.setRk e { w.rk e with filt := allow } with p := (textrank R w.p ⟨(w.rk e).pos, (w.rk e).stop, (w.rk e).span⟩ s topK ww allow wf io).1 }
      (textrank R w.p ⟨(w.rk e).pos, (w.rk e).stop, (w.rk e).span⟩ s topK ww allow wf io).2 := by
  unfold rankL textrank
  refine (Alone.upd _ w).bind ?_
  have hrk : (w.setRk e { w.rk e with filt := allow }).rk e = { w.rk e with filt := allow } := by simp [KWorld.setRk]
  have hp : (w.setRk e { w.rk e with filt := allow }).p = w.p := rfl
  generalize w.setRk e { w.rk e with filt := allow } = u at hrk hp
  refine (Alone.get _ u).bind ?_
  rw [hrk]
  have h := forIn_alone (Pos.Steps.cutL R.k.pos (w.rk e).pos true s io) (fun x ws => .ret (ws ++ [x]) : Pair → List Pair → Co (KWorld F) α _)
    (fun x ws => ws ++ [x]) u (fun a d p => Alone.ret _ _) [] u.p
  rw [Pos.Steps.sem_cutL, hp] at h
  have hu : { u with p := w.p } = u := by rw [← hp]
  rw [hu] at h
  simp only []
  cases he : (cutPW R.k.pos w.p (w.rk e).pos true s io).2.err with
  | some er => simp only [he] at h ⊢; exact h.error
  | none =>
    simp only [he] at h ⊢
    have hfold : ∀ (l acc : List Pair), l.foldl (fun ws x => ws ++ [x]) acc = acc ++ l := by
      intro l
      induction l with
      | nil => simp
      | cons x l ih => intro acc; rw [List.foldl_cons, ih, List.append_assoc]; rfl
    rw [hfold, List.nil_append] at h
    refine h.bind ?_
    have h2 := cooccurL_alone (α := α) R.k { u with p := (cutPW R.k.pos w.p (w.rk e).pos true s io).1 } e (nodeOf allow wf)
      (cutPW R.k.pos w.p (w.rk e).pos true s io).2.out []
    simp only [hrk] at h2
    refine h2.bind ?_
    cases rank R (buildGraph (cooccur (pairfilter R.k allow (w.rk e).stop) (nodeOf allow wf) (w.rk e).span
        (cutPW R.k.pos w.p (w.rk e).pos true s io).2.out [])) with
    | error er => exact (Alone.lift _ _).error
    | ok d => exact (Alone.lift (.ok d) _).bind (Alone.lift _ _)

/-! ## `set_stop_words` -/

theorem setTf_self (w : KWorld F) (e : Nat) (x : TfObj F) (h : w.tf e = x) : w.setTf e x = w := by
  subst h
  cases w
  simp only [KWorld.setTf, KWorld.mk.injEq, true_and, and_true]
  funext i
  split
  · next h => rw [h]
  · rfl

theorem setRk_self (w : KWorld F) (e : Nat) (x : RkObj) (h : w.rk e = x) : w.setRk e x = w := by
  subst h
  cases w
  simp only [KWorld.setRk, KWorld.mk.injEq, true_and, and_true]
  funext i
  split
  · next h => rw [h]
  · rfl

/-- The state with other stop words of `x`. -/
def withStops (w : KWorld F) : Extractor → List Str → KWorld F
  | .tf e, l => w.setTf e { w.tf e with stop := l }
  | .rk e, l => w.setRk e { w.rk e with stop := l }

theorem withStops_self (x : Extractor) : withStops w x (stopsOf w x) = w := by
  cases x with
  | tf e => exact setTf_self w e _ rfl
  | rk e => exact setRk_self w e _ rfl

theorem addStop_withStops (x : Extractor) (l : Str) (S : List Str) :
    addStop x l (withStops w x S) = withStops w x (if l ∈ S then S else S ++ [l]) := by
  cases x with
  | tf e =>
    simp only [addStop, withStops, KWorld.setTf, if_true, KWorld.mk.injEq, true_and, and_true]
    funext i
    split <;> rfl
  | rk e =>
    simp only [addStop, withStops, KWorld.setRk, if_true, KWorld.mk.injEq, true_and, and_true]
    funext i
    split <;> rfl

theorem addStopsL_alone (x : Extractor) (ls : List Str) (S : List Str) :
    Alone (addStopsL x ls : Co (KWorld F) α Unit) (withStops w x S)
      (withStops w x (ls.foldl (fun s l => if l ∈ s then s else s ++ [l]) S)) (.ok ()) := by
  induction ls generalizing S with
  | nil => exact Alone.ret _ _
  | cons l ls ih =>
    refine (Alone.upd _ _).bind ?_
    rw [addStop_withStops]
    exact ih _

theorem stopL_alone (x : Extractor) (path : Path) :
    Alone (stopL K x path : Co (KWorld F) α Unit) w (withStops w x (setStopWords K w.p.w (stopsOf w x) path).1)
      (setStopWords K w.p.w (stopsOf w x) path).2 := by
  unfold stopL setStopWords
  refine (Alone.get _ w).bind ?_
  cases hf : w.p.w.files (K.pos.sys.abspath path) with
  | none => simp only [withStops_self]; exact Alone.raise _ _
  | some f =>
    simp only []
    refine (Alone.get _ w).bind ?_
    rw [hf]
    simp only []
    cases hd : utf8Decode f.data with
    | none => simp only [withStops_self]; exact Alone.raise _ _
    | some content =>
      simp only []
      have := addStopsL_alone (α := α) w x (splitlines content) (stopsOf w x)
      rwa [withStops_self] at this

/-! ## In the process -/

/-- If only call `i` moves, it does what it does alone. -/
theorem alone_run {γ : Type} (c : Co (KWorld F) Yield γ) (g : γ → KResult F) (w' : KWorld F) (r : Except PyErr γ) (i : Nat) (p : KPool F)
    (hc : p.th i = (c >>= fun b => .ret (g b))) (h : Alone c p.w w' r) :
    ∃ n, ∀ m, n ≤ m → (p.run (List.replicate m i)).w = w' ∧
      (∀ b, r = .ok b → (p.run (List.replicate m i)).th i = .ret (g b)) ∧ ∀ e, r = .error e → (p.run (List.replicate m i)).th i = .raise e := by
  have key : ∀ (c : Co (KWorld F) Yield (KResult F)) (p : KPool F), p.th i = c →
      ∃ n, ∀ m, n ≤ m → (p.run (List.replicate m i)).w = (drive (fun _ w => w) c 0 p.w).1 ∧
        (p.run (List.replicate m i)).th i = match (drive (fun _ w => w) c 0 p.w).2.2 with
          | .ok b => .ret b
          | .error e => .raise e := by
    intro c
    have done : ∀ (p : KPool F), p.step i = p → ∀ m, p.run (List.replicate m i) = p := by
      intro p hs m
      induction m with
      | zero => rfl
      | succ m ih =>
        rw [List.replicate_succ]
        show (p.step i).run _ = p
        rw [hs]; exact ih
    induction c with
    | ret b =>
      intro p hp
      refine ⟨0, fun m _ => ?_⟩
      rw [done p (by unfold KPool.step; rw [hp])]
      exact ⟨rfl, hp⟩
    | raise e =>
      intro p hp
      refine ⟨0, fun m _ => ?_⟩
      rw [done p (by unfold KPool.step; rw [hp])]
      exact ⟨rfl, hp⟩
    | yield a k ih =>
      intro p hp
      obtain ⟨n, hn⟩ := ih (p.step i) (by unfold KPool.step; rw [hp]; simp)
      refine ⟨n + 1, fun m hm => ?_⟩
      obtain ⟨m, rfl⟩ : ∃ m', m = m' + 1 := ⟨m - 1, by omega⟩
      have h1 := hn m (by omega)
      have hw : (p.step i).w = p.w := by unfold KPool.step; rw [hp]
      rw [hw] at h1
      simp only [drive]
      rw [drive_id k 1 0]
      exact h1
    | act f k ih =>
      intro p hp
      obtain ⟨n, hn⟩ := ih p.w (p.step i) (by unfold KPool.step; rw [hp]; simp)
      refine ⟨n + 1, fun m hm => ?_⟩
      obtain ⟨m, rfl⟩ : ∃ m', m = m' + 1 := ⟨m - 1, by omega⟩
      have h1 := hn m (by omega)
      have hw : (p.step i).w = f p.w := by unfold KPool.step; rw [hp]
      rw [hw] at h1
      exact h1
  obtain ⟨n, hn⟩ := key _ p hc
  refine ⟨n, fun m hm => ?_⟩
  have h1 := hn m hm
  rw [bind_def, drive_bind, h 0] at h1
  cases r with
  | error e => exact ⟨h1.1, by simp, fun e' he => by cases he; exact h1.2⟩
  | ok b => exact ⟨h1.1, fun b' hb => by cases hb; exact h1.2, by simp⟩

end

end Jieba.Analyse.Steps
