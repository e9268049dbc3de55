import Verif.Proofs.LazySolo
import Verif.Proofs.Search
import Verif.Model.Whoosh
/-!
# Search mode, offsets and Whoosh tokens under interference
-/

set_option linter.unusedSectionVars false

namespace Jieba
namespace Co
variable {W α β γ σ : Type}

theorem Safe.seq {E : σ → α → σ → Prop} {c : Co W α β} {g : β → Co W α γ} {Q : γ → σ → Prop} {s s' : σ}
    (h : Safe E (fun _ v => v = s') c s) (hg : ∀ b, Safe E Q (g b) s') : Safe E Q (c >>= g) s :=
  Safe.bind h (fun b v hv => by rw [hv]; exact hg b)

end Co

namespace Lazy
open Co Jieba.Spec

variable {F : Type} [LinearOrder F] {α σ : Type}

theorem gramsL_safe (E : σ → α → σ → Prop) (v : σ) (t n : Nat) (w : Str) (f : Nat → Str → α) (is : List Nat)
    (h : ∀ i ∈ is, E v (f i (slice w i (i + n))) v) : Safe E (fun _ v' => v' = v) (gramsL t n w f is) v := by
  induction is with
  | nil => rfl
  | cons i is ih =>
    have ih := ih (fun i hi => h i (List.mem_cons_of_mem _ hi))
    unfold gramsL
    refine Safe.get.seq (fun freq => ?_)
    split
    · refine (Safe.yieldAll (s' := v) (.cons _ _ _ _ _ (h i List.mem_cons_self) (.nil _))).seq (fun _ => ih)
    · exact ih

/-- The next entry of `tokenize` when the words so far end at `o`: exact, and either the next word or (in search mode) an extra
entry. -/
def Span (s : Str) (search : Bool) (o : Nat) (e : Str × Nat × Nat) (o' : Nat) : Prop :=
  ExactSpan s e ∧ e.1 ≠ [] ∧ ((e.2.1 = o ∧ e.2.2 = o') ∨ (search = true ∧ o' = o))

theorem exactSpan_split (pre w rest s : Str) (h : pre ++ w ++ rest = s) (i n : Nat) (hi : i + n ≤ w.length) :
    ExactSpan s (slice w i (i + n), pre.length + i, pre.length + i + n) := by
  refine ⟨by simp, ?_, ?_⟩
  · rw [← h]; simp only [List.length_append]; omega
  · have := slice_of_split pre w rest s h i (i + n) (by omega) hi
    rw [← Nat.add_assoc] at this
    exact this

theorem tokenizeL_safe (S : Sys F) (t : Nat) (search hm : Bool) (s : Str) (io : Bool) :
    Safe (Span s search) (fun _ o => o = s.length) (tokenizeL S t search hm (.str s) io) 0 := by
  have hin : Safe Next (fun (_ : Unit) r => r = []) (cutL S t false hm (.str s) io) s := by
    have := cutL_takes S t hm (.str s) io []
    rw [List.append_nil] at this
    exact this
  unfold tokenizeL
  simp only [bind_def (α := Str × Nat × Nat) (Co.forIn _ _ _)]
  refine Safe.bind (Q' := fun _ o => o = s.length) ?_ (fun _ _ h => h)
  refine Safe.forIn (I := fun rest start o => o = start ∧ ∃ pre, pre ++ rest = s ∧ pre.length = start) ?_ ?_ hin
    ⟨rfl, [], rfl, rfl⟩
  · rintro rest a rest' o start ⟨hne, rfl⟩ ⟨rfl, pre, hs, rfl⟩
    rw [← List.append_assoc] at hs
    have hgram : ∀ n, 0 < n → ∀ i ∈ List.range (a.length - (n - 1)),
        Span s true pre.length ((fun i g => (g, pre.length + i, pre.length + i + n)) i (slice a i (i + n))) pre.length := by
      intro n hn i hi
      have hi : i < a.length - (n - 1) := List.mem_range.mp hi
      exact ⟨exactSpan_split pre a rest' s hs i n (by omega), slice_ne_nil a i (i + n) (by omega) (by omega), Or.inr ⟨rfl, rfl⟩⟩
    have hlast : Safe (Span s search) (fun (g' v' : Nat) => v' = g' ∧ ∃ pre, pre ++ rest' = s ∧ pre.length = g')
        (Co.yieldAll [(a, pre.length, pre.length + a.length)] >>= fun _ => pure (pre.length + a.length) : Co World _ Nat) pre.length := by
      refine (Safe.yieldAll (s' := pre.length + a.length) (.cons _ _ _ _ _ ⟨?_, hne, Or.inl ⟨rfl, rfl⟩⟩ (.nil _))).seq (fun _ => ?_)
      · exact ⟨rfl, pre ++ a, hs, by simp⟩
      · have := exactSpan_split pre a rest' s hs 0 a.length (by omega)
        rw [Nat.zero_add, Nat.add_zero] at this
        rwa [show slice a 0 a.length = a from by unfold slice; simp] at this
    cases search
    · exact hlast
    · simp only [if_true]
      by_cases h2 : 2 < a.length
      · by_cases h3 : 3 < a.length
        · simp only [h2, h3, if_true]
          exact (gramsL_safe _ _ t 2 a _ _ (hgram 2 (by omega))).seq (fun _ =>
            (gramsL_safe _ _ t 3 a _ _ (hgram 3 (by omega))).seq (fun _ => hlast))
        · simp only [h2, h3, if_true, if_false]
          exact (gramsL_safe _ _ t 2 a _ _ (hgram 2 (by omega))).seq (fun _ => hlast)
      · have h3 : ¬ 3 < a.length := by omega
        simp only [h2, h3, if_false]
        exact hlast
  · rintro rest start o rfl ⟨rfl, pre, hs, rfl⟩
    rw [← hs]; simp

/-- The next token of `cut_for_search`: the next word of the text that remains, or an extra token within that word. -/
def Extra (rest a rest' : Str) : Prop := Next rest a rest' ∨ (a ≠ [] ∧ a <:+: rest ∧ rest' = rest)

theorem cutForSearchL_safe (S : Sys F) (t : Nat) (hm : Bool) (s : PyText) (io : Bool) :
    Safe Extra (fun _ r => r = []) (cutForSearchL S t hm s io) (strdecode S.gbk s) := by
  have hin : Safe Next (fun (_ : Unit) r => r = []) (cutL S t false hm s io) (strdecode S.gbk s) := by
    have := cutL_takes S t hm s io []
    rw [List.append_nil] at this
    exact this
  unfold cutForSearchL
  refine Safe.forIn (I := fun rest (_ : Unit) r => r = rest) ?_ ?_ hin rfl
  · rintro rest a rest' r _ ⟨hne, rfl⟩ rfl
    have hgram : ∀ n, 0 < n → ∀ i ∈ List.range (a.length - (n - 1)), Extra (a ++ rest') (slice a i (i + n)) (a ++ rest') := by
      intro n hn i hi
      have hi : i < a.length - (n - 1) := List.mem_range.mp hi
      exact Or.inr ⟨slice_ne_nil a i (i + n) (by omega) (by omega),
        (slice_slice_infix a i n).trans (List.prefix_append _ _).isInfix, rfl⟩
    have hlast : Safe Extra (fun (_ : Unit) r => r = rest') (Co.yieldAll [a] : Co World _ Unit) (a ++ rest') :=
      Safe.yieldAll (.cons _ _ _ _ _ (Or.inl ⟨hne, rfl⟩) (.nil _))
    by_cases h2 : 2 < a.length
    · by_cases h3 : 3 < a.length
      · simp only [h2, h3, if_true]
        exact (gramsL_safe _ _ t 2 a _ _ (hgram 2 (by omega))).seq (fun _ =>
          (gramsL_safe _ _ t 3 a _ _ (hgram 3 (by omega))).seq (fun _ => hlast))
      · simp only [h2, h3, if_true, if_false]
        exact (gramsL_safe _ _ t 2 a _ _ (hgram 2 (by omega))).seq (fun _ => hlast)
    · have h3 : ¬ 3 < a.length := by omega
      simp only [h2, h3, if_false]
      exact hlast
  · rintro rest _ r rfl rfl; rfl

/-- What a Whoosh token promises. -/
def WTokenOK (s : Str) (k : WToken) : Prop :=
  k.original = k.text ∧ k.pos = k.startchar ∧ ExactSpan s (k.text, k.startchar, k.endchar) ∧
    (2 ≤ k.text.length ∨ ∃ c, k.text = [c] ∧ isHan c = true)

theorem chineseTokenizerL_safe (S : Sys F) (t : Nat) (s : Str) (io : Bool) :
    Safe (fun (_ : Unit) k _ => WTokenOK s k) (fun _ _ => True) (chineseTokenizerL S t (.str s) io) () := by
  unfold chineseTokenizerL
  refine Safe.forIn (I := fun _ _ _ => True) ?_ (fun _ _ _ _ _ => trivial) (tokenizeL_safe S t true true s io) trivial
  rintro o e o' v g ⟨h1, h2, -⟩ -
  split
  · trivial
  · next h =>
    refine (Safe.yieldAll (s' := ()) (.cons _ _ () _ _ ⟨rfl, rfl, h1, ?_⟩ (.nil _))).mono (fun _ _ _ => trivial)
    simp only []
    match hw : e.1 with
    | [] => exact absurd hw h2
    | [c] =>
      right
      refine ⟨c, rfl, ?_⟩
      rw [hw] at h
      have hm : reAccepted.isMatch [c] = isHan c := by
        exact isMatch_plus' isHan [c]
      simp only [List.length_singleton, le_refl, decide_true, Bool.and_true, Bool.not_eq_true, Bool.not_eq_false'] at h
      rw [← hm]; exact h
    | c :: d :: r => left; simp

/-! ## Without interference, initialised tokenizer -/

end Lazy

namespace Co
variable {W α α' β γ σ : Type}

/-- In states satisfying `P` the accesses of `c` change nothing. -/
def Quiet (P : W → Prop) : Co W α β → Prop
  | .ret _ => True
  | .raise _ => True
  | .yield _ k => Quiet P k
  | .act f k => ∀ w, P w → f w = w ∧ Quiet P (k w)

theorem Quiet.bind {P : W → Prop} {c : Co W α β} {g : β → Co W α γ} (h : Quiet P c) (hg : ∀ b, Quiet P (g b)) :
    Quiet P (c >>= g) := by
  rw [bind_def]
  induction c with
  | ret b => exact hg b
  | raise e => trivial
  | yield a k ih => exact ih h
  | act f k ih => exact fun w hw => ⟨(h w hw).1, ih w (h w hw).2⟩

theorem Quiet.get {P : W → Prop} (f : W → β) : Quiet P (Co.get f : Co W α β) := fun _ _ => ⟨rfl, trivial⟩

theorem Quiet.lift {P : W → Prop} (x : Except PyErr β) : Quiet P (Co.lift x : Co W α β) := by cases x <;> trivial

theorem Quiet.yieldAll {P : W → Prop} (l : List α) : Quiet P (Co.yieldAll l : Co W α Unit) := by
  induction l with
  | nil => trivial
  | cons a l ih => exact ih

theorem Quiet.ofGen {P : W → Prop} (g : Gen α) : Quiet P (Co.ofGen g : Co W α Unit) := by
  unfold Co.ofGen
  refine (Quiet.yieldAll _).bind (fun _ => ?_)
  cases g.err <;> trivial

theorem Quiet.drive_world {P : W → Prop} {c : Co W α β} (h : Quiet P c) (n : Nat) (w : W) (hw : P w) :
    (drive (fun _ w => w) c n w).1 = w := by
  induction c generalizing n with
  | ret b => rfl
  | raise e => rfl
  | yield a k ih => exact ih h _
  | act f k ih => simp only [drive, (h w hw).1]; exact ih w (h w hw).2 n

/-- What the loop does with the values one after another. -/
def loopOut (out : α → σ → List α') (next : α → σ → σ) : List α → σ → List α'
  | [], _ => []
  | a :: l, s => out a s ++ loopOut out next l (next a s)

theorem Quiet.drive_forIn {P : W → Prop} {c : Co W α Unit} (h : Quiet P c) {body : α → σ → Co W α' σ} {w : W} (hw : P w)
    (out : α → σ → List α') (next : α → σ → σ)
    (hb : ∀ a s n, drive (fun _ w => w) (body a s) n w = (w, out a s, .ok (next a s))) (s : σ) (n m : Nat) :
    drive (fun _ w => w) (Co.forIn c body s) n w =
      (w, loopOut out next (drive (fun _ w => w) c m w).2.1 s,
        match (drive (fun _ w => w) c m w).2.2 with
        | .ok _ => .ok ((drive (fun _ w => w) c m w).2.1.foldl (fun s a => next a s) s)
        | .error e => .error e) := by
  induction c generalizing s n m with
  | ret b => rfl
  | raise e => rfl
  | yield a k ih =>
    simp only [Co.forIn]
    rw [drive_bind, hb]
    simp only [drive]
    rw [ih h (next a s) _ (m + 1)]
    simp only [loopOut, List.foldl_cons]
  | act f k ih =>
    simp only [Co.forIn, drive, (h w hw).1]
    exact ih w (h w hw).2 s n m

end Co

namespace Lazy
open Co Jieba.Spec

variable {F : Type} [LinearOrder F] {α σ : Type}

theorem quiet_act {W α β : Type} {P : W → Prop} {f : W → W} {k : W → Co W α β} (hf : ∀ w, P w → f w = w)
    (hk : ∀ w, P w → Quiet P (k w)) : Quiet P (.act f k) := fun w hw => ⟨hf w hw, hk w hw⟩

theorem quiet_dagLoopL (P : World → Prop) (t : Nat) (s : Str) (k fuel i : Nat) (frag : Str) (acc : List Nat) :
    Quiet P (dagLoopL t s k fuel i frag acc : Co World α _) := by
  induction fuel generalizing i frag acc with
  | zero => trivial
  | succ fuel ih =>
    unfold dagLoopL
    split
    · refine (Quiet.get _).bind (fun b => ?_)
      split
      · refine (Quiet.get _).bind (fun o => ?_)
        cases o with
        | none => trivial
        | some v => exact ih _ _ _
      · trivial
    · trivial

theorem quiet_dagRowsL (P : World → Prop) (t : Nat) (s : Str) (ks : List Nat) : Quiet P (dagRowsL t s ks : Co World α _) := by
  induction ks with
  | nil => trivial
  | cons k ks ih =>
    unfold dagRowsL dagRowL
    exact Quiet.bind ((quiet_dagLoopL P t s k _ _ _ _).bind (fun _ => show Quiet P (.ret _) from trivial))
      (fun _ => ih.bind (fun _ => show Quiet P (.ret _) from trivial))

theorem quiet_getDAGL (S : Sys F) (t : Nat) (io : Bool) (s : Str) :
    Quiet (fun w => (w.tok t).initialized = true) (getDAGL S t io s : Co World α _) := by
  unfold getDAGL
  refine quiet_act (fun w hw => by rw [checkInit_of_init S w t io hw]) (fun w hw => ?_)
  rw [checkInit_of_init S w t io hw]
  exact quiet_dagRowsL _ t s _

theorem quiet_calcLoopL (P : World → Prop) (S : Sys F) (t : Nat) (lt : F) (s : Str) (dag : List (List Nat)) (n : Nat)
    (tail : List (F × Nat)) : Quiet P (calcLoopL S t lt s dag n tail : Co World α _) := by
  have he : ∀ idx tail L, Quiet P (edgesL S t lt s tail idx L : Co World α _) := by
    intro idx tail L
    induction L with
    | nil => trivial
    | cons x L ih =>
      unfold edgesL
      exact (Quiet.get _).bind (fun _ => (Quiet.lift _).bind (fun _ => ih.bind (fun _ => trivial)))
  induction n generalizing tail with
  | zero => trivial
  | succ n ih =>
    unfold calcLoopL
    cases dag[n]? with
    | none => trivial
    | some L => exact (he _ _ _).bind (fun _ => (Quiet.lift _).bind (fun _ => ih _))

theorem quiet_calcRouteL (P : World → Prop) (S : Sys F) (t : Nat) (s : Str) (dag : List (List Nat)) :
    Quiet P (calcRouteL S t s dag : Co World α _) := by
  unfold calcRouteL
  exact (Quiet.get _).bind (fun _ => (Quiet.lift _).bind (fun _ => quiet_calcLoopL P S t _ s dag _ _))

theorem quiet_forceLoopL (P : World → Prop) (ws : List Str) : Quiet P (forceLoopL ws) := by
  induction ws with
  | nil => trivial
  | cons word ws ih =>
    unfold forceLoopL
    refine (Quiet.get _).bind (fun force => ?_)
    split <;> exact (Quiet.yieldAll _).bind (fun _ => ih)

theorem quiet_finalsegBlocksL (P : World → Prop) (S : Sys F) (blks : List Str) : Quiet P (finalsegBlocksL S blks) := by
  induction blks with
  | nil => trivial
  | cons blk blks ih =>
    unfold finalsegBlocksL
    by_cases hm : reHan.isMatch blk = true
    · simp only [hm, if_true]
      refine (quiet_forceLoopL P _).bind (fun _ => ?_)
      cases (FinalSeg.hmmCut S.A S.tables blk).err with
      | some e => trivial
      | none => exact ih
    · simp only [hm]
      exact (Quiet.yieldAll _).bind (fun _ => ih)

theorem quiet_flushBufL (P : World → Prop) (S : Sys F) (t : Nat) (buf : Str) : Quiet P (flushBufL S t buf) := by
  unfold flushBufL
  split
  · trivial
  · split
    · exact Quiet.yieldAll _
    · refine (Quiet.get _).bind (fun freq => ?_)
      split
      · exact quiet_finalsegBlocksL P S _
      · exact Quiet.yieldAll _

theorem quiet_dagCutLoopL (P : World → Prop) (S : Sys F) (t : Nat) (s : Str) (route : List (F × Nat)) (fuel x : Nat) (buf : Str) :
    Quiet P (dagCutLoopL S t s route fuel x buf) := by
  induction fuel generalizing x buf with
  | zero => exact quiet_flushBufL P S t buf
  | succ fuel ih =>
    unfold dagCutLoopL
    split
    · cases route[x]? with
      | none => trivial
      | some r =>
        simp only []
        split
        · exact ih _ _
        · exact (quiet_flushBufL P S t buf).bind (fun _ => (Quiet.yieldAll _).bind (fun _ => ih _ _))
    · exact quiet_flushBufL P S t buf

theorem quiet_cutL (S : Sys F) (t : Nat) (ca hm : Bool) (s : PyText) (io : Bool) :
    Quiet (fun w => (w.tok t).initialized = true) (cutL S t ca hm s io) := by
  have hb : ∀ blk, Quiet (fun w : World => (w.tok t).initialized = true) (cutBlockL S t ca hm io blk) := by
    intro blk
    unfold cutBlockL cutAllL cutDAGL cutDAGNoHMML
    split
    · exact (quiet_getDAGL S t io blk).bind (fun _ => Quiet.yieldAll _)
    · split
      · exact (quiet_getDAGL S t io blk).bind (fun _ => (quiet_calcRouteL _ S t blk _).bind (fun _ => quiet_dagCutLoopL _ S t blk _ _ _ _))
      · exact (quiet_getDAGL S t io blk).bind (fun _ => (quiet_calcRouteL _ S t blk _).bind (fun _ => Quiet.ofGen _))
  unfold cutL
  induction reHanDefault.split (strdecode S.gbk s) with
  | nil => trivial
  | cons b blks ih =>
    unfold cutBlocksL
    split
    · exact ih
    · by_cases hm' : reHanDefault.isMatch b = true
      · simp only [hm', if_true]; exact (hb b).bind (fun _ => ih)
      · simp only [hm']; exact (Quiet.yieldAll _).bind (fun _ => ih)

theorem drive_gramsL (t n : Nat) (w : Str) (f : Nat → Str → α) (is : List Nat) (k : Nat) (W : World) :
    drive (fun _ w => w) (gramsL t n w f is) k W =
      (W, (is.filter (fun i => Freq.truthy (W.tok t).freq (slice w i (i + n)))).map (fun i => f i (slice w i (i + n))), .ok ()) := by
  induction is generalizing k with
  | nil => rfl
  | cons i is ih =>
    unfold gramsL
    rw [bind_def, (Val.get _ W).drive]
    simp only []
    by_cases h : Freq.truthy (W.tok t).freq (slice w i (i + n)) = true
    · rw [if_pos h, bind_def, drive_bind, drive_yieldAll]
      simp only [ih, List.filter_cons, h]
      rfl
    · rw [if_neg h]
      simp only [List.filter_cons, h]
      exact ih k

theorem drive_seq {c : Co World α Unit} {d : Co World α σ} {w : World} {l1 l2 : List α} {r : Except PyErr σ}
    (hc : ∀ n, drive (fun _ w => w) c n w = (w, l1, .ok ())) (hd : ∀ n, drive (fun _ w => w) d n w = (w, l2, r)) (n : Nat) :
    drive (fun _ w => w) (c >>= fun _ => d) n w = (w, l1 ++ l2, r) := by
  rw [bind_def, drive_bind, hc]; simp only [hd]

/-- `cut_for_search` on an initialised tokenizer. -/
theorem sem_cutForSearchL (S : Sys F) (t : Nat) (hm : Bool) (s : PyText) (io : Bool) (w : World)
    (hi : (w.tok t).initialized = true) :
    sem (cutForSearchL S t hm s io) w =
      (w, (cutW S w t false hm s io).2.mapOut (fun x => grams (w.tok t).freq 2 x ++ grams (w.tok t).freq 3 x ++ [x])) := by
  have key := (quiet_cutL S t false hm s io).drive_forIn (w := w) hi
    (body := fun w (_ : Unit) => do
      if 2 < w.length then gramsL t 2 w (fun _ g => g) (List.range (w.length - 1))
      if 3 < w.length then gramsL t 3 w (fun _ g => g) (List.range (w.length - 2))
      Co.yieldAll [w])
    (fun x _ => grams (w.tok t).freq 2 x ++ grams (w.tok t).freq 3 x ++ [x]) (fun _ _ => ()) ?_ () 0 0
  · have hc := sem_cutL S t false hm s io w
    unfold cutForSearchL
    unfold sem at hc ⊢
    rw [key]
    rw [← hc]
    simp only [Gen.mapOut]
    have hl : ∀ l : List Str, loopOut (fun x (_ : Unit) => grams (w.tok t).freq 2 x ++ grams (w.tok t).freq 3 x ++ [x]) (fun _ _ => ()) l () =
        l.flatMap (fun x => grams (w.tok t).freq 2 x ++ grams (w.tok t).freq 3 x ++ [x]) := by
      intro l
      induction l with
      | nil => rfl
      | cons x l ih => rw [loopOut, ih]; rfl
    rw [hl]
    cases (drive (fun _ w => w) (cutL S t false hm s io) 0 w).2.2 <;> rfl
  · intro x _ n
    have h2 : ∀ n, drive (fun _ w => w) (gramsL t 2 x (fun _ g => g) (List.range (x.length - 1))) n w =
        (w, (((List.range (x.length - 1)).map (fun i => slice x i (i + 2))).filter (fun g => Freq.truthy (w.tok t).freq g)), .ok ()) := by
      intro n; rw [drive_gramsL, List.filter_map]; rfl
    have h3 : ∀ n, drive (fun _ w => w) (gramsL t 3 x (fun _ g => g) (List.range (x.length - 2))) n w =
        (w, (((List.range (x.length - 2)).map (fun i => slice x i (i + 3))).filter (fun g => Freq.truthy (w.tok t).freq g)), .ok ()) := by
      intro n; rw [drive_gramsL, List.filter_map]; rfl
    have hy : ∀ n, drive (fun _ w => w) (Co.yieldAll [x] : Co World Str Unit) n w = (w, [x], .ok ()) := fun n => drive_yieldAll _ _ _
    unfold grams
    by_cases c2 : 2 < x.length
    · by_cases c3 : 3 < x.length
      · simp only [c2, c3, if_true]
        rw [drive_seq h2 (drive_seq h3 hy)]
        simp
      · simp only [c2, c3, if_true, if_false]
        rw [drive_seq h2 hy]
        simp
    · have c3 : ¬ 3 < x.length := by omega
      simp only [c2, c3, if_false]
      rw [hy]; simp

/-- `tokenize` on an initialised tokenizer. -/
theorem sem_tokenizeL (S : Sys F) (t : Nat) (search hm : Bool) (s : Str) (io : Bool) (w : World)
    (hi : (w.tok t).initialized = true) :
    sem (tokenizeL S t search hm (.str s) io) w =
      (w, ⟨tokenizeLoop (w.tok t).freq search (cutW S w t false hm (.str s) io).2.out 0, (cutW S w t false hm (.str s) io).2.err⟩) := by
  have key := (quiet_cutL S t false hm (.str s) io).drive_forIn (w := w) hi
    (body := fun w start => do
      if search then do
        if 2 < w.length then gramsL t 2 w (fun i g => (g, start + i, start + i + 2)) (List.range (w.length - 1))
        if 3 < w.length then gramsL t 3 w (fun i g => (g, start + i, start + i + 3)) (List.range (w.length - 2))
      Co.yieldAll [(w, start, start + w.length)]
      return start + w.length)
    (fun x start => (if search then gramSpans (w.tok t).freq 2 x start ++ gramSpans (w.tok t).freq 3 x start else []) ++
      [(x, start, start + x.length)]) (fun x start => start + x.length) ?_ 0 0 0
  · have hc := sem_cutL S t false hm (.str s) io w
    unfold tokenizeL
    unfold sem at hc ⊢
    simp only [bind_def (α := Str × Nat × Nat) (Co.forIn _ _ _)]
    rw [drive_bind, key, ← hc]
    have hl : ∀ (l : List Str) o, loopOut (fun x start => (if search then gramSpans (w.tok t).freq 2 x start ++ gramSpans (w.tok t).freq 3 x start else []) ++
      [(x, start, start + x.length)]) (fun x start => start + x.length) l o = tokenizeLoop (w.tok t).freq search l o := by
      intro l
      induction l with
      | nil => intro o; rfl
      | cons x l ih => intro o; rw [loopOut, ih, tokenizeLoop]; simp
    rw [hl]
    cases hx : (drive (fun _ w => w) (cutL S t false hm (.str s) io) 0 w).2.2 <;> simp [drive, hx]
  · intro x start n
    have h2 : ∀ n, drive (fun _ w => w) (gramsL t 2 x (fun i g => (g, start + i, start + i + 2)) (List.range (x.length - 1))) n w = (w, _, .ok ()) :=
      fun n => drive_gramsL t 2 x _ _ n w
    have h3 : ∀ n, drive (fun _ w => w) (gramsL t 3 x (fun i g => (g, start + i, start + i + 3)) (List.range (x.length - 2))) n w = (w, _, .ok ()) :=
      fun n => drive_gramsL t 3 x _ _ n w
    have hy : ∀ n, drive (fun _ w => w) (Co.yieldAll [(x, start, start + x.length)] >>= fun _ => pure (start + x.length) : Co World _ Nat) n w =
        (w, [(x, start, start + x.length)], .ok (start + x.length)) := by
      intro n
      rw [drive_seq (fun n => drive_yieldAll _ _ _) (fun n => rfl)]
      rfl
    cases search
    · simp only [Bool.false_eq_true, if_false, List.nil_append]
      exact hy n
    · simp only [if_true]
      unfold gramSpans
      by_cases c2 : 2 < x.length
      · by_cases c3 : 3 < x.length
        · simp only [c2, c3, if_true]
          rw [drive_seq h2 (drive_seq h3 hy)]
          simp
        · simp only [c2, c3, if_true, if_false]
          rw [drive_seq h2 hy]
          simp
      · have c3 : ¬ 3 < x.length := by omega
        simp only [c2, c3, if_false]
        rw [hy]; simp

end Lazy
end Jieba
