import Verif.Proofs.KeyExtract
import Verif.Spec.IdfRace
/-!
# Lemmas about `set_idf_path` while keywords are extracted
-/

set_option linter.unusedSectionVars false

namespace Jieba.Analyse.Steps
open Co Jieba.Spec Jieba.Pos Jieba.Pos.Steps Jieba.PosData

section
variable {W α α' β γ σ : Type}

/-- From state `v` on, if others make only changes allowed by `R`: `c` makes only changes allowed by `G`, and `Q` holds of how it ends and
of the state after its last access. -/
def EndsRG (R G : W → W → Prop) (Q : Except PyErr β → W → Prop) : Co W α β → W → Prop
  | .ret b, v => Q (.ok b) v
  | .raise e, v => Q (.error e) v
  | .yield _ k, v => EndsRG R G Q k v
  | .act f k, v => ∀ w, R v w → G w (f w) ∧ EndsRG R G Q (k w) (f w)

variable {R G : W → W → Prop}

theorem EndsRG.bind {Q' : Except PyErr β → W → Prop} {Q : Except PyErr γ → W → Prop} {c : Co W α β} {g : β → Co W α γ} {v : W}
    (h : EndsRG R G Q' c v) (hg : ∀ b w, Q' (.ok b) w → EndsRG R G Q (g b) w) (he : ∀ e w, Q' (.error e) w → Q (.error e) w) :
    EndsRG R G Q (c >>= g) v := by
  rw [bind_def]
  induction c generalizing v with
  | ret b => exact hg b v h
  | raise e => exact he e v h
  | yield a k ih => exact ih h
  | act f k ih => exact fun w hw => ⟨(h w hw).1, ih w (h w hw).2⟩

theorem EndsRG.get_bind (hG : ∀ w, G w w) {Q : Except PyErr γ → W → Prop} {f : W → β} {g : β → Co W α γ} {v : W}
    (h : ∀ w, R v w → EndsRG R G Q (g (f w)) w) : EndsRG R G Q (Co.get f >>= g) v := fun w hw => ⟨hG w, h w hw⟩

theorem EndsRG.set_bind {Q : Except PyErr γ → W → Prop} {f : W → W} {g : Unit → Co W α γ} {v : W}
    (h : ∀ w, R v w → G w (f w) ∧ EndsRG R G Q (g ()) (f w)) : EndsRG R G Q ((.act f (fun _ => .ret ()) : Co W α Unit) >>= g) v := h

theorem GoodR.ends {R' : W → W → Prop} {E : PyErr → Prop} {Q : β → W → Prop} {Q' : Except PyErr β → W → Prop} {c : Co W α β} {v : W}
    (h : GoodR R' E Q c v) (hR : ∀ a b, R a b → R' a b) (h1 : ∀ b w, Q b w → Q' (.ok b) w) (h2 : ∀ e w, E e → Q' (.error e) w) :
    EndsRG R (fun _ _ => True) Q' c v := by
  induction c generalizing v with
  | ret b => exact h1 b v h
  | raise e => exact h2 e v h
  | yield a k ih => exact ih h
  | act f k ih => exact fun w hw => ⟨trivial, ih w (h w (hR _ _ hw)).2⟩

/-- In a state with `I`, every change that `c` makes is one of `S`. -/
def Pres (I : W → Prop) (S : W → W → Prop) : Co W α β → Prop
  | .ret _ => True
  | .raise _ => True
  | .yield _ k => Pres I S k
  | .act f k => ∀ w, I w → S w (f w) ∧ Pres I S (k w)

variable {I : W → Prop} {S : W → W → Prop}

theorem Pres.bind {c : Co W α β} {g : β → Co W α γ} (h : Pres I S c) (hg : ∀ b, Pres I S (g b)) : Pres I S (c >>= g) := by
  rw [bind_def]
  induction c with
  | ret b => exact hg b
  | raise e => trivial
  | yield a k ih => exact ih h
  | act f k ih => exact fun w hw => ⟨(h w hw).1, ih w (h w hw).2⟩

theorem Pres.get (hS : ∀ w, S w w) (f : W → β) : Pres I S (Co.get f : Co W α β) := fun w _ => ⟨hS w, trivial⟩

theorem Pres.lift (r : Except PyErr β) : Pres I S (Co.lift r : Co W α β) := by
  cases r <;> trivial

theorem Pres.forIn {body : α → σ → Co W α' σ} (hb : ∀ a s, Pres I S (body a s)) {c : Co W α Unit} (hc : Pres I S c) (s : σ) :
    Pres I S (Co.forIn c body s) := by
  induction c generalizing s with
  | ret b => trivial
  | raise e => trivial
  | yield a k ih => exact Pres.bind (hb a s) (fun s' => ih hc s')
  | act f k ih => exact fun w hw => ⟨(hc w hw).1, ih w (hc w hw).2 s⟩

end

section
variable {F : Type} [LinearOrder F] {α β : Type} {K : KSys F} {t : Nat} {w0 : KWorld F} {calls : List KCall}

/-- The IDF part of extractor `e` is untouched, and so is table `r0`. -/
structure Own (e r0 : Nat) (v w : KWorld F) : Prop where
  path : (w.tf e).path = (v.tf e).path
  lidf : (w.tf e).lidf = (v.tf e).lidf
  lmedian : (w.tf e).lmedian = (v.tf e).lmedian
  idf : (w.tf e).idf = (v.tf e).idf
  median : (w.tf e).median = (v.tf e).median
  dl : w.dicts (v.tf e).lidf = v.dicts (v.tf e).lidf
  di : w.dicts (v.tf e).idf = v.dicts (v.tf e).idf
  d0 : w.dicts r0 = v.dicts r0

theorem Own.refl {e r0 : Nat} (w : KWorld F) : Own e r0 w w := ⟨rfl, rfl, rfl, rfl, rfl, rfl, rfl, rfl⟩

theorem Own.trans {e r0 : Nat} {a b c : KWorld F} (h : Own e r0 a b) (h' : Own e r0 b c) : Own e r0 a c :=
  ⟨h'.path.trans h.path, h'.lidf.trans h.lidf, h'.lmedian.trans h.lmedian, h'.idf.trans h.idf, h'.median.trans h.median,
    by rw [← h.dl, ← h.lidf, h'.dl], by rw [← h.di, ← h.idf, h'.di], h'.d0.trans h.d0⟩

theorem Own.same {e r0 : Nat} {v w : KWorld F} (h : w.tf e = v.tf e) (hd : w.dicts = v.dicts) : Own e r0 v w :=
  ⟨by rw [h], by rw [h], by rw [h], by rw [h], by rw [h], by rw [hd], by rw [hd], by rw [hd]⟩

/-- What holds at every moment about the references. -/
structure Refs (K : KSys F) (t : Nat) (w0 : KWorld F) (calls : List KCall) (e r0 : Nat) (w : KWorld F) : Prop where
  inv : Inv K t w0 calls w
  lt : r0 < w.next
  ne : ∀ i, i ≠ e → ¬ IdfKept calls i → (w.tf i).lidf ≠ r0

theorem Rel.refs {e : Nat} {w : KWorld F} (h0 : Inv K t w0 calls w0) (h : Rel K t w0 calls w0 w) : Refs K t w0 calls e (w0.tf e).idf w := by
  have h1 := (h0.refs e).1
  refine ⟨h.inv, lt_of_lt_of_le h1 h.next, fun i hi hk => ?_⟩
  rcases h.fresh i with g | g
  · rw [g]; exact (h0.apart i e hk hi).2
  · omega

/-! ## The others leave the IDF table alone -/

variable {e r0 : Nat}

local notation "Leaves" => Pres (Refs K t w0 calls e r0) (Own e r0)

theorem leaves_get (f : KWorld F → β) : Leaves (Co.get f : Co (KWorld F) α β) := Pres.get (fun w => Own.refl w) f

theorem leaves_onP (c : Co PWorld α β) : Leaves (onP (F := F) c) := by
  induction c with
  | ret b => trivial
  | raise e => trivial
  | yield a k ih => exact ih
  | act f k ih => exact fun w _ => ⟨Own.same rfl rfl, ih w.p⟩

theorem leaves_countL (e' : Nat) (k : Key) (d : PyDict Key F) : Leaves (countL K e' k d : Co (KWorld F) α _) := by
  unfold countL
  split
  · trivial
  · exact Pres.bind (leaves_get _) (fun _ => trivial)

theorem leaves_countsL (e' : Nat) (s : PyText) (allow : List Str) (wf io : Bool) :
    Leaves (countsL K e' s allow wf io : Co (KWorld F) α _) := by
  unfold countsL
  split
  · exact Pres.bind (leaves_get _) (fun _ => Pres.forIn (fun _ _ => leaves_countL _ _ _) (leaves_onP _) _)
  · refine Pres.bind (leaves_get _) (fun _ => Pres.forIn (fun _ _ => ?_) (leaves_onP _) _)
    split
    · exact leaves_countL _ _ _
    · trivial

theorem leaves_scaleL (e' : Nat) (total : F) (d : PyDict Key F) : Leaves (scaleL K.pos.sys.A e' total d : Co (KWorld F) α _) := by
  induction d with
  | nil => trivial
  | cons a d ih =>
    exact Pres.bind (leaves_get _) (fun _ => Pres.bind (leaves_get _) (fun _ => Pres.bind (leaves_get _) (fun _ =>
      Pres.bind (Pres.lift _) (fun _ => Pres.bind ih (fun _ => trivial)))))

theorem leaves_tagsL (e' : Nat) (s : PyText) (topK : Option Int) (ww : Bool) (allow : List Str) (wf io : Bool) :
    Leaves (tagsL K e' s topK ww allow wf io : Co (KWorld F) α _) :=
  Pres.bind (leaves_countsL _ _ _ _ _) (fun _ => Pres.bind (leaves_scaleL _ _ _) (fun _ => Pres.lift _))

theorem leaves_pairfilterL (e' : Nat) (x : Pair) : Leaves (pairfilterL K e' x : Co (KWorld F) α _) := by
  refine Pres.bind (leaves_get _) (fun _ => ?_)
  split
  · exact leaves_get _
  · trivial

theorem leaves_windowL (e' : Nat) (mk : Pair → Key) (wp : Pair) (ws : List Pair) (cm : PyDict (Key × Key) Nat) :
    Leaves (windowL K e' mk wp ws cm : Co (KWorld F) α _) := by
  induction ws generalizing cm with
  | nil => trivial
  | cons x ws ih => exact Pres.bind (leaves_pairfilterL _ _) (fun _ => ih _)

theorem leaves_cooccurL (e' : Nat) (mk : Pair → Key) (ws : List Pair) (cm : PyDict (Key × Key) Nat) :
    Leaves (cooccurL K e' mk ws cm : Co (KWorld F) α _) := by
  induction ws generalizing cm with
  | nil => trivial
  | cons x ws ih =>
    refine Pres.bind (leaves_pairfilterL _ _) (fun ok => ?_)
    cases ok with
    | false => exact ih _
    | true => exact Pres.bind (leaves_get _) (fun _ => Pres.bind (leaves_windowL _ _ _ _ _) (fun _ => ih _))

theorem leaves_rankL (R : RSys F) (hK : R.k = K) (e' : Nat) (s : PyText) (topK : Option Int) (ww : Bool) (allow : List Str) (wf io : Bool) :
    Leaves (rankL R e' s topK ww allow wf io : Co (KWorld F) α _) := by
  subst hK
  refine Pres.bind (c := (.act _ _ : Co (KWorld F) α Unit)) (fun w _ => ⟨Own.same rfl rfl, trivial⟩) (fun _ => ?_)
  refine Pres.bind (leaves_get _) (fun _ => ?_)
  refine Pres.bind ?_ (fun _ => ?_)
  · exact Pres.forIn (body := fun x ws => .ret (ws ++ [x])) (fun _ _ => trivial) (leaves_onP _) _
  exact Pres.bind (leaves_cooccurL _ _ _ _) (fun _ => Pres.bind (Pres.lift _) (fun _ => Pres.lift _))

theorem own_addStop (x : Extractor) (l : Str) (w : KWorld F) : Own e r0 w (addStop x l w) := by
  cases x with
  | rk i => exact Own.same rfl rfl
  | tf i =>
    unfold addStop KWorld.setTf
    by_cases hi : e = i
    · subst hi; constructor <;> simp
    · constructor <;> simp [hi]

theorem leaves_addStopsL (x : Extractor) (ls : List Str) : Leaves (addStopsL x ls : Co (KWorld F) α Unit) := by
  induction ls with
  | nil => trivial
  | cons l ls ih => exact Pres.bind (c := (.act _ _ : Co (KWorld F) α Unit)) (fun w _ => ⟨own_addStop x l w, trivial⟩) (fun _ => ih)

theorem leaves_stopL (x : Extractor) (path : Path) : Leaves (stopL K x path : Co (KWorld F) α Unit) := by
  refine Pres.bind (leaves_get _) (fun f => ?_)
  cases f with
  | none => trivial
  | some f =>
    refine Pres.bind (leaves_get _) (fun f => ?_)
    cases f with
    | none => trivial
    | some f =>
      simp only []
      split
      · trivial
      · exact leaves_addStopsL _ _

theorem own_setTf {i : Nat} (hi : i ≠ e) (y : TfObj F) (w : KWorld F) : Own e r0 w (w.setTf i y) :=
  Own.same (by simp [KWorld.setTf, hi.symm]) rfl

theorem leaves_idfLinesL {i : Nat} (hi : i ≠ e) (hk : ¬ IdfKept calls i) (ls : List Str) : Leaves (idfLinesL K i ls : Co (KWorld F) α Unit) := by
  induction ls with
  | nil => trivial
  | cons l ls ih =>
    unfold idfLinesL
    split
    · trivial
    · next word x _ =>
      refine Pres.bind (c := (.act _ _ : Co (KWorld F) α Unit)) (fun w hw => ⟨?_, trivial⟩) (fun _ => ih)
      have h1 := hw.inv.apart i e hk hi
      have h2 := hw.ne i hi hk
      constructor <;> simp [KWorld.setDict, h1.1.symm, h1.2.symm, h2.symm]

theorem leaves_idfL {i : Nat} (hi : i ≠ e) (hk : ¬ IdfKept calls i) (path : Path) : Leaves (idfL K i path : Co (KWorld F) α Unit) := by
  refine Pres.bind (leaves_get _) (fun f => ?_)
  cases f with
  | none => trivial
  | some f =>
    refine Pres.bind ?_ (fun _ => Pres.bind (leaves_get _) (fun _ => Pres.bind (leaves_get _) (fun _ => Pres.bind
      (c := (.act _ _ : Co (KWorld F) α Unit)) (fun w _ => ⟨own_setTf hi _ w, trivial⟩) (fun _ => fun w _ => ⟨own_setTf hi _ w, trivial⟩))))
    refine Pres.bind (leaves_get _) (fun p => ?_)
    split
    · trivial
    · refine Pres.bind (c := (.act _ _ : Co (KWorld F) α Unit)) (fun w _ => ⟨own_setTf hi _ w, trivial⟩) (fun _ => ?_)
      refine Pres.bind (leaves_get _) (fun f => ?_)
      split
      · trivial
      · split
        · trivial
        · refine Pres.bind (c := (.act _ _ : Co (KWorld F) α Unit)) (fun w hw => ⟨?_, trivial⟩) (fun _ => ?_)
          · have h1 := hw.inv.refs e
            have h2 := hw.lt
            have e1 : (w.tf e).lidf ≠ w.next := by omega
            have e2 : (w.tf e).idf ≠ w.next := by omega
            have e3 : r0 ≠ w.next := by omega
            constructor <;> simp [KWorld.setDict, KWorld.setTf, hi.symm, e1, e2, e3]
          · refine Pres.bind (leaves_idfLinesL hi hk _) (fun _ => ?_)
            refine Pres.bind (leaves_get _) (fun _ => Pres.bind (leaves_get _) (fun _ => ?_))
            split
            · trivial
            · exact fun w _ => ⟨own_setTf hi _ w, trivial⟩

theorem leaves_prog (R : RSys F) (hK : R.k = K) (io : Bool) (c : KCall) (hc : c ∈ calls) (he : ∀ path, c ≠ .idf e path) :
    Leaves (c.prog R t io) := by
  subst hK
  cases c with
  | tok c => exact Pres.bind (leaves_onP _) (fun _ => trivial)
  | tags e' s topK ww allow wf => exact Pres.bind (leaves_tagsL _ _ _ _ _ _ _) (fun _ => trivial)
  | rank e' s topK ww allow wf => exact Pres.bind (leaves_rankL R rfl _ _ _ _ _ _ _) (fun _ => trivial)
  | stop x path => exact Pres.bind (leaves_stopL _ _) (fun _ => trivial)
  | idf i path =>
    by_cases hi : i = e
    · subst hi; exact absurd rfl (he path)
    · exact Pres.bind (leaves_idfL hi (fun h => h path hc) _) (fun _ => trivial)

/-! ## The call that changes the IDF table -/

/-- The IDF part of extractor `e`: path, reference, table and median of the loader; reference, table and median in use. -/
structure At (e : Nat) (w : KWorld F) (p : Path) (l : Nat) (dl : PyDict Str F) (lm : F) (i : Nat) (di : PyDict Str F) (m : F) : Prop where
  path : (w.tf e).path = p
  lidf : (w.tf e).lidf = l
  dl : w.dicts l = dl
  lmedian : (w.tf e).lmedian = lm
  idf : (w.tf e).idf = i
  di : w.dicts i = di
  median : (w.tf e).median = m

theorem At.own {v w : KWorld F} {p l dl lm i di m} (h : At e v p l dl lm i di m) (ho : Own e r0 v w) : At e w p l dl lm i di m :=
  ⟨ho.path.trans h.path, ho.lidf.trans h.lidf, by rw [← h.lidf, ho.dl, h.lidf, h.dl], ho.lmedian.trans h.lmedian, ho.idf.trans h.idf,
    by rw [← h.idf, ho.di, h.idf, h.di], ho.median.trans h.median⟩

/-- The table or the median in use is replaced by the new one (once). -/
structure Swap (e r0 : Nat) (Dn : PyDict Str F) (mn : F) (w w' : KWorld F) : Prop where
  d0 : w'.dicts r0 = w.dicts r0
  idf : ((w'.tf e).idf = (w.tf e).idf ∧ w'.dicts (w.tf e).idf = w.dicts (w.tf e).idf) ∨ ((w.tf e).idf = r0 ∧ w'.dicts (w'.tf e).idf = Dn)
  median : (w'.tf e).median = (w.tf e).median ∨ (w'.tf e).median = mn

theorem Swap.refl {Dn : PyDict Str F} {mn : F} (w : KWorld F) : Swap e r0 Dn mn w w := ⟨rfl, Or.inl ⟨rfl, rfl⟩, Or.inl rfl⟩

theorem Own.swap {Dn : PyDict Str F} {mn : F} {w w' : KWorld F} (h : Own e r0 w w') : Swap e r0 Dn mn w w' :=
  ⟨h.d0, Or.inl ⟨h.idf, h.di⟩, Or.inl h.median⟩

/-- What the others do while `e` is changed. -/
abbrev Hands (K : KSys F) (t : Nat) (w0 : KWorld F) (calls : List KCall) (e r0 : Nat) (v w : KWorld F) : Prop :=
  Refs K t w0 calls e r0 w ∧ Own e r0 v w

local notation "H" => Hands K t w0 calls e r0

theorem idfLinesL_ends {Dn : PyDict Str F} {mn : F} (ls : List Str) (v : KWorld F) {p l dl lm di m} (h : At e v p l dl lm r0 di m) (hl : l ≠ r0) :
    EndsRG H (Swap e r0 Dn mn) (fun r w => r = (idfLoop K ls dl).2 ∧ At e w p l (idfLoop K ls dl).1 lm r0 di m)
      (idfLinesL K e ls : Co (KWorld F) α Unit) v := by
  induction ls generalizing v dl with
  | nil => exact ⟨rfl, h⟩
  | cons x ls ih =>
    unfold idfLinesL idfLoop
    cases idfLine K x with
    | none => exact ⟨rfl, h⟩
    | some wy =>
      obtain ⟨word, y⟩ := wy
      refine EndsRG.set_bind (fun w hw => ?_)
      have hw' := h.own hw.2
      rw [hw'.lidf, hw'.dl]
      refine ⟨⟨?_, Or.inl ⟨rfl, ?_⟩, Or.inl rfl⟩, ih _ ⟨hw'.path, hw'.lidf, ?_, hw'.lmedian, hw'.idf, ?_, hw'.median⟩⟩
      · simp [KWorld.setDict, hl.symm]
      · simp [KWorld.setDict, hw'.idf, hl.symm]
      · simp [KWorld.setDict]
      · have := hw'.di
        simpa [KWorld.setDict, hl.symm] using this

theorem newPathL_ends {Dn : PyDict Str F} {mn : F} (path : Path) (f : File) (hf : w0.p.w.files path = some f) (v : KWorld F) {p l dl lm di m}
    (h : At e v p l dl lm r0 di m) :
    EndsRG H (Swap e r0 Dn mn) (fun r w => r = (setNewPath K ⟨p, dl, lm⟩ path f.data).2 ∧ ∃ l',
        At e w (setNewPath K ⟨p, dl, lm⟩ path f.data).1.path l' (setNewPath K ⟨p, dl, lm⟩ path f.data).1.freq
          (setNewPath K ⟨p, dl, lm⟩ path f.data).1.median r0 di m)
      (newPathL K e path : Co (KWorld F) α Unit) v := by
  unfold newPathL
  refine EndsRG.get_bind Swap.refl (fun w hw => ?_)
  have h := h.own hw.2
  rw [h.path]
  unfold setNewPath
  by_cases hp : p = path
  · simp only [if_pos hp]
    exact ⟨rfl, l, h⟩
  · simp only [if_neg hp]
    refine EndsRG.set_bind (fun w hw => ⟨⟨rfl, Or.inl ⟨by simp [KWorld.setTf], rfl⟩, Or.inl (by simp [KWorld.setTf])⟩, ?_⟩)
    have h := h.own hw.2
    have h1 : At e (w.setTf e { w.tf e with path := path }) path l dl lm r0 di m :=
      ⟨by simp [KWorld.setTf], by simpa [KWorld.setTf] using h.lidf, h.dl, by simpa [KWorld.setTf] using h.lmedian,
        by simpa [KWorld.setTf] using h.idf, h.di, by simpa [KWorld.setTf] using h.median⟩
    refine EndsRG.get_bind Swap.refl (fun w hw => ?_)
    rw [hw.1.inv.files.1, hf]
    have h := h1.own hw.2
    simp only []
    cases utf8Decode f.data with
    | none => exact ⟨rfl, l, h⟩
    | some content =>
      simp only []
      refine EndsRG.set_bind (fun w hw => ?_)
      have h := h.own hw.2
      have hr0 : r0 ≠ w.next := ne_of_lt hw.1.lt
      refine ⟨⟨by simp [KWorld.setDict, KWorld.setTf, hr0], Or.inl ⟨by simp [KWorld.setDict, KWorld.setTf], by simp [KWorld.setDict, KWorld.setTf, h.idf, hr0]⟩,
        Or.inl (by simp [KWorld.setDict, KWorld.setTf])⟩, ?_⟩
      have h2 : At e { (w.setTf e { w.tf e with lidf := w.next }).setDict w.next [] with next := w.next + 1 } path w.next [] lm r0 di m :=
        ⟨by simpa [KWorld.setDict, KWorld.setTf] using h.path, by simp [KWorld.setDict, KWorld.setTf], by simp [KWorld.setDict, KWorld.setTf],
          by simpa [KWorld.setDict, KWorld.setTf] using h.lmedian, by simpa [KWorld.setDict, KWorld.setTf] using h.idf,
          by simpa [KWorld.setDict, KWorld.setTf, hr0] using h.di, by simpa [KWorld.setDict, KWorld.setTf] using h.median⟩
      have hlines := idfLinesL_ends (K := K) (t := t) (w0 := w0) (calls := calls) (α := α) (Dn := Dn) (mn := mn) (splitlines content) _ h2 hr0.symm
      generalize idfLoop K (splitlines content) [] = q at hlines
      obtain ⟨d, r⟩ := q
      refine EndsRG.bind hlines ?_ ?_
      · rintro _ u ⟨hr, hu⟩
        simp only [] at hr hu
        subst hr
        simp only []
        refine EndsRG.get_bind Swap.refl (fun u1 hu1 => ?_)
        refine EndsRG.get_bind Swap.refl (fun u2 hu2 => ?_)
        have h3 := hu.own hu1.2
        have h4 := h3.own hu2.2
        rw [h3.lidf, h3.dl, h4.lidf, h4.dl]
        cases (sortBy (fun a b => decide (a ≤ b)) d.values)[d.length / 2]? with
        | none => exact ⟨rfl, _, h4⟩
        | some m' =>
          intro u3 hu3
          have h5 := h4.own hu3.2
          refine ⟨⟨rfl, Or.inl ⟨by simp [KWorld.setTf], rfl⟩, Or.inl (by simp [KWorld.setTf])⟩, rfl, w.next, ?_⟩
          exact ⟨by simpa [KWorld.setTf] using h5.path, by simpa [KWorld.setTf] using h5.lidf, h5.dl, by simp [KWorld.setTf],
            by simpa [KWorld.setTf] using h5.idf, h5.di, by simpa [KWorld.setTf] using h5.median⟩
      · rintro er u ⟨hr, hu⟩
        simp only [] at hr hu
        subst hr
        exact ⟨rfl, _, hu⟩

theorem Looks.own {v w : KWorld F} {x : Tfidf F} (h : Looks v e x) (ho : Own e r0 v w) : Looks w e x :=
  ⟨ho.path.trans h.path, by rw [ho.lidf, ho.dl, h.freq], ho.lmedian.trans h.lmedian, by rw [ho.idf, ho.di, h.idf], ho.median.trans h.median⟩

theorem At.looks {v : KWorld F} {p l dl lm i di m} (h : At e v p l dl lm i di m) {x : Tfidf F}
    (hx : x.loader = ⟨p, dl, lm⟩) (h1 : x.idf = di) (h2 : x.median = m) : Looks v e x := by
  refine ⟨?_, ?_, ?_, ?_, ?_⟩
  · rw [hx]; exact h.path
  · rw [hx, h.lidf]; exact h.dl
  · rw [hx]; exact h.lmedian
  · rw [h1, h.idf]; exact h.di
  · rw [h2]; exact h.median

/-- `set_idf_path` does what it does alone. -/
theorem idfL_ends (path : Path) (hr0 : r0 = (w0.tf e).idf) :
    EndsRG H (Swap e r0 (setIdfPath K w0.p.w (extractorOf w0 e) path).1.idf (setIdfPath K w0.p.w (extractorOf w0 e) path).1.median)
      (fun r w => r = (setIdfPath K w0.p.w (extractorOf w0 e) path).2 ∧ Looks w e (setIdfPath K w0.p.w (extractorOf w0 e) path).1)
      (idfL K e path : Co (KWorld F) α Unit) w0 := by
  have h0 : At e w0 (w0.tf e).path (w0.tf e).lidf (w0.dicts (w0.tf e).lidf) (w0.tf e).lmedian r0 (w0.dicts (w0.tf e).idf) (w0.tf e).median :=
    ⟨rfl, rfl, rfl, rfl, hr0.symm, by rw [hr0], rfl⟩
  unfold idfL
  refine EndsRG.get_bind Swap.refl (fun w hw => ?_)
  rw [hw.1.inv.files.1]
  have h := h0.own hw.2
  unfold setIdfPath
  cases hf : w0.p.w.files (K.pos.sys.abspath path) with
  | none => exact ⟨rfl, h.looks rfl rfl rfl⟩
  | some f =>
    simp only []
    have hn := fun Dn mn => newPathL_ends (K := K) (t := t) (w0 := w0) (calls := calls) (α := α) (Dn := Dn) (mn := mn) _ f hf w h
    have hx : (extractorOf w0 e).loader = ⟨(w0.tf e).path, w0.dicts (w0.tf e).lidf, (w0.tf e).lmedian⟩ := rfl
    rw [hx]
    generalize setNewPath K ⟨(w0.tf e).path, w0.dicts (w0.tf e).lidf, (w0.tf e).lmedian⟩ (K.pos.sys.abspath path) f.data = q at hn
    obtain ⟨L, r⟩ := q
    refine EndsRG.bind (hn _ _) ?_ ?_
    · rintro _ u ⟨hr, l', hu⟩
      simp only [] at hr hu
      subst hr
      simp only []
      refine EndsRG.get_bind Swap.refl (fun u1 hu1 => ?_)
      refine EndsRG.get_bind Swap.refl (fun u2 hu2 => ?_)
      have h1 := hu.own hu1.2
      have h2 := h1.own hu2.2
      rw [h1.lidf, h2.lmedian]
      refine EndsRG.set_bind (fun u3 hu3 => ?_)
      have h3 := h2.own hu3.2
      have h4 : At e (u3.setTf e { u3.tf e with idf := l' }) L.path l' L.freq L.median l' L.freq (w0.tf e).median :=
        ⟨by simpa [KWorld.setTf] using h3.path, by simpa [KWorld.setTf] using h3.lidf, h3.dl, by simpa [KWorld.setTf] using h3.lmedian,
          by simp [KWorld.setTf], h3.dl, by simpa [KWorld.setTf] using h3.median⟩
      refine ⟨⟨rfl, Or.inr ⟨h3.idf, ?_⟩, Or.inl (by simp [KWorld.setTf])⟩, ?_⟩
      · rw [h4.idf]; exact h4.di
      · intro u4 hu4
        have h5 := h4.own hu4.2
        have h6 : At e (u4.setTf e { u4.tf e with median := L.median }) L.path l' L.freq L.median l' L.freq L.median :=
          ⟨by simpa [KWorld.setTf] using h5.path, by simpa [KWorld.setTf] using h5.lidf, h5.dl, by simpa [KWorld.setTf] using h5.lmedian,
            by simpa [KWorld.setTf] using h5.idf, h5.dl, by simp [KWorld.setTf]⟩
        exact ⟨⟨rfl, Or.inl ⟨by simp [KWorld.setTf], rfl⟩, Or.inr (by simp [KWorld.setTf])⟩, rfl, h6.looks rfl rfl rfl⟩
    · rintro er u ⟨hr, l', hu⟩
      simp only [] at hr hu
      subst hr
      exact ⟨rfl, hu.looks rfl rfl rfl⟩

/-! ## Extraction in the meantime -/

/-- At every moment the table in use is the old one or the new one, and so is the median. -/
structure OldOrNew (w0 : KWorld F) (e : Nat) (Dn : PyDict Str F) (mn : F) (w : KWorld F) : Prop where
  d0 : w.dicts (w0.tf e).idf = w0.dicts (w0.tf e).idf
  idf : (w.tf e).idf = (w0.tf e).idf ∨ w.dicts (w.tf e).idf = Dn
  median : (w.tf e).median = (w0.tf e).median ∨ (w.tf e).median = mn

/-- The table in use is replaced at most once. -/
def Once (w0 : KWorld F) (e : Nat) (v w : KWorld F) : Prop := (v.tf e).idf ≠ (w0.tf e).idf → (w.tf e).idf = (v.tf e).idf

theorem Swap.step {Dn : PyDict Str F} {mn : F} {w w' : KWorld F} (h : Swap e (w0.tf e).idf Dn mn w w') (hw : OldOrNew w0 e Dn mn w) :
    OldOrNew w0 e Dn mn w' ∧ Once w0 e w w' := by
  refine ⟨⟨h.d0.trans hw.d0, ?_, ?_⟩, fun hne => ?_⟩
  · rcases h.idf with ⟨h1, h2⟩ | ⟨h1, h2⟩
    · rcases hw.idf with h3 | h3
      · exact Or.inl (h1.trans h3)
      · exact Or.inr (by rw [h1, h2, h3])
    · exact Or.inr h2
  · rcases h.median with h1 | h1
    · rw [h1]; exact hw.median
    · exact Or.inr h1
  · rcases h.idf with ⟨h1, -⟩ | ⟨h1, -⟩
    · exact h1
    · exact absurd h1 hne

/-- What may happen while keywords are extracted. -/
structure Meanwhile (K : KSys F) (t : Nat) (w0 : KWorld F) (calls : List KCall) (e : Nat) (Dn : PyDict Str F) (mn : F) (v w : KWorld F) : Prop where
  rel : Rel K t w0 calls v w
  old : OldOrNew w0 e Dn mn w
  once : Once w0 e v w

theorem Meanwhile.trans {Dn : PyDict Str F} {mn : F} {a b c : KWorld F} (h : Meanwhile K t w0 calls e Dn mn a b)
    (h' : Meanwhile K t w0 calls e Dn mn b c) : Meanwhile K t w0 calls e Dn mn a c :=
  ⟨Rel.trans _ _ _ h.rel h'.rel, h'.old, fun hne => (h'.once (by rw [h.once hne]; exact hne)).trans (h.once hne)⟩

theorem scaleL_ends {Dn : PyDict Str F} {mn : F} (total : F) (d : PyDict Key F) (hd : d = [] ∨ total ≠ K.pos.sys.A.zero) (v : KWorld F) :
    EndsRG (Meanwhile K t w0 calls e Dn mn) (fun _ _ => True)
      (fun r _ => ∃ d', r = .ok d' ∧ List.Forall₂ (fun a b => b.1 = a.1 ∧ ∃ x, IdfNow w0 e Dn mn a.1.text x ∧
        b.2 = K.pos.sys.A.mul a.2 (K.pos.sys.A.div x total)) d d')
      (scaleL K.pos.sys.A e total d : Co (KWorld F) α (PyDict Key F)) v := by
  induction d generalizing v with
  | nil => exact ⟨[], rfl, .nil⟩
  | cons a d ih =>
    obtain ⟨k, y⟩ := a
    have ht : total ≠ K.pos.sys.A.zero := by simpa using hd
    unfold scaleL
    refine EndsRG.get_bind (fun _ => trivial) (fun w1 hw1 => ?_)
    refine EndsRG.get_bind (fun _ => trivial) (fun w2 hw2 => ?_)
    refine EndsRG.get_bind (fun _ => trivial) (fun w3 hw3 => ?_)
    have hx : IdfNow w0 e Dn mn k.text (((w3.dicts (w1.tf e).idf).get? k.text).getD (w2.tf e).median) := by
      refine ⟨_, _, ?_, hw2.old.median, rfl⟩
      by_cases h1 : (w1.tf e).idf = (w0.tf e).idf
      · rw [h1]; exact Or.inl hw3.old.d0
      · have h2 := (hw2.trans hw3).once h1
        rcases hw3.old.idf with h3 | h3
        · exact absurd (h2.symm.trans h3) h1
        · rw [← h2]; exact Or.inr h3
    simp only [pyDiv, if_neg ht]
    change EndsRG _ _ _ ((scaleL K.pos.sys.A e total d : Co (KWorld F) α _) >>= _) w3
    refine EndsRG.bind (ih (Or.inr ht) w3) ?_ ?_
    · rintro d' w ⟨d'', h1, h2⟩
      cases h1
      exact ⟨_, rfl, .cons ⟨rfl, _, hx, rfl⟩ h2⟩
    · rintro er w ⟨d'', h1, h2⟩
      cases h1

/-- What `extract_tags` returns in the meantime. -/
def WeighedPost (K : KSys F) (w0 : KWorld F) (calls : List KCall) (e : Nat) (Dn : PyDict Str F) (mn : F) (text : Str) (topK : Option Int)
    (ww : Bool) (allow : List Str) (wf : Bool) (l : List (Key × Option F)) : Prop :=
  ∃ cs ks d tags, Candidates text allow wf cs ∧ Counted K w0 calls (.tf e) cs ks ∧
    List.Forall₂ (fun a b => b.1 = a.1 ∧ ∃ x, IdfNow w0 e Dn mn a.1.text x ∧ b.2 = K.pos.sys.A.mul a.2 (K.pos.sys.A.div x
      ((countKeys K.pos.sys.A ks).values.foldl K.pos.sys.A.add K.pos.sys.A.zero))) (countKeys K.pos.sys.A ks) d ∧
    rankTags d ww = .ok tags ∧ l = topOf topK tags

theorem tagsL_ends {Dn : PyDict Str F} {mn : F} (hT : Shipped K.pos.tables) (hσ : ∀ s t l, (K.pos.σ s t l).Perm l)
    (hN : ∀ ks : List Key, ks ≠ [] → (countKeys K.pos.sys.A ks).values.foldl K.pos.sys.A.add K.pos.sys.A.zero ≠ K.pos.sys.A.zero)
    (s : PyText) (topK : Option Int) (ww : Bool) (allow : List Str)
    (wf io : Bool) (hc : if allow = [] then (w0.tf e).tok = t else (w0.p.pos (w0.tf e).pos).tok = t) (v : KWorld F)
    (hv : Inv K t w0 calls v) :
    EndsRG (Meanwhile K t w0 calls e Dn mn) (fun _ _ => True)
      (fun r _ => ∃ l, r = .ok l ∧ WeighedPost K w0 calls e Dn mn (strdecode K.pos.sys.gbk s) topK ww allow wf l)
      (tagsL K e s topK ww allow wf io : Co (KWorld F) α _) v := by
  unfold tagsL
  refine EndsRG.bind ((countsL_good (E := fun _ => False) hT hσ e s allow wf io hc v hv).ends (R := Meanwhile K t w0 calls e Dn mn)
    (Q' := fun r _ => ∃ f cs ks, r = .ok f ∧ Candidates (strdecode K.pos.sys.gbk s) allow wf cs ∧ Counted K w0 calls (.tf e) cs ks ∧
      f = countKeys K.pos.sys.A ks) (fun a b h => h.rel) ?_ (fun _ _ h => h.elim)) ?_ ?_
  · rintro f w ⟨cs, ks, h1, h2, h3⟩
    exact ⟨f, cs, ks, rfl, h1, h2, h3⟩
  · rintro f u ⟨f', cs, ks, h0, h1, h2, h3⟩
    cases h0
    subst h3
    refine EndsRG.bind (scaleL_ends _ _ ?_ u) ?_ ?_
    · by_cases hk : ks = []
      · subst hk; exact Or.inl rfl
      · exact Or.inr (hN ks hk)
    · rintro d w ⟨d', h3, h4⟩
      cases h3
      have hkeys : d.keys = (countKeys K.pos.sys.A ks).keys := by
        have : ∀ {a b : PyDict Key F}, List.Forall₂ (fun x y : Key × F => y.1 = x.1 ∧ ∃ z, IdfNow w0 e Dn mn x.1.text z ∧
            y.2 = K.pos.sys.A.mul x.2 (K.pos.sys.A.div z ((countKeys K.pos.sys.A ks).values.foldl K.pos.sys.A.add K.pos.sys.A.zero))) a b → b.keys = a.keys := by
          intro a b h
          induction h with
          | nil => rfl
          | cons h _ ih =>
            simp only [PyDict.keys, List.map_cons] at ih ⊢
            rw [h.1, ih]
        exact this h4
      obtain ⟨tags, ht⟩ := rankTags_ok d (hkeys ▸ countKeys_nodup _ ks) ww
      rw [ht]
      exact ⟨_, rfl, cs, ks, d, tags, h1, h2, h4, ht, rfl⟩
    · rintro er w ⟨d', h3, h4⟩
      cases h3
  · rintro er u ⟨f', cs, ks, h0, h1, h2, h3⟩
    cases h0

/-! ## All calls together -/

/-- What holds at every moment, besides `KPoolInv`; `x` is what extractor `e` becomes and `r` how the call that changes it ends. -/
structure IPool (R : RSys F) (t : Nat) (w0 : KWorld F) (calls : List KCall) (i e : Nat) (x : Tfidf F) (r : Except PyErr Unit) (p : KPool F) : Prop where
  pool : KPoolInv R t w0 calls p
  old : OldOrNew w0 e x.idf x.median p.w
  mine : ∃ v, EndsRG (Hands R.k t w0 calls e (w0.tf e).idf) (Swap e (w0.tf e).idf x.idf x.median)
    (fun q w => q.map (fun _ => ()) = r ∧ Looks w e x) (p.th i) v ∧ Own e (w0.tf e).idf v p.w
  others : ∀ j, j ≠ i → Pres (Refs R.k t w0 calls e (w0.tf e).idf) (Own e (w0.tf e).idf) (p.th j)
  tags : ∀ j s topK ww allow wf, calls[j]? = some (.tags e s topK ww allow wf) → ∃ v,
    EndsRG (Meanwhile R.k t w0 calls e x.idf x.median) (fun _ _ => True)
      (fun q _ => ∃ l, q = .ok (.keys l) ∧ WeighedPost R.k w0 calls e x.idf x.median (strdecode R.k.pos.sys.gbk s) topK ww allow wf l) (p.th j) v ∧
    Meanwhile R.k t w0 calls e x.idf x.median v p.w

theorem IPool.step {R : RSys F} {i : Nat} {x : Tfidf F} {r : Except PyErr Unit} (h0 : Inv R.k t w0 calls w0) {p : KPool F}
    (h : IPool R t w0 calls i e x r p) (j : Nat) : IPool R t w0 calls i e x r (p.step j) := by
  obtain ⟨hp, ho, ⟨v, hm, hv⟩, hoth, htags⟩ := h
  have hp' := kpoolInv_step p j hp
  unfold KPool.step at hp' ⊢
  cases hc : p.th j with
  | ret b => simp only [hc] at hp' ⊢; exact ⟨hp, ho, ⟨v, hm, hv⟩, hoth, htags⟩
  | raise er => simp only [hc] at hp' ⊢; exact ⟨hp, ho, ⟨v, hm, hv⟩, hoth, htags⟩
  | yield a k =>
    simp only [hc] at hp' ⊢
    refine ⟨hp', ho, ⟨v, ?_, hv⟩, fun j' hj' => ?_, fun j' s topK ww allow wf hj' => ?_⟩
    · dsimp only
      split
      · next hij =>
        subst hij
        rw [hc] at hm
        exact hm
      · exact hm
    · dsimp only
      split
      · next hjj =>
        subst hjj
        have := hoth _ hj'
        rw [hc] at this
        exact this
      · exact hoth j' hj'
    · obtain ⟨u, h1, h2⟩ := htags j' s topK ww allow wf hj'
      refine ⟨u, ?_, h2⟩
      dsimp only
      split
      · next hjj =>
        subst hjj
        rw [hc] at h1
        exact h1
      · exact h1
  | act f k =>
    simp only [hc] at hp' ⊢
    have hrefs : Refs R.k t w0 calls e (w0.tf e).idf p.w := Rel.refs h0 hp.since
    have hrel : Rel R.k t w0 calls p.w (f p.w) := by
      obtain ⟨-, -, v', h1⟩ := hp
      have hg := (h1 j).1
      rw [hc] at hg
      exact (hg p.w (h1 j).2).1
    have hswap : Swap e (w0.tf e).idf x.idf x.median p.w (f p.w) := by
      by_cases hj : j = i
      · subst hj
        rw [hc] at hm
        exact (hm p.w ⟨hrefs, hv⟩).1
      · have := hoth j hj
        rw [hc] at this
        exact (this p.w hrefs).1.swap
    obtain ⟨hold, honce⟩ := hswap.step ho
    have hmw : Meanwhile R.k t w0 calls e x.idf x.median p.w (f p.w) := ⟨hrel, hold, honce⟩
    refine ⟨hp', hold, ?_, fun j' hj' => ?_, fun j' s topK ww allow wf hj' => ?_⟩
    · by_cases hj : j = i
      · subst hj
        rw [hc] at hm
        exact ⟨f p.w, by simpa using (hm p.w ⟨hrefs, hv⟩).2, Own.refl _⟩
      · have := hoth j hj
        rw [hc] at this
        exact ⟨v, by simpa [Ne.symm hj] using hm, hv.trans (this p.w hrefs).1⟩
    · dsimp only
      split
      · next hjj =>
        subst hjj
        have := hoth _ hj'
        rw [hc] at this
        exact (this p.w hrefs).2
      · exact hoth j' hj'
    · obtain ⟨u, h1, h2⟩ := htags j' s topK ww allow wf hj'
      by_cases hjj : j' = j
      · subst hjj
        rw [hc] at h1
        refine ⟨f p.w, by simpa using (h1 p.w h2).2, ⟨Rel.refl hrel.inv, hold, fun _ => rfl⟩⟩
      · exact ⟨u, by simpa [hjj] using h1, h2.trans hmw⟩

theorem IPool.run {R : RSys F} {i : Nat} {x : Tfidf F} {r : Except PyErr Unit} (h0 : Inv R.k t w0 calls w0) (sched : List Nat) {p : KPool F}
    (h : IPool R t w0 calls i e x r p) : IPool R t w0 calls i e x r (p.run sched) := by
  unfold KPool.run
  induction sched generalizing p with
  | nil => exact h
  | cons j l ih => exact ih (h.step h0 j)

end

end Jieba.Analyse.Steps
