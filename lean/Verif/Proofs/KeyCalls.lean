import Verif.Spec.KeyCalls
import Verif.Proofs.PosCalls
import Verif.Proofs.Keywords
import Verif.Proofs.TextRank
/-!
# Lemmas about several threads that extract keywords
-/

set_option linter.unusedSectionVars false

namespace Jieba.Analyse.Steps
open Co Jieba.Spec Jieba.Pos Jieba.Pos.Steps
open Jieba.Lazy (Healthy Tame)

section
variable {W α α' β γ σ : Type}

/-! ## Rely and guarantee -/

/-- From state `v` on, whatever changes allowed by `R` others make between its accesses: `c` makes only changes allowed by `R`, it raises
only exceptions allowed by `E`, and `Q` holds of the result and the state after its last access. -/
def GoodR (R : W → W → Prop) (E : PyErr → Prop) (Q : β → W → Prop) : Co W α β → W → Prop
  | .ret b, v => Q b v
  | .raise e, _ => E e
  | .yield _ k, v => GoodR R E Q k v
  | .act f k, v => ∀ w, R v w → R w (f w) ∧ GoodR R E Q (k w) (f w)

variable {R : W → W → Prop} {E : PyErr → Prop}

theorem GoodR.mono {Q' Q : β → W → Prop} {c : Co W α β} {v : W} (h : GoodR R E Q' c v) (hq : ∀ b w, Q' b w → Q b w) : GoodR R E Q c v := by
  induction c generalizing v with
  | ret b => exact hq b v h
  | raise e => exact h
  | yield a k ih => exact ih h
  | act f k ih => exact fun w hw => ⟨(h w hw).1, ih w (h w hw).2⟩

theorem GoodR.bind {Q' : β → W → Prop} {Q : γ → W → Prop} {c : Co W α β} {g : β → Co W α γ} {v : W} (h : GoodR R E Q' c v)
    (hg : ∀ b w, Q' b w → GoodR R E Q (g b) w) : GoodR R E Q (c >>= g) v := by
  rw [bind_def]
  induction c generalizing v with
  | ret b => exact hg b v h
  | raise e => exact h
  | yield a k ih => exact ih h
  | act f k ih => exact fun w hw => ⟨(h w hw).1, ih w (h w hw).2⟩

/-- What is stable holds at the end. -/
theorem GoodR.keep {Q : β → W → Prop} {S : W → Prop} (hS : ∀ v w, S v → R v w → S w) {c : Co W α β} {v : W} (h : GoodR R E Q c v) (hv : S v) :
    GoodR R E (fun b w => Q b w ∧ S w) c v := by
  induction c generalizing v with
  | ret b => exact ⟨h, hv⟩
  | raise e => exact h
  | yield a k ih => exact ih h hv
  | act f k ih => exact fun w hw => ⟨(h w hw).1, ih w (h w hw).2 (hS _ _ (hS _ _ hv hw) (h w hw).1)⟩

theorem GoodR.move (htr : ∀ a b c, R a b → R b c → R a c) {c : Co W α β} {v w : W} (h : GoodR R E (fun _ _ => True) c v) (hw : R v w) :
    GoodR R E (fun _ _ => True) c w := by
  induction c with
  | ret b => trivial
  | raise e => exact h
  | yield a k ih => exact ih h
  | act f k ih => exact fun u hu => h u (htr _ _ _ hw hu)

theorem GoodR.get_bind (hre : ∀ v w, R v w → R w w) {Q : γ → W → Prop} {f : W → β} {g : β → Co W α γ} {v : W}
    (h : ∀ w, R v w → GoodR R E Q (g (f w)) w) : GoodR R E Q (Co.get f >>= g) v := fun w hw => ⟨hre v w hw, h w hw⟩

theorem GoodR.set_bind {Q : γ → W → Prop} {f : W → W} {g : Unit → Co W α γ} {v : W}
    (h : ∀ w, R v w → R w (f w) ∧ GoodR R E Q (g ()) (f w)) : GoodR R E Q ((.act f (fun _ => .ret ()) : Co W α Unit) >>= g) v := h

/-- `for a in <generator>: body`: `I ws s w` holds after the values `ws`, when the local variables are `s` and the state is `w`. -/
theorem GoodR.forIn (htr : ∀ a b c, R a b → R b c → R a c) (hre : ∀ v w, R v w → R w w) {I : List α → σ → W → Prop}
    (hI : ∀ ws s v w, I ws s v → R v w → I ws s w) {body : α → σ → Co W α' σ}
    (hb : ∀ ws a s v, R v v → I ws s v → GoodR R E (fun s' w => I (ws ++ [a]) s' w) (body a s) v)
    {c : Co W α Unit} (s : σ) (v : W) (hv : R v v) (hc : GoodR R E (fun _ _ => True) c v) (h0 : I [] s v) :
    GoodR R E (fun s' w => ∃ ws, Runs c ws (.ok ()) ∧ I ws s' w) (Co.forIn c body s) v := by
  have key : ∀ (d : Co W α Unit) (pre : List α) (s : σ) (v : W), R v v → GoodR R E (fun _ _ => True) d v → I pre s v →
      (∀ l r, Runs d l r → Runs c (pre ++ l) r) →
      GoodR R E (fun s' w => ∃ ws, Runs c ws (.ok ()) ∧ I ws s' w) (Co.forIn d body s) v := by
    intro d
    induction d with
    | ret b =>
      intro pre s v _ _ hI0 hr
      refine ⟨pre, ?_, hI0⟩
      have := hr [] (.ok ()) (.ret ())
      rwa [List.append_nil] at this
    | raise e => exact fun _ _ _ _ h _ _ => h
    | yield a k ih =>
      intro pre s v hv hd hI0 hr
      have h1 := (hb pre a s v hv hI0).keep (S := fun w => R v w) (fun a b hab hbc => htr _ _ _ hab hbc) hv
      refine GoodR.bind h1 (fun s' w h => ?_)
      refine ih (pre ++ [a]) s' w (hre _ _ h.2) (GoodR.move htr (c := k) hd h.2) h.1 (fun l r hl => ?_)
      have := hr (a :: l) r (.yield _ _ _ _ hl)
      rwa [List.append_assoc]
    | act f k ih =>
      intro pre s v hv hd hI0 hr w hw
      obtain ⟨h1, h2⟩ := hd w hw
      exact ⟨h1, ih w pre s (f w) (hre _ _ h1) h2 (hI _ _ _ _ (hI _ _ _ _ hI0 hw) h1) (fun l r hl => hr l r (.act _ _ w _ _ hl))⟩
  exact key c [] s v hv hc h0 (fun l r h => h)

end

section
variable {F : Type} [LinearOrder F] {α β γ : Type}

theorem onP_runs (c : Co PWorld α β) (l : List α) (r : Except PyErr β) (h : Runs (onP (F := F) c) l r) : Runs c l r := by
  induction c generalizing l with
  | ret b => cases h; exact .ret b
  | raise e => cases h; exact .raise e
  | yield a k ih =>
    cases h with
    | yield _ _ l _ h => exact .yield _ _ _ _ (ih l h)
  | act g k ih =>
    cases h with
    | act _ _ w _ _ h => exact .act _ _ w.p _ _ (ih w.p l h)

/-! ## What the calls keep -/

variable (K : KSys F) (t : Nat) (w0 : KWorld F) (calls : List KCall)

/-- What holds at every moment. -/
structure Inv (w : KWorld F) : Prop where
  healthy : Healthy t w.p.w
  files : Lazy.SameFiles t w0.p.w w.p.w
  toks : ∀ k, (w.p.pos k).tok = (w0.p.pos k).tok
  tf : ∀ e, (w.tf e).tok = (w0.tf e).tok ∧ (w.tf e).pos = (w0.tf e).pos
  rk : ∀ e, (w.rk e).pos = (w0.rk e).pos ∧ (w.rk e).span = (w0.rk e).span
  stops : ∀ x, (∀ u ∈ stopsOf w0 x, u ∈ stopsOf w x) ∧ ∀ u ∈ stopsOf w x, u ∈ stopsOf w0 x ∨ AddedStop K w0 calls x u
  refs : ∀ e, (w.tf e).idf < w.next ∧ (w.tf e).lidf < w.next
  apart : ∀ e e', ¬ IdfKept calls e → e ≠ e' → (w.tf e).lidf ≠ (w.tf e').lidf ∧ (w.tf e).lidf ≠ (w.tf e').idf
  kept : ∀ e, IdfKept calls e → (w.tf e).idf = (w0.tf e).idf ∧ (w.tf e).median = (w0.tf e).median ∧
    w.dicts (w.tf e).idf = w0.dicts (w0.tf e).idf

/-- The changes that calls make. -/
structure Rel (w w' : KWorld F) : Prop where
  inv : Inv K t w0 calls w'
  grows : ∀ u, Lazy.Key t w.p.w u → Lazy.Key t w'.p.w u
  filt : ∀ e, FilterOf calls e (w.rk e).filt → FilterOf calls e (w'.rk e).filt
  stops : ∀ x, ∀ u ∈ stopsOf w x, u ∈ stopsOf w' x
  next : w.next ≤ w'.next
  fresh : ∀ e, (w'.tf e).lidf = (w.tf e).lidf ∨ w.next ≤ (w'.tf e).lidf

variable {K t w0 calls}

theorem Rel.refl {w : KWorld F} (h : Inv K t w0 calls w) : Rel K t w0 calls w w := ⟨h, fun _ h => h, fun _ h => h, fun _ _ h => h, le_refl _, fun _ => Or.inl rfl⟩

theorem Rel.refl' (v w : KWorld F) (h : Rel K t w0 calls v w) : Rel K t w0 calls w w := Rel.refl h.inv

theorem Rel.trans (a b c : KWorld F) (h1 : Rel K t w0 calls a b) (h2 : Rel K t w0 calls b c) : Rel K t w0 calls a c :=
  ⟨h2.inv, fun u hu => h2.grows u (h1.grows u hu), fun e he => h2.filt e (h1.filt e he), fun x u hu => h2.stops x u (h1.stops x u hu),
    h1.next.trans h2.next, fun e => by
    rcases h2.fresh e with h | h
    · rw [h]; exact h1.fresh e
    · exact Or.inr (h1.next.trans h)⟩

theorem Rel.tameP {v w : KWorld F} (hv : Inv K t w0 calls v) (h : Rel K t w0 calls v w) : TameP t v.p w.p :=
  ⟨fun _ => ⟨h.inv.healthy, h.grows, hv.files.symm.trans h.inv.files⟩, fun k => (h.inv.toks k).trans (hv.toks k).symm⟩

/-- A change of the tokenizers. -/
theorem Inv.setP {w : KWorld F} (h : Inv K t w0 calls w) {p : PWorld} (hp : TameP t w.p p) : Rel K t w0 calls w { w with p := p } := by
  obtain ⟨h1, h2, h3⟩ := hp.1 h.healthy
  have hx : ∀ x, stopsOf { w with p := p } x = stopsOf w x := fun x => by cases x <;> rfl
  exact ⟨⟨h1, h.files.trans h3, fun k => (hp.2 k).trans (h.toks k), h.tf, h.rk, fun x => by rw [hx]; exact h.stops x, h.refs, h.apart, h.kept⟩, h2,
    fun _ h => h, fun x u hu => by rw [hx]; exact hu, le_refl _, fun _ => Or.inl rfl⟩

theorem GoodR.onP {E : PyErr → Prop} {Q : β → PWorld → Prop} {c : Co PWorld α β} {p : PWorld} {D : Str → Prop} (h : GoodP t Q c p D)
    {v : KWorld F} (hv : Inv K t w0 calls v) (hp : v.p = p) :
    GoodR (Rel K t w0 calls) E (fun b w => Q b w.p ∧ Inv K t w0 calls w) (onP c) v := by
  induction c generalizing v p D with
  | ret b => subst hp; exact ⟨h.1, hv⟩
  | raise e => exact absurd h id
  | yield a k ih => exact ih h hv hp
  | act f k ih =>
    subst hp
    intro w hw
    obtain ⟨g1, D', g2, -, -⟩ := h w.p (hw.tameP hv) hw.inv.healthy
    have hr := hw.inv.setP g1
    exact ⟨hr, ih w.p g2 hr.inv rfl⟩

/-! ## Changes of the extractors -/

theorem Inv.setFilt {w : KWorld F} (h : Inv K t w0 calls w) {e : Nat} {filt : List Str} (hf : FilterOf calls e filt) :
    Rel K t w0 calls w (w.setRk e { w.rk e with filt := filt }) := by
  have hx : ∀ x, stopsOf (w.setRk e { w.rk e with filt := filt }) x = stopsOf w x := by
    intro x
    cases x with
    | tf i => rfl
    | rk i =>
      unfold stopsOf KWorld.setRk
      by_cases hi : i = e
      · subst hi; simp
      · simp [hi]
  refine ⟨⟨h.healthy, h.files, h.toks, h.tf, fun i => ?_, fun x => by rw [hx]; exact h.stops x, h.refs, h.apart, h.kept⟩, fun _ h => h, fun i hi => ?_,
    fun x u hu => by rw [hx]; exact hu, le_refl _, fun _ => Or.inl rfl⟩
  · unfold KWorld.setRk
    by_cases hi : i = e
    · subst hi; simp only [if_true]; exact h.rk i
    · simp only [if_neg hi]; exact h.rk i
  · unfold KWorld.setRk
    by_cases he : i = e
    · subst he; simp only [if_true]; exact hf
    · simp only [if_neg he]; exact hi

theorem stopsOf_addStop (x y : Extractor) (l : Str) (w : KWorld F) :
    stopsOf (addStop x l w) y = if y = x then (if l ∈ stopsOf w x then stopsOf w x else stopsOf w x ++ [l]) else stopsOf w y := by
  cases x with
  | tf e =>
    cases y with
    | tf i =>
      by_cases hi : i = e
      · subst hi; by_cases hl : l ∈ (w.tf i).stop <;> simp [stopsOf, addStop, KWorld.setTf, hl]
      · simp [stopsOf, addStop, KWorld.setTf, hi]
    | rk i => simp [stopsOf, addStop, KWorld.setTf]
  | rk e =>
    cases y with
    | rk i =>
      by_cases hi : i = e
      · subst hi; by_cases hl : l ∈ (w.rk i).stop <;> simp [stopsOf, addStop, KWorld.setRk, hl]
      · simp [stopsOf, addStop, KWorld.setRk, hi]
    | tf i => simp [stopsOf, addStop, KWorld.setRk]

theorem addStop_tf (x : Extractor) (l : Str) (w : KWorld F) (e : Nat) :
    ((addStop x l w).tf e).tok = (w.tf e).tok ∧ ((addStop x l w).tf e).pos = (w.tf e).pos ∧ ((addStop x l w).tf e).lidf = (w.tf e).lidf ∧
    ((addStop x l w).tf e).idf = (w.tf e).idf ∧ ((addStop x l w).tf e).median = (w.tf e).median := by
  cases x with
  | tf i =>
    unfold addStop KWorld.setTf
    by_cases hi : e = i
    · subst hi; simp
    · simp [hi]
  | rk i => exact ⟨rfl, rfl, rfl, rfl, rfl⟩

theorem addStop_rk (x : Extractor) (l : Str) (w : KWorld F) (e : Nat) :
    ((addStop x l w).rk e).pos = (w.rk e).pos ∧ ((addStop x l w).rk e).span = (w.rk e).span ∧ ((addStop x l w).rk e).filt = (w.rk e).filt := by
  cases x with
  | rk i =>
    unfold addStop KWorld.setRk
    by_cases hi : e = i
    · subst hi; simp
    · simp [hi]
  | tf i => exact ⟨rfl, rfl, rfl⟩

theorem addStop_rest (x : Extractor) (l : Str) (w : KWorld F) :
    (addStop x l w).p = w.p ∧ (addStop x l w).dicts = w.dicts ∧ (addStop x l w).next = w.next := by
  cases x <;> exact ⟨rfl, rfl, rfl⟩

theorem Inv.addStop {w : KWorld F} (h : Inv K t w0 calls w) {x : Extractor} {l : Str} (hl : AddedStop K w0 calls x l) :
    Rel K t w0 calls w (Steps.addStop x l w) := by
  obtain ⟨hp, hd, hn⟩ := addStop_rest x l w
  have htf := addStop_tf x l w
  have hrk := addStop_rk x l w
  refine ⟨⟨?_, ?_, ?_, ?_, ?_, ?_, ?_, ?_, ?_⟩, ?_, ?_, ?_, ?_, ?_⟩
  · rw [hp]; exact h.healthy
  · rw [hp]; exact h.files
  · rw [hp]; exact h.toks
  · intro e; rw [(htf e).1, (htf e).2.1]; exact h.tf e
  · intro e; rw [(hrk e).1, (hrk e).2.1]; exact h.rk e
  · intro y
    rw [stopsOf_addStop]
    by_cases hy : y = x
    · subst hy
      rw [if_pos rfl]
      split
      · exact h.stops y
      · refine ⟨fun u hu => List.mem_append_left _ ((h.stops y).1 u hu), fun u hu => ?_⟩
        rcases List.mem_append.mp hu with hu | hu
        · exact (h.stops y).2 u hu
        · rw [List.mem_singleton.mp hu]; exact Or.inr hl
    · rw [if_neg hy]; exact h.stops y
  · intro e; rw [(htf e).2.2.1, (htf e).2.2.2.1, hn]; exact h.refs e
  · intro e e' he; rw [(htf e).2.2.1, (htf e').2.2.2.1, (htf e').2.2.1]; exact h.apart e e' he
  · intro e he; rw [(htf e).2.2.2.1, (htf e).2.2.2.2, hd]; exact h.kept e he
  · rw [hp]; exact fun _ h => h
  · intro e; rw [(hrk e).2.2]; exact id
  · intro y u hu
    rw [stopsOf_addStop]
    split
    · next hy =>
      subst hy
      split
      · exact hu
      · exact List.mem_append_left _ hu
    · exact hu
  · rw [hn]
  · intro e; rw [(htf e).2.2.1]; exact Or.inl rfl

/-- A change of the IDF table or its loader. -/
theorem Inv.setIdf {w : KWorld F} (h : Inv K t w0 calls w) {e : Nat} (he : ¬ IdfKept calls e) (y : TfObj F) (D : Nat → PyDict Str F) (n : Nat)
    (h1 : y.tok = (w.tf e).tok ∧ y.pos = (w.tf e).pos ∧ y.stop = (w.tf e).stop) (hn : w.next ≤ n) (h2 : y.idf < n ∧ y.lidf < n)
    (h3 : ∀ i, i ≠ e → y.lidf ≠ (w.tf i).lidf ∧ y.lidf ≠ (w.tf i).idf ∧ (¬ IdfKept calls i → (w.tf i).lidf ≠ y.idf))
    (h4 : y.lidf = (w.tf e).lidf ∨ w.next ≤ y.lidf) (hD : ∀ i, i ≠ e → D (w.tf i).idf = w.dicts (w.tf i).idf) :
    Rel K t w0 calls w ⟨w.p, fun i => if i = e then y else w.tf i, w.rk, D, n⟩ := by
  have hx : ∀ x, stopsOf (⟨w.p, fun i => if i = e then y else w.tf i, w.rk, D, n⟩ : KWorld F) x = stopsOf w x := by
    intro x
    cases x with
    | rk i => rfl
    | tf i =>
      unfold stopsOf
      by_cases hi : i = e
      · subst hi; simp [h1.2.2]
      · simp [hi]
  refine ⟨⟨h.healthy, h.files, h.toks, fun i => ?_, h.rk, fun x => by rw [hx]; exact h.stops x, fun i => ?_, fun i j hik hij => ?_, fun i hi => ?_⟩,
    fun _ h => h, fun _ h => h, fun x u hu => by rw [hx]; exact hu, hn, fun i => ?_⟩
  · by_cases hi : i = e
    · subst hi; simp only [if_true]; rw [h1.1, h1.2.1]; exact h.tf i
    · simp only [if_neg hi]; exact h.tf i
  · by_cases hi : i = e
    · subst hi; simp only [if_true]; exact h2
    · simp only [if_neg hi]; have := h.refs i; omega
  · dsimp only
    by_cases hi : i = e
    · have hj : j ≠ e := fun hj => hij (hi.trans hj.symm)
      simp only [if_pos hi, if_neg hj]
      exact ⟨(h3 j hj).1, (h3 j hj).2.1⟩
    · by_cases hj : j = e
      · simp only [if_neg hi, if_pos hj]
        exact ⟨(h3 i hi).1.symm, (h3 i hi).2.2 hik⟩
      · simp only [if_neg hi, if_neg hj]
        exact h.apart i j hik hij
  · have hne : i ≠ e := fun hie => he (hie ▸ hi)
    simp only [if_neg hne]
    rw [hD i hne]
    exact h.kept i hi
  · by_cases hi : i = e
    · subst hi; simp only [if_true]; exact h4
    · simp only [if_neg hi]; exact Or.inl trivial

/-! ## `set_stop_words` and `set_idf_path` -/

theorem addStopsL_good {E : PyErr → Prop} (x : Extractor) (ls : List Str) (hl : ∀ l ∈ ls, AddedStop K w0 calls x l) (v : KWorld F) (hv : Inv K t w0 calls v) :
    GoodR (Rel K t w0 calls) E (fun _ w => ∀ l ∈ ls, l ∈ stopsOf w x) (addStopsL x ls : Co (KWorld F) α Unit) v := by
  induction ls generalizing v with
  | nil => exact fun _ h => by simp at h
  | cons l ls ih =>
    unfold addStopsL
    refine GoodR.set_bind (fun w hw => ⟨hw.inv.addStop (hl l (by simp)), ?_⟩)
    have h1 := ih (fun l hl' => hl l (by simp [hl'])) _ (hw.inv.addStop (hl l (by simp))).inv
    refine (h1.keep (S := fun u => l ∈ stopsOf u x) (fun a b ha hab => hab.stops x l ha) ?_).mono ?_
    · rw [stopsOf_addStop, if_pos rfl]
      split
      · next h => exact h
      · simp
    · rintro _ u ⟨h2, h3⟩ k hk
      rcases List.mem_cons.mp hk with rfl | hk
      · exact h3
      · exact h2 k hk

theorem stopL_good {E : PyErr → Prop} (x : Extractor) (path : Path) (hc : .stop x path ∈ calls) (f : File) (content : Str)
    (hf : w0.p.w.files (K.pos.sys.abspath path) = some f) (hd : utf8Decode f.data = some content) (v : KWorld F) (hv : Inv K t w0 calls v) :
    GoodR (Rel K t w0 calls) E (fun _ w => ∀ l ∈ splitlines content, l ∈ stopsOf w x) (stopL K x path : Co (KWorld F) α Unit) v := by
  unfold stopL
  refine GoodR.get_bind Rel.refl' (fun w hw => ?_)
  rw [hw.inv.files.1, hf]
  simp only []
  refine GoodR.get_bind Rel.refl' (fun w hw => ?_)
  rw [hw.inv.files.1, hf]
  simp only [hd]
  exact addStopsL_good x _ (fun l hl => ⟨path, f, content, hc, hf, hd, hl⟩) w hw.inv

/-- Whatever happens. -/
abbrev any : PyErr → Prop := fun _ => True

theorem idfLinesL_good (e : Nat) (he : ¬ IdfKept calls e) (ls : List Str) (v : KWorld F) (hv : Inv K t w0 calls v) :
    GoodR (Rel K t w0 calls) any (fun _ w => Inv K t w0 calls w) (idfLinesL K e ls : Co (KWorld F) α Unit) v := by
  induction ls generalizing v with
  | nil => exact hv
  | cons l ls ih =>
    unfold idfLinesL
    split
    · trivial
    · next word x _ =>
      refine GoodR.set_bind (fun w hw => ?_)
      have h := hw.inv
      have hr : Rel K t w0 calls w (w.setDict (w.tf e).lidf ((w.dicts (w.tf e).lidf).set word x)) := by
        have := h.setIdf he (w.tf e) (fun i => if i = (w.tf e).lidf then (w.dicts (w.tf e).lidf).set word x else w.dicts i) w.next
          ⟨rfl, rfl, rfl⟩ (le_refl _) (h.refs e) (fun i hi => ⟨(h.apart e i he hi.symm).1, (h.apart e i he hi.symm).2, fun hk => (h.apart i e hk hi).2⟩) (Or.inl rfl)
          (fun i hi => by simp [(h.apart e i he hi.symm).2.symm])
        have htf : (fun i => if i = e then w.tf e else w.tf i) = w.tf := by
          funext i; by_cases hi : i = e
          · simp [hi]
          · simp [hi]
        rw [htf] at this
        exact this
      exact ⟨hr, ih _ hr.inv⟩

theorem newPathL_good (e : Nat) (he : ¬ IdfKept calls e) (path : Path) (v : KWorld F) (hv : Inv K t w0 calls v) :
    GoodR (Rel K t w0 calls) any (fun _ w => Inv K t w0 calls w) (newPathL K e path : Co (KWorld F) α Unit) v := by
  have hap : ∀ {w : KWorld F}, Inv K t w0 calls w → ∀ i, i ≠ e →
      (w.tf e).lidf ≠ (w.tf i).lidf ∧ (w.tf e).lidf ≠ (w.tf i).idf ∧ (¬ IdfKept calls i → (w.tf i).lidf ≠ (w.tf e).idf) :=
    fun h i hi => ⟨(h.apart e i he hi.symm).1, (h.apart e i he hi.symm).2, fun hk => (h.apart i e hk hi).2⟩
  unfold newPathL
  refine GoodR.get_bind Rel.refl' (fun w hw => ?_)
  split
  · exact hw.inv
  · refine GoodR.set_bind (fun w hw => ?_)
    have hr := hw.inv.setIdf he { w.tf e with path := path } w.dicts w.next ⟨rfl, rfl, rfl⟩ (le_refl _) (hw.inv.refs e) (hap hw.inv) (Or.inl rfl)
      (fun _ _ => rfl)
    refine ⟨hr, ?_⟩
    refine GoodR.get_bind Rel.refl' (fun w hw => ?_)
    split
    · trivial
    · split
      · trivial
      · refine GoodR.set_bind (fun w hw => ?_)
        have h := hw.inv
        have hr := h.setIdf he { w.tf e with lidf := w.next } (fun i => if i = w.next then [] else w.dicts i) (w.next + 1) ⟨rfl, rfl, rfl⟩ (by omega)
          (by have := h.refs e; simp only []; omega) (fun i hi => by
            have h1 := h.refs i
            exact ⟨by simp only [ne_eq]; omega, by simp only [ne_eq]; omega, fun hk => (h.apart i e hk hi).2⟩) (Or.inr (le_refl _)) (fun i hi => by
            have h1 := h.refs i
            have : (w.tf i).idf ≠ w.next := by omega
            simp [this])
        refine ⟨hr, ?_⟩
        refine GoodR.bind (idfLinesL_good e he _ _ hr.inv) (fun _ w hw => ?_)
        refine GoodR.get_bind Rel.refl' (fun w hw => ?_)
        refine GoodR.get_bind Rel.refl' (fun w hw => ?_)
        split
        · trivial
        · next m _ =>
          intro w hw
          have hr := hw.inv.setIdf he { w.tf e with lmedian := m } w.dicts w.next ⟨rfl, rfl, rfl⟩ (le_refl _) (hw.inv.refs e) (hap hw.inv) (Or.inl rfl)
            (fun _ _ => rfl)
          exact ⟨hr, hr.inv⟩

theorem idfL_good (e : Nat) (he : ¬ IdfKept calls e) (path : Path) (v : KWorld F) (hv : Inv K t w0 calls v) :
    GoodR (Rel K t w0 calls) any (fun _ w => Inv K t w0 calls w) (idfL K e path : Co (KWorld F) α Unit) v := by
  unfold idfL
  refine GoodR.get_bind Rel.refl' (fun w hw => ?_)
  split
  · trivial
  · refine GoodR.bind (newPathL_good e he _ w hw.inv) (fun _ w hw => ?_)
    refine GoodR.get_bind Rel.refl' (fun w1 hw1 => ?_)
    refine GoodR.get_bind Rel.refl' (fun w2 hw2 => ?_)
    refine GoodR.set_bind (fun w3 hw3 => ?_)
    have h13 := Rel.trans _ _ _ hw2 hw3
    have h := hw3.inv
    have hr := h.setIdf he { w3.tf e with idf := (w1.tf e).lidf } w3.dicts w3.next ⟨rfl, rfl, rfl⟩ (le_refl _)
      ⟨by have := (hw1.inv.refs e).2; have := h13.next; simp only []; omega, (h.refs e).2⟩
      (fun i hi => ⟨(h.apart e i he hi.symm).1, (h.apart e i he hi.symm).2, fun _ => by
        have h1 := (hw1.inv.apart e i he hi.symm).1
        have h2 := (hw1.inv.refs e).2
        simp only [ne_eq]
        rcases h13.fresh i with g | g <;> omega⟩) (Or.inl rfl) (fun _ _ => rfl)
    refine ⟨hr, ?_⟩
    intro w4 hw4
    have h := hw4.inv
    have hr := h.setIdf he { w4.tf e with median := (w2.tf e).lmedian } w4.dicts w4.next ⟨rfl, rfl, rfl⟩ (le_refl _) (h.refs e)
      (fun i hi => ⟨(h.apart e i he hi.symm).1, (h.apart e i he hi.symm).2, fun hk => (h.apart i e hk hi).2⟩) (Or.inl rfl) (fun _ _ => rfl)
    exact ⟨hr, hr.inv⟩

end

end Jieba.Analyse.Steps
