import Verif.Proofs.KeyCalls
import Verif.Props.PosCalls
/-!
# Lemmas about several threads that extract keywords: `extract_tags` and `textrank`
-/

set_option linter.unusedSectionVars false

namespace Jieba.Analyse.Steps
open Co Jieba.Spec Jieba.Pos Jieba.Pos.Steps Jieba.PosData
open Jieba.Lazy (Healthy Tame)

section
variable {F : Type} [LinearOrder F] {α β γ : Type}
variable {K : KSys F} {t : Nat} {w0 : KWorld F} {calls : List KCall} {E : PyErr → Prop}

theorem lossless_seg {ws : List Str} {s : Str} (h : Lossless ⟨ws, Lazy.errOf (.ok ())⟩ s) : IsSegmentation ws s := ⟨h.complete rfl, h.nonempty⟩

/-! ## `extract_tags` -/

/-- `ks` are the tokens among `cs` that were counted: the stop words at the beginning were never counted, and what is in no case a stop
word was always counted. -/
structure Counted (K : KSys F) (w0 : KWorld F) (calls : List KCall) (x : Extractor) (cs ks : List Key) : Prop where
  sub : ks.Sublist cs
  acc : ∀ k ∈ ks, Accepts K.lower (stopsOf w0 x) k.text
  all : ∀ S, AllStops K w0 calls x S → (cs.filter (fun k => Accepts K.lower S k.text)).Sublist ks

theorem Counted.nil {x : Extractor} : Counted K w0 calls x [] [] := ⟨List.Sublist.refl _, by simp, fun _ _ => List.Sublist.refl _⟩

theorem Counted.skip {x : Extractor} {cs ks : List Key} (h : Counted K w0 calls x cs ks) (k : Key)
    (hk : ∀ S, AllStops K w0 calls x S → ¬ Accepts K.lower S k.text) : Counted K w0 calls x (cs ++ [k]) ks :=
  ⟨h.sub.trans (List.sublist_append_left _ _), h.acc, fun S hS => by
    rw [List.filter_append]
    simpa [hk S hS] using h.all S hS⟩

theorem Counted.take {x : Extractor} {cs ks : List Key} (h : Counted K w0 calls x cs ks) (k : Key)
    (hk : Accepts K.lower (stopsOf w0 x) k.text) : Counted K w0 calls x (cs ++ [k]) (ks ++ [k]) :=
  ⟨h.sub.append (List.Sublist.refl _), fun j hj => by
    rcases List.mem_append.mp hj with hj | hj
    · exact h.acc j hj
    · rw [List.mem_singleton.mp hj]; exact hk, fun S hS => by
    rw [List.filter_append]
    exact (h.all S hS).append List.filter_sublist⟩

theorem countL_good (e : Nat) (k : Key) (cs ks : List Key) (h : Counted K w0 calls (.tf e) cs ks) (v : KWorld F) :
    GoodR (Rel K t w0 calls) E (fun f _ => ∃ ks', f = countKeys K.pos.sys.A ks' ∧ Counted K w0 calls (.tf e) (cs ++ [k]) ks')
      (countL K e k (countKeys K.pos.sys.A ks) : Co (KWorld F) α (PyDict Key F)) v := by
  unfold countL
  have h2 := two_le_strip isSpace k.text
  split
  · next hlt => exact ⟨ks, rfl, h.skip k (fun S _ ha => by have := h2.mpr ha.1; omega)⟩
  · next hge =>
    refine GoodR.get_bind Rel.refl' (fun w hw => ?_)
    have hs := hw.inv.stops (.tf e)
    by_cases hk : K.lower k.text ∈ (w.tf e).stop
    · rw [if_pos hk]
      refine ⟨ks, rfl, h.skip k (fun S hS ha => ha.2 ?_)⟩
      rcases hs.2 _ hk with g | g
      · exact hS.1 _ g
      · exact hS.2 _ g
    · rw [if_neg hk]
      exact ⟨ks ++ [k], (countKeys_snoc _ ks k).symm, h.take k ⟨h2.mp (by omega), fun g => hk (hs.1 _ g)⟩⟩

theorem countsL_good (hT : Shipped K.pos.tables) (hσ : ∀ s t l, (K.pos.σ s t l).Perm l) (e : Nat) (s : PyText) (allow : List Str)
    (wf io : Bool) (hc : if allow = [] then (w0.tf e).tok = t else (w0.p.pos (w0.tf e).pos).tok = t) (v : KWorld F)
    (hv : Inv K t w0 calls v) :
    GoodR (Rel K t w0 calls) E (fun f _ => ∃ cs ks, Candidates (strdecode K.pos.sys.gbk s) allow wf cs ∧
      Counted K w0 calls (.tf e) cs ks ∧ f = countKeys K.pos.sys.A ks)
      (countsL K e s allow wf io : Co (KWorld F) α (PyDict Key F)) v := by
  unfold countsL
  split
  · next ha =>
    rw [if_pos ha] at hc
    refine GoodR.get_bind Rel.refl' (fun w hw => ?_)
    rw [(hw.inv.tf e).1, hc]
    have hg : GoodP t (fun _ _ => True) (Lazy.cutL K.pos.sys t false true s io).onWorld w.p Lazy.nil :=
      (Good.onWorld (Lazy.Good.of_reads (Lazy.cutL_calm K.pos.sys t false true s io w.p.w hw.inv.healthy) (Lazy.cutL_reads _ _ _ _ _ _))).mono
        (fun _ _ _ => trivial)
    refine GoodR.mono (GoodR.forIn (I := fun ws f _ => ∃ ks, Counted K w0 calls (.tf e) (ws.map Key.word) ks ∧ f = countKeys K.pos.sys.A ks)
      Rel.trans Rel.refl' (fun _ _ _ _ h _ => h) ?_ [] w (Rel.refl hw.inv) ((GoodR.onP hg hw.inv rfl).mono (fun _ _ _ => trivial))
      ⟨[], Counted.nil, rfl⟩) ?_
    · rintro ws a f u - ⟨ks, h, rfl⟩
      refine (countL_good e (.word a) _ ks h u).mono (fun f' _ ⟨ks', h1, h2⟩ => ⟨ks', ?_, h1⟩)
      simpa using h2
    · rintro f u ⟨ws, hr, ks, h1, h2⟩
      refine ⟨ws.map Key.word, ks, Or.inl ⟨ha, ws, ?_, rfl⟩, h1, h2⟩
      exact lossless_seg (Props.C56_cut_any_interleaving K.pos.sys t true s io ws _ (Props.onWorld_runs _ _ _ (onP_runs _ _ _ hr)))
  · next ha =>
    rw [if_neg ha] at hc
    refine GoodR.get_bind Rel.refl' (fun w hw => ?_)
    rw [(hw.inv.tf e).2]
    have hg := cutL_calm K.pos t (w0.tf e).pos true s io (fun _ => Props.detail_ok K.pos hT hσ) w.p
      ⟨hw.inv.healthy, (hw.inv.toks _).trans hc⟩
    refine GoodR.mono (GoodR.forIn (I := fun (ts : List Pair) f _ => ∃ ks, Counted K w0 calls (.tf e)
        ((ts.filter (fun x : Pair => decide (x.2 ∈ allow))).map (fun x : Pair => if wf then Key.pair x.1 x.2 else Key.word x.1)) ks ∧ f = countKeys K.pos.sys.A ks)
      Rel.trans Rel.refl' (fun _ _ _ _ h _ => h) ?_ [] w (Rel.refl hw.inv) ((GoodR.onP hg hw.inv rfl).mono (fun _ _ _ => trivial))
      ⟨[], Counted.nil, rfl⟩) ?_
    · rintro ts x f u - ⟨ks, h, rfl⟩
      by_cases hx : x.2 ∈ allow
      · simp only [if_pos hx]
        refine (countL_good e _ _ ks h u).mono (fun f' _ ⟨ks', h1, h2⟩ => ⟨ks', ?_, h1⟩)
        simpa [List.filter_append, hx] using h2
      · simp only [if_neg hx]
        exact ⟨ks, by simpa [List.filter_append, hx] using h, rfl⟩
    · rintro f u ⟨ts, hr, ks, h1, h2⟩
      refine ⟨_, ks, Or.inr ⟨ha, ts, ?_, rfl⟩, h1, h2⟩
      exact lossless_seg (Props.C82_any_interleaving K.pos hT hσ (w0.tf e).pos true s io ts _ (onP_runs _ _ _ hr))

theorem scaleL_good (e : Nat) (total : F) (d : PyDict Key F) (hd : d = [] ∨ total ≠ K.pos.sys.A.zero) (v : KWorld F) :
    GoodR (Rel K t w0 calls) E (fun d' _ => d'.keys = d.keys ∧ (IdfKept calls e →
      scaleBy K.pos.sys.A (w0.dicts (w0.tf e).idf) (w0.tf e).median total d = .ok d'))
      (scaleL K.pos.sys.A e total d : Co (KWorld F) α (PyDict Key F)) v := by
  induction d generalizing v with
  | nil => exact ⟨rfl, fun _ => rfl⟩
  | cons a d ih =>
    obtain ⟨k, x⟩ := a
    have ht : total ≠ K.pos.sys.A.zero := by simpa using hd
    unfold scaleL
    refine GoodR.get_bind Rel.refl' (fun w1 hw1 => ?_)
    refine GoodR.get_bind Rel.refl' (fun w2 hw2 => ?_)
    refine GoodR.get_bind Rel.refl' (fun w3 hw3 => ?_)
    simp only [pyDiv, if_neg ht]
    change GoodR _ _ _ ((scaleL K.pos.sys.A e total d : Co (KWorld F) α _) >>= _) w3
    refine GoodR.bind (ih (Or.inr ht) w3) (fun d' w h => ⟨?_, fun hk => ?_⟩)
    · simp only [PyDict.keys, List.map_cons] at h ⊢
      rw [h.1]
    · have e1 : w3.dicts (w1.tf e).idf = w0.dicts (w0.tf e).idf := by
        rw [(hw1.inv.kept e hk).1, ← (hw3.inv.kept e hk).2.2, (hw3.inv.kept e hk).1]
      simp only [scaleBy, pyDiv, if_neg ht, h.2 hk]
      rw [e1, (hw2.inv.kept e hk).2.1]

theorem countKeys_ne_nil (A : Arith F) (ks : List Key) (h : ks ≠ []) : countKeys A ks ≠ [] := by
  obtain ⟨k, hk⟩ := List.exists_mem_of_ne_nil ks h
  intro h0
  have := (countKeys_mem A ks k).mpr hk
  rw [h0] at this
  simp [PyDict.keys] at this

theorem rankTags_ok (d : PyDict Key F) (hd : d.keys.Nodup) (ww : Bool) : ∃ l, rankTags d ww = .ok l := by
  cases ww with
  | true => exact ⟨_, rankTags_weights d⟩
  | false => exact ⟨_, rankTags_words d hd⟩

/-- What `extract_tags` returns. -/
def TagsPost (K : KSys F) (w0 : KWorld F) (calls : List KCall) (e : Nat) (text : Str) (topK : Option Int) (ww : Bool) (allow : List Str)
    (wf : Bool) (l : List (Key × Option F)) : Prop :=
  ∃ cs ks d tags, Candidates text allow wf cs ∧ Counted K w0 calls (.tf e) cs ks ∧ d.keys = (countKeys K.pos.sys.A ks).keys ∧
    (IdfKept calls e → scaleBy K.pos.sys.A (w0.dicts (w0.tf e).idf) (w0.tf e).median
      ((countKeys K.pos.sys.A ks).values.foldl K.pos.sys.A.add K.pos.sys.A.zero) (countKeys K.pos.sys.A ks) = .ok d) ∧
    rankTags d ww = .ok tags ∧ l = topOf topK tags

theorem tagsL_good (hT : Shipped K.pos.tables) (hσ : ∀ s t l, (K.pos.σ s t l).Perm l)
    (hN : ∀ ks : List Key, ks ≠ [] → (countKeys K.pos.sys.A ks).values.foldl K.pos.sys.A.add K.pos.sys.A.zero ≠ K.pos.sys.A.zero)
    (e : Nat) (s : PyText) (topK : Option Int) (ww : Bool) (allow : List Str)
    (wf io : Bool) (hc : if allow = [] then (w0.tf e).tok = t else (w0.p.pos (w0.tf e).pos).tok = t) (v : KWorld F)
    (hv : Inv K t w0 calls v) :
    GoodR (Rel K t w0 calls) E (fun l _ => TagsPost K w0 calls e (strdecode K.pos.sys.gbk s) topK ww allow wf l)
      (tagsL K e s topK ww allow wf io : Co (KWorld F) α _) v := by
  unfold tagsL
  refine GoodR.bind (countsL_good hT hσ e s allow wf io hc v hv) ?_
  rintro f u ⟨cs, ks, h1, h2, rfl⟩
  refine GoodR.bind (scaleL_good e _ _ ?_ u) ?_
  · by_cases hk : ks = []
    · subst hk; exact Or.inl rfl
    · exact Or.inr (hN ks hk)
  · rintro d w ⟨h3, h4⟩
    obtain ⟨tags, ht⟩ := rankTags_ok d (h3 ▸ countKeys_nodup _ ks) ww
    rw [ht]
    exact ⟨cs, ks, d, tags, h1, h2, h3, h4, ht, rfl⟩

/-! ## `textrank` -/

/-- What `pairfilter` may let through. -/
def MayPass (K : KSys F) (w0 : KWorld F) (calls : List KCall) (e : Nat) (x : Pair) : Prop :=
  (∃ filt, FilterOf calls e filt ∧ x.2 ∈ filt) ∧ Accepts K.lower (w0.rk e).stop x.1

/-- What `pairfilter` must let through. -/
def MustPass (K : KSys F) (w0 : KWorld F) (calls : List KCall) (e : Nat) (x : Pair) : Prop :=
  (∀ filt, FilterOf calls e filt → x.2 ∈ filt) ∧ ∃ S, AllStops K w0 calls (.rk e) S ∧ Accepts K.lower S x.1

theorem Rel.filt' {v w : KWorld F} {e : Nat} (h : Rel K t w0 calls v w) (hf : FilterOf calls e (v.rk e).filt) : FilterOf calls e (w.rk e).filt :=
  h.filt e hf

theorem pairfilterL_good (e : Nat) (x : Pair) (v : KWorld F) (hf : FilterOf calls e (v.rk e).filt) :
    GoodR (Rel K t w0 calls) E (fun b w => ((b = true → MayPass K w0 calls e x) ∧ (MustPass K w0 calls e x → b = true)) ∧
      FilterOf calls e (w.rk e).filt) (pairfilterL K e x : Co (KWorld F) α Bool) v := by
  unfold pairfilterL
  refine GoodR.get_bind Rel.refl' (fun w hw => ?_)
  have h2 := two_le_strip isSpace x.1
  have hfw := hw.filt' hf
  split
  · next hx =>
    intro u hu
    refine ⟨Rel.refl hu.inv, ⟨fun hb => ?_, fun hb => ?_⟩, hu.filt' hfw⟩
    · have hb' : K.lower x.1 ∉ (u.rk e).stop := by simpa using hb
      exact ⟨⟨_, hfw, hx.1⟩, h2.mp hx.2, fun g => hb' ((hu.inv.stops (.rk e)).1 _ g)⟩
    · obtain ⟨-, S, hS, ha⟩ := hb
      have : K.lower x.1 ∉ (u.rk e).stop := by
        intro g
        refine ha.2 ?_
        rcases (hu.inv.stops (.rk e)).2 _ g with g | g
        · exact hS.1 _ g
        · exact hS.2 _ g
      simpa using this
  · next hx =>
    refine ⟨⟨fun hb => by simp at hb, fun hb => absurd ?_ hx⟩, hfw⟩
    obtain ⟨h1, S, -, ha⟩ := hb
    exact ⟨h1 _ hfw, h2.mpr ha.1⟩

open Classical in
theorem windowL_good (e : Nat) (mk : Pair → Key) (wp : Pair) (ws : List Pair) (ps : List (Key × Key)) (v : KWorld F)
    (hf : FilterOf calls e (v.rk e).filt) :
    GoodR (Rel K t w0 calls) E (fun cm w => (∃ q, cm = counts (ps ++ q) ∧
      ((ws.filter (fun x => decide (MustPass K w0 calls e x))).map (fun wj => (mk wp, mk wj))).Sublist q ∧
      q.Sublist ((ws.filter (fun x => decide (MayPass K w0 calls e x))).map (fun wj => (mk wp, mk wj)))) ∧ FilterOf calls e (w.rk e).filt)
      (windowL K e mk wp ws (counts ps) : Co (KWorld F) α _) v := by
  induction ws generalizing ps v with
  | nil => exact ⟨⟨[], by simp, by simp, by simp⟩, hf⟩
  | cons wj ws ih =>
    unfold windowL
    refine GoodR.bind (pairfilterL_good e wj v hf) ?_
    rintro b u ⟨⟨h1, h2⟩, hfu⟩
    cases b with
    | true =>
      have hmay := h1 rfl
      simp only [if_true]
      rw [← counts_snoc]
      refine (ih (ps ++ [(mk wp, mk wj)]) u hfu).mono ?_
      rintro cm w ⟨⟨q, g1, g2, g3⟩, g4⟩
      refine ⟨⟨(mk wp, mk wj) :: q, by simpa using g1, ?_, ?_⟩, g4⟩
      · by_cases hm : MustPass K w0 calls e wj
        · simpa [hm] using g2
        · simpa [hm] using g2.cons _
      · simpa [hmay] using g3
    | false =>
      have hmust : ¬ MustPass K w0 calls e wj := fun h => by simpa using h2 h
      simp only [Bool.false_eq_true, if_false]
      refine (ih ps u hfu).mono ?_
      rintro cm w ⟨⟨q, g1, g2, g3⟩, g4⟩
      refine ⟨⟨q, g1, by simpa [hmust] using g2, ?_⟩, g4⟩
      by_cases hm : MayPass K w0 calls e wj
      · simpa [hm] using g3.cons _
      · simpa [hm] using g3

open Classical in
theorem cooccurL_good (e : Nat) (mk : Pair → Key) (ws : List Pair) (ps : List (Key × Key)) (v : KWorld F)
    (hf : FilterOf calls e (v.rk e).filt) :
    GoodR (Rel K t w0 calls) E (fun cm w => (∃ q, cm = counts (ps ++ q) ∧
      (windowPairs (fun x => decide (MustPass K w0 calls e x)) mk (w0.rk e).span ws).Sublist q ∧
      q.Sublist (windowPairs (fun x => decide (MayPass K w0 calls e x)) mk (w0.rk e).span ws)) ∧ FilterOf calls e (w.rk e).filt)
      (cooccurL K e mk ws (counts ps) : Co (KWorld F) α _) v := by
  induction ws generalizing ps v with
  | nil => exact ⟨⟨[], by simp, by simp [windowPairs], by simp⟩, hf⟩
  | cons wp rest ih =>
    unfold cooccurL
    refine GoodR.bind (pairfilterL_good e wp v hf) ?_
    rintro b u ⟨⟨h1, h2⟩, hfu⟩
    cases b with
    | true =>
      have hmay := h1 rfl
      simp only [if_true]
      refine GoodR.get_bind Rel.refl' (fun w hw => ?_)
      rw [(hw.inv.rk e).2]
      refine GoodR.bind (windowL_good e mk wp _ ps w (hw.filt' hfu)) ?_
      rintro cm x ⟨⟨q, rfl, g2, g3⟩, g4⟩
      refine (ih (ps ++ q) x g4).mono ?_
      rintro cm y ⟨⟨q', k1, k2, k3⟩, k4⟩
      refine ⟨⟨q ++ q', by simpa using k1, ?_, ?_⟩, k4⟩
      · rw [windowPairs]
        refine List.Sublist.append ?_ k2
        split
        · exact g2
        · exact List.nil_sublist _
      · rw [windowPairs, if_pos (by simpa using hmay)]
        exact g3.append k3
    | false =>
      have hmust : ¬ MustPass K w0 calls e wp := fun h => by simpa using h2 h
      simp only [Bool.false_eq_true, if_false]
      refine (ih ps u hfu).mono ?_
      rintro cm y ⟨⟨q', k1, k2, k3⟩, k4⟩
      refine ⟨⟨q', k1, ?_, ?_⟩, k4⟩
      · rw [windowPairs, if_neg (by simpa using hmust)]; exact k2
      · rw [windowPairs]; exact k3.trans (List.sublist_append_right _ _)

theorem segmentation_length {ws : List Str} {text : Str} (h : IsSegmentation ws text) : ws.length ≤ text.length := by
  obtain ⟨h1, h2⟩ := h
  rw [← h1]
  clear h1
  induction ws with
  | nil => simp
  | cons a ws ih =>
    have ha : a ≠ [] := h2 a (by simp)
    have := List.length_pos_iff.mpr ha
    have := ih (fun w hw => h2 w (by simp [hw]))
    simp only [List.length_cons, List.flatten_cons, List.length_append]
    omega

open Classical in
/-- What `textrank` returns. -/
def RankPost (R : RSys F) (w0 : KWorld F) (calls : List KCall) (e : Nat) (text : Str) (topK : Option Int) (ww : Bool) (allow : List Str)
    (wf : Bool) (l : List (Key × Option F)) : Prop :=
  ∃ (ts : List Pair) (ps : List (Key × Key)) (d : PyDict Key F) (tags : List (Key × Option F)), IsSegmentation (ts.map Prod.fst) text ∧
    (windowPairs (fun x => decide (MustPass R.k w0 calls e x)) (nodeOf allow wf) (w0.rk e).span ts).Sublist ps ∧
    ps.Sublist (windowPairs (fun x => decide (MayPass R.k w0 calls e x)) (nodeOf allow wf) (w0.rk e).span ts) ∧
    rank R (buildGraph (counts ps)) = .ok d ∧ rankTags d ww = .ok tags ∧ l = topOf topK tags

theorem rankL_good {R : RSys F} (hT : Shipped R.k.pos.tables) (hσ : ∀ s t l, (R.k.pos.σ s t l).Perm l) (N : Nat)
    (hN : ∀ ps : List (Key × Key), ps.length ≤ N → ∃ d, rank R (buildGraph (counts ps)) = .ok d)
    (e : Nat) (s : PyText) (topK : Option Int) (ww : Bool) (allow : List Str) (wf io : Bool) (hcall : .rank e s topK ww allow wf ∈ calls)
    (hc : (w0.p.pos (w0.rk e).pos).tok = t ∧ ((w0.rk e).span - 1) * (strdecode R.k.pos.sys.gbk s).length ≤ N) (v : KWorld F)
    (hv : Inv R.k t w0 calls v) :
    GoodR (Rel R.k t w0 calls) E (fun l _ => RankPost R w0 calls e (strdecode R.k.pos.sys.gbk s) topK ww allow wf l)
      (rankL R e s topK ww allow wf io : Co (KWorld F) α _) v := by
  unfold rankL
  refine GoodR.set_bind (fun w hw => ⟨hw.inv.setFilt ⟨s, topK, ww, wf, hcall⟩, ?_⟩)
  have hr := hw.inv.setFilt (e := e) (filt := allow) ⟨s, topK, ww, wf, hcall⟩
  have hf : FilterOf calls e ((w.setRk e { w.rk e with filt := allow }).rk e).filt := by
    simp only [KWorld.setRk, if_true]
    exact ⟨s, topK, ww, wf, hcall⟩
  refine GoodR.get_bind Rel.refl' (fun w1 hw1 => ?_)
  have hf1 := hw1.filt' hf
  rw [(hw1.inv.rk e).1]
  have hg := cutL_calm R.k.pos t (w0.rk e).pos true s io (fun _ => Props.detail_ok R.k.pos hT hσ) w1.p
    ⟨hw1.inv.healthy, (hw1.inv.toks _).trans hc.1⟩
  refine GoodR.bind (GoodR.forIn (I := fun ts ws u => ws = ts ∧ FilterOf calls e (u.rk e).filt) Rel.trans Rel.refl'
    (fun _ _ _ _ h hr => ⟨h.1, hr.filt' h.2⟩) ?_ [] w1 (Rel.refl hw1.inv) ((GoodR.onP hg hw1.inv rfl).mono (fun _ _ _ => trivial))
      ⟨rfl, hf1⟩) ?_
  · rintro ts x ws u - ⟨rfl, h⟩
    exact ⟨rfl, h⟩
  · rintro ws u ⟨ts, hrun, rfl, hfu⟩
    have hseg := lossless_seg (Props.C82_any_interleaving R.k.pos hT hσ (w0.rk e).pos true s io ws _ (onP_runs _ _ _ hrun))
    refine GoodR.bind (cooccurL_good e _ ws [] u hfu) ?_
    rintro cm x ⟨⟨ps, rfl, g2, g3⟩, -⟩
    rw [List.nil_append]
    have hlen : ps.length ≤ N := by
      refine g3.length_le.trans ((windowPairs_length _ _ _ _).trans (le_trans (Nat.mul_le_mul_left _ ?_) hc.2))
      have := segmentation_length hseg
      rwa [List.length_map] at this
    obtain ⟨d, hd⟩ := hN ps hlen
    have hnd : d.keys.Nodup := by
      rw [rank_keys R _ d hd, buildGraph_keys]
      exact firsts_nodup _
    obtain ⟨tags, ht⟩ := rankTags_ok d hnd ww
    rw [hd]
    refine GoodR.bind (Q' := fun b _ => b = d) (show GoodR _ _ _ (Co.lift (.ok d)) _ from rfl) ?_
    rintro _ y rfl
    rw [ht]
    exact ⟨ws, ps, _, tags, hseg, g2, g3, hd, ht, rfl⟩

/-! ## All calls together -/

/-- What holds when the call has returned. -/
def KPost (R : RSys F) (t : Nat) (w0 : KWorld F) (calls : List KCall) : KCall → KResult F → KWorld F → Prop
  | .tok c, r, w => ∃ o, r = .tok o ∧ Props.PPost R.k.pos.sys.gbk t w0.p.w c o w.p.w
  | .tags e s topK ww allow wf, r, _ => ∃ l, r = .keys l ∧ TagsPost R.k w0 calls e (strdecode R.k.pos.sys.gbk s) topK ww allow wf l
  | .rank e s topK ww allow wf, r, _ => ∃ l, r = .keys l ∧ RankPost R w0 calls e (strdecode R.k.pos.sys.gbk s) topK ww allow wf l
  | .stop x path, _, w => ∀ f content, w0.p.w.files (R.k.pos.sys.abspath path) = some f → utf8Decode f.data = some content →
      ∀ l ∈ splitlines content, l ∈ stopsOf w x
  | .idf _ _, _, _ => True

/-- What the call may raise. -/
def KErr : KCall → PyErr → Prop
  | .idf _ _, _ => True
  | _, _ => False

theorem KPost.stable {R : RSys F} {c : KCall} {r : KResult F} {v w : KWorld F} (h : KPost R t w0 calls c r v)
    (hw : Rel R.k t w0 calls v w) : KPost R t w0 calls c r w := by
  cases c with
  | tok c =>
    obtain ⟨o, h1, h2⟩ := h
    refine ⟨o, h1, ?_⟩
    cases c with
    | tok c => exact Lazy.Post.stable h2 hw.grows
    | tag _ _ _ => exact h2
  | tags e s topK ww allow wf => exact h
  | rank e s topK ww allow wf => exact h
  | stop x path => exact fun f content h1 h2 l hl => hw.stops x l (h f content h1 h2 l hl)
  | idf e path => trivial

theorem kprog_good {R : RSys F} {N : Nat} (hA : SignOk R.k.pos.sys.A) (hT : Shipped R.k.pos.tables)
    (hσ : ∀ s t l, (R.k.pos.σ s t l).Perm l) (hN : NumOk R N) (io : Bool) (c : KCall) (hc : c ∈ calls) (hok : KCallOk R.k t N w0 c)
    (h0 : Inv R.k t w0 calls w0) :
    GoodR (Rel R.k t w0 calls) (KErr c) (KPost R t w0 calls c) (c.prog R t io) w0 := by
  cases c with
  | tok d =>
    have hg : GoodP t (fun r p' => Props.PPost R.k.pos.sys.gbk t w0.p.w d r p'.w) (d.prog R.k.pos t io) w0.p Lazy.nil := by
      cases d with
      | tok d => exact (Good.onWorld (Lazy.prog_good R.k.pos.sys hA t io d w0.p.w h0.healthy hok)).mapOut _
      | tag k hm s =>
        exact GoodP.bind ((cutL_calm R.k.pos t k hm s io (fun _ => Props.detail_ok R.k.pos hT hσ) w0.p ⟨h0.healthy, hok⟩).mapOut _)
          (fun _ p' _ => ⟨rfl, fun _ hp => hp⟩)
    exact GoodR.bind (GoodR.onP hg h0 rfl) (fun r w h => ⟨r, rfl, h.1⟩)
  | tags e s topK ww allow wf =>
    exact GoodR.bind (tagsL_good hT hσ hN.total e s topK ww allow wf io hok w0 h0) (fun l w h => ⟨l, rfl, h⟩)
  | rank e s topK ww allow wf =>
    exact GoodR.bind (rankL_good hT hσ N hN.rank e s topK ww allow wf io hc hok w0 h0) (fun l w h => ⟨l, rfl, h⟩)
  | stop x path =>
    obtain ⟨f, content, h1, h2⟩ := hok
    refine GoodR.bind (stopL_good x path hc f content h1 h2 w0 h0) (fun _ w h f' content' h1' h2' => ?_)
    rw [h1] at h1'
    cases h1'
    rw [h2] at h2'
    cases h2'
    exact h
  | idf e path =>
    exact GoodR.bind (idfL_good e (fun h => h path hc) path w0 h0) (fun _ _ _ => trivial)

structure KPoolInv (R : RSys F) (t : Nat) (w0 : KWorld F) (calls : List KCall) (p : KPool F) : Prop where
  inv : Inv R.k t w0 calls p.w
  since : Rel R.k t w0 calls w0 p.w
  th : ∃ v : Nat → KWorld F, ∀ i, GoodR (Rel R.k t w0 calls) (fun e => ∀ c, calls[i]? = some c → KErr c e)
    (fun r w => ∀ c, calls[i]? = some c → KPost R t w0 calls c r w) (p.th i) (v i) ∧ Rel R.k t w0 calls (v i) p.w

theorem kpoolInv_step {R : RSys F} (p : KPool F) (i : Nat) (h : KPoolInv R t w0 calls p) : KPoolInv R t w0 calls (p.step i) := by
  obtain ⟨hi, hs, v, h1⟩ := h
  unfold KPool.step
  split
  · exact ⟨hi, hs, v, h1⟩
  · exact ⟨hi, hs, v, h1⟩
  · next a k hk =>
    refine ⟨hi, hs, v, fun j => ⟨?_, (h1 j).2⟩⟩
    dsimp only
    split
    · next hj =>
      subst hj
      have := (h1 j).1
      rw [hk] at this
      exact this
    · exact (h1 j).1
  · next f k hk =>
    have hg := (h1 i).1
    rw [hk] at hg
    obtain ⟨g1, g2⟩ := hg p.w (h1 i).2
    refine ⟨g1.inv, Rel.trans _ _ _ hs g1, fun j => if j = i then f p.w else v j, fun j => ?_⟩
    dsimp only
    by_cases hj : j = i
    · simp only [if_pos hj]
      subst hj
      exact ⟨g2, Rel.refl g1.inv⟩
    · simp only [if_neg hj]
      exact ⟨(h1 j).1, Rel.trans _ _ _ (h1 j).2 g1⟩

theorem kpoolInv_run {R : RSys F} (p : KPool F) (sched : List Nat) (h : KPoolInv R t w0 calls p) : KPoolInv R t w0 calls (p.run sched) := by
  unfold KPool.run
  induction sched generalizing p with
  | nil => exact h
  | cons i l ih => exact ih _ (kpoolInv_step p i h)

theorem kends (p : Nat → KPool F) (σ : Nat → Nat) (hp : ∀ n, p (n + 1) = (p n).step (σ n)) (i : Nat) (hi : ∀ n, ∃ m, n ≤ m ∧ σ m = i)
    (n : Nat) : ∃ m, n ≤ m ∧ ((∃ b, (p m).th i = .ret b) ∨ ∃ e, (p m).th i = .raise e) := by
  have same : ∀ n m, n ≤ m → (∀ k, n ≤ k → k < m → σ k ≠ i) → (p m).th i = (p n).th i := by
    intro n m hnm h
    induction m, hnm using Nat.le_induction with
    | base => rfl
    | succ m hm ih =>
      rw [hp, ← ih (fun k a b => h k a (by omega))]
      have := h m hm (by omega)
      unfold KPool.step
      split <;> simp [Ne.symm this]
  have key : ∀ (c : Co (KWorld F) Yield (KResult F)) (n : Nat), (p n).th i = c →
      ∃ m, n ≤ m ∧ ((∃ b, (p m).th i = .ret b) ∨ ∃ e, (p m).th i = .raise e) := by
    have next : ∀ n, ∃ m, n ≤ m ∧ σ m = i ∧ (p m).th i = (p n).th i := by
      intro n
      classical
      have hex := hi n
      have hm := Nat.find_spec hex
      refine ⟨Nat.find hex, hm.1, hm.2, same n _ hm.1 (fun k h1 h2 h3 => Nat.find_min hex h2 ⟨h1, h3⟩)⟩
    intro c
    induction c with
    | ret b => intro n hn; exact ⟨n, le_refl _, Or.inl ⟨b, hn⟩⟩
    | raise e => intro n hn; exact ⟨n, le_refl _, Or.inr ⟨e, hn⟩⟩
    | yield a k ih =>
      intro n hn
      obtain ⟨m, h1, h2, h3⟩ := next n
      obtain ⟨m', h4, h5⟩ := ih (m + 1) (by
        rw [hp, h2]; unfold KPool.step; rw [h3, hn]; simp)
      exact ⟨m', by omega, h5⟩
    | act f k ih =>
      intro n hn
      obtain ⟨m, h1, h2, h3⟩ := next n
      obtain ⟨m', h4, h5⟩ := ih (p m).w (m + 1) (by
        rw [hp, h2]; unfold KPool.step; rw [h3, hn]; simp)
      exact ⟨m', by omega, h5⟩
  exact key _ n rfl

end

end Jieba.Analyse.Steps
