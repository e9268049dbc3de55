import Verif.Proofs.KeyExtract
import Verif.Proofs.RankDoubles
import Verif.Props.Analyse
/-!
# C108: extracting keywords in several threads

`KPool.start R t io w calls` is a process in state `w` with the calls of the list about to start; in `.run sched` the calls named in
`sched` have moved, one access to the shared state (or one yielded value) at a time.
-/

set_option linter.unusedSectionVars false

namespace Jieba.Props
open Jieba Jieba.Spec Jieba.Pos Jieba.Pos.Steps Jieba.Analyse Jieba.Analyse.Steps Jieba.PosData

section
variable {F : Type} [LinearOrder F]

/-- The process can start: as in `PReady`; no division by zero; and an extractor whose IDF file is changed has a table of its own. -/
structure KReady (R : RSys F) (N t : Nat) (w : KWorld F) (calls : List KCall) : Prop where
  sign : SignOk R.k.pos.sys.A
  tables : Shipped R.k.pos.tables
  order : ∀ s t l, (R.k.pos.σ s t l).Perm l
  num : NumOk R N
  init : (w.p.w.tok t).initialized = true
  nonneg : NonNeg (w.p.w.tok t).freq
  total : 0 < (w.p.w.tok t).total
  refs : ∀ e, (w.tf e).idf < w.next ∧ (w.tf e).lidf < w.next
  apart : ∀ e e', ¬ IdfKept calls e → e ≠ e' → (w.tf e).lidf ≠ (w.tf e').lidf ∧ (w.tf e).lidf ≠ (w.tf e').idf
  calls : ∀ c ∈ calls, KCallOk R.k t N w c

variable {R : RSys F} {N t : Nat} {w : KWorld F} {calls : List KCall}

theorem KReady.inv (h : KReady R N t w calls) : Inv R.k t w calls w :=
  ⟨⟨h.init, h.nonneg, h.total⟩, Lazy.SameFiles.refl t _, fun _ => rfl, fun _ => ⟨rfl, rfl⟩, fun _ => ⟨rfl, rfl⟩, fun _ => ⟨fun _ hu => hu, fun _ hu => Or.inl hu⟩,
    h.refs, h.apart, fun _ _ => ⟨rfl, rfl, rfl⟩⟩

theorem KReady.pool (h : KReady R N t w calls) (io : Bool) (sched : List Nat) :
    KPoolInv R t w calls ((KPool.start R t io w calls).run sched) := by
  refine kpoolInv_run _ sched ⟨h.inv, Rel.refl h.inv, fun _ => w, fun i => ⟨?_, Rel.refl h.inv⟩⟩
  unfold KPool.start
  simp only []
  cases hci : calls[i]? with
  | none => exact fun c hc => by simp at hc
  | some c =>
    have hm := List.mem_of_getElem? hci
    have hg := kprog_good h.sign h.tables h.order h.num io c hm (h.calls c hm) h.inv
    simp only [Option.some.injEq, forall_eq']
    exact hg

theorem KReady.post (h : KReady R N t w calls) (io : Bool) (sched : List Nat) (i : Nat) (c : KCall) (hc : calls[i]? = some c)
    (r : KResult F) (hr : ((KPool.start R t io w calls).run sched).th i = .ret r) :
    KPost R t w calls c r ((KPool.start R t io w calls).run sched).w := by
  obtain ⟨-, -, v, h1⟩ := h.pool io sched
  have h2 := (h1 i).1
  rw [hr] at h2
  exact (h2 c hc).stable (h1 i).2

/-- C108: no call raises, except perhaps `set_idf_path`. -/
theorem C108_no_exception (h : KReady R N t w calls) (io : Bool) (sched : List Nat) (i : Nat) (hi : ∀ e path, calls[i]? ≠ some (.idf e path))
    (e : PyErr) : ((KPool.start R t io w calls).run sched).th i ≠ .raise e := by
  intro he
  obtain ⟨-, -, v, h1⟩ := h.pool io sched
  have h2 := (h1 i).1
  cases hc : calls[i]? with
  | none =>
    have hidle : ∀ (l : List Nat) (p : KPool F), p.th i = .ret .none → (p.run l).th i = .ret .none := by
      intro l
      induction l with
      | nil => exact fun p h => h
      | cons j l ih =>
        intro p hpi
        refine ih (p.step j) ?_
        by_cases hj : j = i
        · subst hj; unfold KPool.step; rw [hpi]; exact hpi
        · unfold KPool.step
          split <;> simp [Ne.symm hj, hpi]
    have := hidle sched (KPool.start R t io w calls) (by unfold KPool.start; simp only [hc])
    rw [this] at he
    cases he
  | some c =>
    rw [he] at h2
    have h3 : KErr c e := h2 c hc
    cases c with
    | idf x path => exact hi x path hc
    | tok _ => exact h3
    | tags _ _ _ _ _ _ => exact h3
    | rank _ _ _ _ _ _ => exact h3
    | stop _ _ => exact h3

/-- C108: in an execution without end, a call that moves again and again returns. -/
theorem C108_returns (h : KReady R N t w calls) (io : Bool) (σ : Nat → Nat) (i : Nat) (hi : ∀ n, ∃ m, n ≤ m ∧ σ m = i)
    (hc : ∀ e path, calls[i]? ≠ some (.idf e path)) : ∃ n r, ((KPool.start R t io w calls).run ((List.range n).map σ)).th i = .ret r := by
  obtain ⟨m, -, h1⟩ := kends (fun n => (KPool.start R t io w calls).run ((List.range n).map σ)) σ
    (fun n => by simp [KPool.run, List.range_succ]) i hi 0
  rcases h1 with ⟨r, hr⟩ | ⟨e, he⟩
  · exact ⟨m, r, hr⟩
  · exact absurd he (C108_no_exception h io _ i hc e)

/-- C108: a call of a method of the tokenizer has the effect that it has without the extractors (C106). -/
theorem C108_tokenizer_calls (h : KReady R N t w calls) (io : Bool) (sched : List Nat) (i : Nat) (c : Lazy.Call)
    (hc : calls[i]? = some (.tok (.tok c))) (r : KResult F) (hr : ((KPool.start R t io w calls).run sched).th i = .ret r) :
    ∃ o, r = .tok o ∧ ResultOk c o ∧
      Registered R.k.pos.sys.gbk w.p.w (((KPool.start R t io w calls).run sched).w.p.w.tok t).freq c := by
  obtain ⟨o, h1, h2⟩ := h.post io sched i _ hc r hr
  exact ⟨o, h1, h2⟩

/-! ## Stop words -/

/-- C108: at every moment the stop words of an extractor are those at the beginning and lines of files that calls of
`set_stop_words` of this extractor read, and none of those at the beginning is lost. -/
theorem C108_stop_words (h : KReady R N t w calls) (io : Bool) (sched : List Nat) (x : Extractor) :
    (∀ u ∈ stopsOf w x, u ∈ stopsOf ((KPool.start R t io w calls).run sched).w x) ∧
    ∀ u ∈ stopsOf ((KPool.start R t io w calls).run sched).w x, u ∈ stopsOf w x ∨ AddedStop R.k w calls x u :=
  (h.pool io sched).inv.stops x

/-- C108: when `set_stop_words` has returned, all lines of the file are stop words, then and later. -/
theorem C108_stop_words_added (h : KReady R N t w calls) (io : Bool) (sched : List Nat) (i : Nat) (x : Extractor) (path : Path)
    (hc : calls[i]? = some (.stop x path)) (r : KResult F) (hr : ((KPool.start R t io w calls).run sched).th i = .ret r) :
    ∃ f content ls, w.p.w.files (R.k.pos.sys.abspath path) = some f ∧ utf8Encode content = some f.data ∧ TextLines content ls ∧
      ∀ l ∈ ls, l ∈ stopsOf ((KPool.start R t io w calls).run sched).w x := by
  obtain ⟨f, content, h1, h2⟩ := h.calls _ (List.mem_of_getElem? hc)
  exact ⟨f, content, splitlines content, h1, utf8_encode_decode _ _ h2, splitlines_spec content,
    h.post io sched i _ hc r hr f content h1 h2⟩

/-! ## `extract_tags` -/

theorem rankTags_shape (d : PyDict Key F) (hd : d.keys.Nodup) (ww : Bool) (tags : List (Key × Option F)) (h : rankTags d ww = .ok tags) :
    tags = (sortBy (fun a b => decide (b.2 ≤ a.2)) d).map (fun e => (e.1, if ww then some e.2 else none)) := by
  cases ww with
  | true => rw [rankTags_weights] at h; cases h; simp
  | false => rw [rankTags_words d hd] at h; cases h; simp

theorem topOf_sublist {α : Type _} (topK : Option Int) (l : List α) : (topOf topK l).Sublist l := by
  unfold topOf sliceTo
  repeat' split
  all_goals first | exact List.Sublist.refl _ | exact List.take_sublist _ _

/-- What every list of keywords made from the weights `d` is like. -/
theorem shape_facts (d : PyDict Key F) (hd : d.keys.Nodup) (topK : Option Int) (ww : Bool) (tags : List (Key × Option F))
    (h : rankTags d ww = .ok tags) :
    ((topOf topK tags).map Prod.fst).Nodup ∧ (∀ k ∈ (topOf topK tags).map Prod.fst, k ∈ d.keys) ∧
    (topK = none → ∀ k ∈ d.keys, k ∈ (topOf topK tags).map Prod.fst) ∧ (∀ n : Nat, 0 < n → topK = some (n : Int) → (topOf topK tags).length ≤ n) ∧
    (topOf topK tags).Pairwise (fun a b => ∀ u v, a.2 = some u → b.2 = some v → v ≤ u) ∧
    (∀ a ∈ topOf topK tags, a.2.isSome = ww) ∧ ∀ k u, (k, some u) ∈ topOf topK tags → (k, u) ∈ d := by
  have ht := rankTags_shape d hd ww tags h
  have hsub := topOf_sublist topK tags
  have hmem : ∀ a ∈ tags, ∃ e ∈ d, a = (e.1, if ww then some e.2 else none) := by
    intro a ha
    rw [ht] at ha
    obtain ⟨e, he, rfl⟩ := List.mem_map.mp ha
    exact ⟨e, (sortBy_perm _ _).mem_iff.mp he, rfl⟩
  have hkeys : (tags.map Prod.fst).Perm d.keys := by
    rw [ht, List.map_map]
    exact (sortBy_perm _ d).map Prod.fst
  refine ⟨(hkeys.nodup_iff.mpr hd).sublist (hsub.map _), fun k hk => hkeys.mem_iff.mp ((hsub.map _).subset hk), ?_, ?_, ?_, ?_, ?_⟩
  · rintro rfl k hk
    exact hkeys.mem_iff.mpr hk
  · rintro n hn rfl
    simp only [topOf, sliceTo]
    rw [if_neg (by omega), if_pos (by omega)]
    simp only [List.length_take]
    omega
  · refine List.Pairwise.sublist hsub ?_
    rw [ht, List.pairwise_map]
    refine (sortBy_pairwise (fun e : Key × F => e.2) (fun _ _ => True) d (List.pairwise_of_forall (fun _ _ => trivial))).imp ?_
    intro a b hab u v hu hv
    cases ww with
    | false => simp at hu
    | true =>
      simp only [if_true, Option.some.injEq] at hu hv
      subst hu hv
      rcases hab with hab | hab
      · exact le_of_lt hab
      · exact le_of_eq hab.1.symm
  · intro a ha
    obtain ⟨e, -, rfl⟩ := hmem a (hsub.subset ha)
    cases ww <;> rfl
  · intro k u hu
    obtain ⟨e, he, heq⟩ := hmem _ (hsub.subset hu)
    cases ww with
    | false => simp at heq
    | true =>
      simp only [if_true, Prod.mk.injEq, Option.some.injEq] at heq
      rw [heq.1, heq.2]
      exact he

/-- C108: what `extract_tags` returns while other calls run: distinct keywords, by decreasing weight; each is a token of one segmentation
of the text with an allowed flag and was no stop word at the beginning; with `topK=None` no such token is missing, unless it may have been
a stop word at some moment. -/
theorem C108_extract_tags (h : KReady R N t w calls) (io : Bool) (sched : List Nat) (i e : Nat) (s : PyText) (topK : Option Int) (ww : Bool)
    (allow : List Str) (wf : Bool) (hc : calls[i]? = some (.tags e s topK ww allow wf)) (r : KResult F)
    (hr : ((KPool.start R t io w calls).run sched).th i = .ret r) :
    ∃ l cs, r = .keys l ∧ Candidates (strdecode R.k.pos.sys.gbk s) allow wf cs ∧ (l.map Prod.fst).Nodup ∧
      (∀ k ∈ l.map Prod.fst, k ∈ cs ∧ Accepts R.k.lower (w.tf e).stop k.text) ∧
      (topK = none → ∀ S, AllStops R.k w calls (.tf e) S → ∀ k ∈ cs, Accepts R.k.lower S k.text → k ∈ l.map Prod.fst) ∧
      (∀ n : Nat, 0 < n → topK = some (n : Int) → l.length ≤ n) ∧
      l.Pairwise (fun a b => ∀ u v, a.2 = some u → b.2 = some v → v ≤ u) ∧ ∀ a ∈ l, a.2.isSome = ww := by
  obtain ⟨l, h1, cs, ks, d, tags, h2, h3, h4, -, h5, rfl⟩ := h.post io sched i _ hc r hr
  have hnd : d.keys.Nodup := h4 ▸ countKeys_nodup _ ks
  obtain ⟨g1, g2, g3, g4, g5, g6, -⟩ := shape_facts d hnd topK ww tags h5
  refine ⟨_, cs, h1, h2, g1, fun k hk => ?_, fun htop S hS k hk ha => ?_, g4, g5, g6⟩
  · have := g2 k hk
    rw [h4, countKeys_mem] at this
    exact ⟨h3.sub.subset this, h3.acc k this⟩
  · refine g3 htop k ?_
    rw [h4, countKeys_mem]
    exact (h3.all S hS).subset (List.mem_filter.mpr ⟨hk, by simpa using ha⟩)

/-- No call changes the stop words of `x`. -/
def StopsKept (calls : List KCall) (x : Extractor) : Prop := ∀ path, .stop x path ∉ calls

theorem StopsKept.all {x : Extractor} (h : StopsKept calls x) (K : KSys F) : AllStops K w calls x (stopsOf w x) :=
  ⟨fun _ hu => hu, fun _ ⟨path, _, _, hp, _⟩ => absurd hp (h path)⟩

theorem counted_eq {K : KSys F} {x : Extractor} {cs ks : List Key} (h : Counted K w calls x cs ks) (hs : StopsKept calls x) :
    ks = cs.filter (fun k => Accepts K.lower (stopsOf w x) k.text) := by
  refine List.Sublist.antisymm ?_ (h.all _ (hs.all K))
  have h1 : ks.filter (fun k => decide (Accepts K.lower (stopsOf w x) k.text)) = ks :=
    List.filter_eq_self.mpr (fun k hk => by simpa using h.acc k hk)
  rw [← h1]
  exact h.sub.filter _

/-- C108: if no call changes the stop words and the IDF table of the extractor, `extract_tags` computes from its segmentation exactly what
it computes when no other call runs. -/
theorem C108_extract_tags_as_alone (h : KReady R N t w calls) (io : Bool) (sched : List Nat) (i e : Nat) (s : PyText) (topK : Option Int)
    (ww : Bool) (allow : List Str) (wf : Bool) (hc : calls[i]? = some (.tags e s topK ww allow wf)) (hs : StopsKept calls (.tf e))
    (hi : IdfKept calls e) (r : KResult F) (hr : ((KPool.start R t io w calls).run sched).th i = .ret r) :
    ∃ l cs d, r = .keys l ∧ Candidates (strdecode R.k.pos.sys.gbk s) allow wf cs ∧
      scaleBy R.k.pos.sys.A (w.dicts (w.tf e).idf) (w.tf e).median
        ((countKeys R.k.pos.sys.A (cs.filter (keeps R.k (w.tf e).stop))).values.foldl R.k.pos.sys.A.add R.k.pos.sys.A.zero)
        (countKeys R.k.pos.sys.A (cs.filter (keeps R.k (w.tf e).stop))) = .ok d ∧
      (rankTags d ww).map (topOf topK) = .ok l := by
  obtain ⟨l, h1, cs, ks, d, tags, h2, h3, h4, h5, h6, rfl⟩ := h.post io sched i _ hc r hr
  have hks := counted_eq h3 hs
  have : cs.filter (fun k => decide (Accepts R.k.lower (stopsOf w (.tf e)) k.text)) = cs.filter (keeps R.k (w.tf e).stop) := by
    congr 1
    funext k
    rw [Bool.eq_iff_iff, decide_eq_true_eq, keeps_iff]
    rfl
  rw [this] at hks
  subst hks
  exact ⟨_, cs, d, h1, h2, h5 hi, by rw [h6]; rfl⟩

/-! ## `textrank` -/

/-- How `textrank` returns a token. -/
def rankKey (allow : List Str) (wf : Bool) (x : Str × Str) : Key := if allow ≠ [] ∧ wf = true then .pair x.1 x.2 else .word x.1

/-- C108: what `textrank` returns while other calls run: distinct keywords, by decreasing weight; each is a token of one segmentation of the
text that was no stop word at the beginning, that lies near another such token, and whose flag is allowed by *one of the calls* of
`textrank` of this extractor.  With `topK=None` no such token is missing that every call allows and that cannot have become a stop word. -/
theorem C108_textrank (h : KReady R N t w calls) (io : Bool) (sched : List Nat) (i e : Nat) (s : PyText) (topK : Option Int) (ww : Bool)
    (allow : List Str) (wf : Bool) (hc : calls[i]? = some (.rank e s topK ww allow wf)) (r : KResult F)
    (hr : ((KPool.start R t io w calls).run sched).th i = .ret r) :
    ∃ l, ∃ ts : List (Str × Str), r = .keys l ∧ IsSegmentation (ts.map Prod.fst) (strdecode R.k.pos.sys.gbk s) ∧ (l.map Prod.fst).Nodup ∧
      (∀ k ∈ l.map Prod.fst, ∃ (i j : Nat) (a b : Str × Str), i < j ∧ j < i + (w.rk e).span ∧ ts[i]? = some a ∧ ts[j]? = some b ∧
        (∃ filt, FilterOf calls e filt ∧ AcceptsPair R.k.lower (w.rk e).stop filt a) ∧
        (∃ filt, FilterOf calls e filt ∧ AcceptsPair R.k.lower (w.rk e).stop filt b) ∧ (k = rankKey allow wf a ∨ k = rankKey allow wf b)) ∧
      (topK = none → ∀ S, AllStops R.k w calls (.rk e) S → ∀ (i j : Nat) (a b : Str × Str), i < j → j < i + (w.rk e).span → ts[i]? = some a →
        ts[j]? = some b → (∀ filt, FilterOf calls e filt → AcceptsPair R.k.lower S filt a ∧ AcceptsPair R.k.lower S filt b) →
        rankKey allow wf a ∈ l.map Prod.fst ∧ rankKey allow wf b ∈ l.map Prod.fst) ∧
      (∀ n : Nat, 0 < n → topK = some (n : Int) → l.length ≤ n) ∧
      l.Pairwise (fun a b => ∀ u v, a.2 = some u → b.2 = some v → v ≤ u) ∧ ∀ a ∈ l, a.2.isSome = ww := by
  obtain ⟨l, h1, ts, ps, d, tags, h2, h3, h4, h5, h6, rfl⟩ := h.post io sched i _ hc r hr
  classical
  have hk : d.keys = firsts (ends ps) := by rw [rank_keys R _ d h5, buildGraph_keys]
  obtain ⟨g1, g2, g3, g4, g5, g6, -⟩ := shape_facts d (hk ▸ firsts_nodup _) topK ww tags h6
  refine ⟨_, ts, h1, h2, g1, fun k hk' => ?_, fun htop S hS i j a b h7 h8 h9 h10 h11 => ?_, g4, g5, g6⟩
  · have := g2 k hk'
    rw [hk, mem_firsts, mem_ends] at this
    obtain ⟨⟨u, v⟩, hp, hkuv⟩ := this
    obtain ⟨i, j, a, b, k1, k2, k3, k4, k5, k6, rfl, rfl⟩ := (mem_windowPairs _ _ _ _ _ _).mp (h4.subset hp)
    obtain ⟨⟨fa, ha1, ha2⟩, ha3⟩ := (by simpa using k5 : MayPass R.k w calls e a)
    obtain ⟨⟨fb, hb1, hb2⟩, hb3⟩ := (by simpa using k6 : MayPass R.k w calls e b)
    exact ⟨i, j, a, b, k1, k2, k3, k4, ⟨fa, ha1, ha2, ha3⟩, ⟨fb, hb1, hb2, hb3⟩, hkuv⟩
  · have hself : FilterOf calls e allow := ⟨s, topK, ww, wf, List.mem_of_getElem? hc⟩
    have hm : (nodeOf allow wf a, nodeOf allow wf b) ∈ ps := by
      refine h3.subset ((mem_windowPairs _ _ _ _ _ _).mpr ⟨i, j, a, b, h7, h8, h9, h10, ?_, ?_, rfl, rfl⟩)
      · have hm : MustPass R.k w calls e a := ⟨fun f hf => (h11 f hf).1.1, S, hS, (h11 _ hself).1.2⟩
        simpa using hm
      · have hm : MustPass R.k w calls e b := ⟨fun f hf => (h11 f hf).2.1, S, hS, (h11 _ hself).2.2⟩
        simpa using hm
    constructor
    · exact g3 htop _ (by rw [hk, mem_firsts, mem_ends]; exact ⟨_, hm, Or.inl rfl⟩)
    · exact g3 htop _ (by rw [hk, mem_firsts, mem_ends]; exact ⟨_, hm, Or.inr rfl⟩)

/-- C108: if all calls of `textrank` of the extractor allow the same flags and no call changes its stop words, `textrank` computes from its
segmentation exactly what it computes when no other call runs. -/
theorem C108_textrank_as_alone (h : KReady R N t w calls) (io : Bool) (sched : List Nat) (i e : Nat) (s : PyText) (topK : Option Int) (ww : Bool)
    (allow : List Str) (wf : Bool) (hc : calls[i]? = some (.rank e s topK ww allow wf)) (hs : StopsKept calls (.rk e))
    (hf : ∀ filt, FilterOf calls e filt → ∀ g, g ∈ filt ↔ g ∈ allow) (r : KResult F)
    (hr : ((KPool.start R t io w calls).run sched).th i = .ret r) :
    ∃ l, ∃ ts : List (Str × Str), ∃ d, r = .keys l ∧ IsSegmentation (ts.map Prod.fst) (strdecode R.k.pos.sys.gbk s) ∧
      rank R (buildGraph (cooccur (pairfilter R.k allow (w.rk e).stop) (nodeOf allow wf) (w.rk e).span ts [])) = .ok d ∧
      (rankTags d ww).map (topOf topK) = .ok l := by
  obtain ⟨l, h1, ts, ps, d, tags, h2, h3, h4, h5, h6, rfl⟩ := h.post io sched i _ hc r hr
  have hself : FilterOf calls e allow := ⟨s, topK, ww, wf, List.mem_of_getElem? hc⟩
  classical
  have hmay : (fun x => decide (MayPass R.k w calls e x)) = pairfilter R.k allow (w.rk e).stop := by
    funext x
    rw [Bool.eq_iff_iff, decide_eq_true_eq, pairfilter_iff]
    constructor
    · rintro ⟨⟨f, hf1, hf2⟩, ha⟩
      exact ⟨(hf f hf1 _).mp hf2, ha⟩
    · rintro ⟨h7, h8⟩
      exact ⟨⟨allow, hself, h7⟩, h8⟩
  have hmust : (fun x => decide (MustPass R.k w calls e x)) = pairfilter R.k allow (w.rk e).stop := by
    funext x
    rw [Bool.eq_iff_iff, decide_eq_true_eq, pairfilter_iff]
    constructor
    · rintro ⟨h7, S, hS, ha⟩
      exact ⟨h7 _ hself, ha.1, fun hx => ha.2 (hS.1 _ hx)⟩
    · rintro ⟨h7, h8⟩
      exact ⟨fun f hf1 => (hf f hf1 _).mpr h7, _, hs.all R.k, h8⟩
  have hps : ps = windowPairs (pairfilter R.k allow (w.rk e).stop) (nodeOf allow wf) (w.rk e).span ts := by
    refine List.Sublist.antisymm ?_ ?_
    · rw [← hmay]; convert h4
    · rw [← hmust]; convert h3
  refine ⟨_, ts, d, h1, h2, ?_, by rw [h6]; rfl⟩
  rw [cooccur_eq, ← hps]
  exact h5

end

/-! ## Numbers -/

theorem counts_graph (ps : List (Key × Key)) : GraphOK (buildGraph (counts ps)) ∧ ∀ n, outWeight (buildGraph (counts ps)) n ≤ 2 * ps.length := by
  refine ⟨buildGraph_ok _ (counts_pos ps), fun n => ?_⟩
  have := buildGraph_weight (counts ps) n
  rwa [counts_sum] at this

/-- With exact numbers nothing is divided by zero. -/
theorem numOk_exact {F : Type} [Field F] [LinearOrder F] [IsStrictOrderedRing F] (R : RSys F) (N : Nat) (hA : Exact R.k.pos.sys.A) (hd0 : 0 ≤ R.d)
    (hd1 : R.d < 1) (hmin : R.fmin < 1 - R.d) (hmax : ((2 * N : Nat) : F) < R.fmax) : NumOk R N := by
  refine ⟨fun ks hk => ?_, fun ps hps => ?_⟩
  · rw [total_exact _ hA, hA.zero]
    have : ks.length ≠ 0 := by simpa using hk
    exact_mod_cast this
  · obtain ⟨hg, hw⟩ := counts_graph ps
    obtain ⟨d, hd, -⟩ := rank_ok R hA hd0 hd1 hmin _ hg (fun n => lt_of_le_of_lt (by exact_mod_cast (hw n).trans (by omega)) hmax)
    exact ⟨d, hd⟩

theorem ones_dbl (log : Nat → ℚ) (n : Nat) : 0 ≤ ones (dblArith log) n ∧ (0 < n → 1 ≤ ones (dblArith log) n) := by
  have h1 : rnd (1 : ℚ) = 1 := by exact_mod_cast Jieba.rnd_int 1 (by norm_num)
  induction n with
  | zero => exact ⟨le_refl (0 : ℚ), fun h => absurd h (by omega)⟩
  | succ n ih =>
    have h2 : (1 : ℚ) ≤ ones (dblArith log) (n + 1) := by
      show (1 : ℚ) ≤ rnd (ones (dblArith log) n + rnd ((1 : ℤ) : ℚ))
      rw [Int.cast_one, h1]
      calc (1 : ℚ) = rnd 1 := h1.symm
        _ ≤ _ := rnd_mono (by linarith [ih.1])
    exact ⟨le_trans (by norm_num) h2, fun _ => h2⟩

theorem foldl_dbl (log : Nat → ℚ) (l : List ℚ) (hl : ∀ x ∈ l, 1 ≤ x) (z : ℚ) (hz : 0 ≤ z) :
    0 ≤ l.foldl (dblArith log).add z ∧ (l ≠ [] ∨ 1 ≤ z → 1 ≤ l.foldl (dblArith log).add z) := by
  induction l generalizing z with
  | nil => exact ⟨hz, fun h => by simpa using h⟩
  | cons x l ih =>
    have h1 : rnd (1 : ℚ) = 1 := by exact_mod_cast Jieba.rnd_int 1 (by norm_num)
    have hx := hl x (by simp)
    have h2 : (1 : ℚ) ≤ (dblArith log).add z x := by
      show (1 : ℚ) ≤ rnd (z + x)
      calc (1 : ℚ) = rnd 1 := h1.symm
        _ ≤ _ := rnd_mono (by linarith)
    obtain ⟨g1, g2⟩ := ih (fun y hy => hl y (by simp [hy])) _ (le_trans (by norm_num) h2)
    exact ⟨g1, fun _ => g2 (Or.inr h2)⟩

/-- With doubles nothing is divided by zero either. -/
theorem numOk_doubles (R : RSys ℚ) (log : Nat → ℚ) (hA : R.k.pos.sys.A = dblArith log) (hd0 : 0 ≤ R.d) (hd1 : R.d ≤ 7 / 8)
    (hmin : R.fmin < 1 / 8) (hmax : 2 ^ 45 < R.fmax) : NumOk R (2 ^ 43) := by
  refine ⟨fun ks hk => ?_, fun ps hps => ?_⟩
  · rw [hA]
    have hne := countKeys_ne_nil (dblArith log) ks hk
    have := (foldl_dbl log (countKeys (dblArith log) ks).values ?_ 0 (le_refl _)).2 (Or.inl (by
      intro h0
      exact hne (List.map_eq_nil_iff.mp h0)))
    · intro h0
      have h00 : (dblArith log).zero = (0 : ℚ) := rfl
      rw [h00] at h0
      rw [h0] at this
      exact absurd this (by norm_num)
    · intro x hx
      rw [PyDict.values, countKeys_eq, List.map_map] at hx
      obtain ⟨k, hk', rfl⟩ := List.mem_map.mp hx
      exact (ones_dbl log _).2 (List.count_pos_iff.mpr ((countKeys_mem _ _ _).mp hk'))
  · obtain ⟨hg, hw⟩ := counts_graph ps
    obtain ⟨d, hd, -⟩ := rank_dbl R log hA hd0 hd1 hmin hmax _ hg (fun n => (hw n).trans (by omega))
    exact ⟨d, hd⟩

/-! ## A process, and what can go wrong in it -/

/-- Rational numbers, and tables of the shape shipped. -/
def keyRSys : RSys ℚ := { ratRSys with k := { ratKSys with pos := ⟨ratSys, constTables 0, fun _ _ l => l⟩ } }

def keyFiles : World :=
  (readyRat.w.setFile (lit ['s']) (some ⟨[229, 164, 167, 229, 173, 166], 0⟩)).setFile (lit ['i']) (some ⟨[229, 140, 151, 228, 186, 172, 32, 55], 0⟩)

/-- The dictionary 北京 40 ns, 大学 32 n; the stop word "the"; the idf of 北京 is 3, the median 5; the file "s" contains 大学, the file "i"
gives 北京 the idf 7.  Extractors 0 and 1 have tables of their own. -/
def keyWorld : KWorld ℚ :=
  { p := { readyRat with w := keyFiles },
    tf := fun e => ⟨0, 0, [lit ['t', 'h', 'e']], lit ['/', 'i'], min e 2, 5, min e 2, 5⟩,
    rk := fun _ => ⟨0, [lit ['t', 'h', 'e']], 5, [lit ['n', 's'], lit ['n']]⟩,
    dicts := fun _ => [(lit ['北', '京'], 3)],
    next := 3 }

/-- Two TF-IDF extractors and a TextRank extractor are used while a word is added, stop words are added and an IDF file is read. -/
def keyCalls : List KCall :=
  [.tags 0 rankedText none true [lit ['n'], lit ['n', 's']] false, .tags 1 rankedText (some 1) false [] false,
   .rank 0 rankedText none true [lit ['n'], lit ['n', 's']] false, .rank 0 rankedText none false [lit ['n', 's'], lit ['n']] true,
   .stop (.tf 1) (lit ['s']), .idf 1 (lit ['i']),
   .tok (.tok (.addWord (.str (lit ['北', '京', '大', '学'])) (.int 3) (some (lit ['n', 't']))))]

theorem ratArith_signOk : SignOk ratArith := exact_signOk _ ratArith_exact (fun x hx => by
  show (0 : Int) ≤ (if 0 ≤ x then x.floor else x.ceil)
  rw [if_pos hx]
  exact Rat.le_floor_iff.mpr (by exact_mod_cast hx))

theorem keyRSys_num : NumOk keyRSys 1000 :=
  numOk_exact keyRSys 1000 ratArith_exact (by decide +kernel) (by decide +kernel) (by decide +kernel) (by decide +kernel)

theorem key_ready : KReady keyRSys 1000 0 keyWorld keyCalls := by
  refine ⟨ratArith_signOk, constTables_shipped _, fun _ _ _ => List.Perm.refl _, keyRSys_num, by decide +kernel,
    nonNeg_of_all _ (by decide +kernel), by decide +kernel, fun e => ?_, fun e e' he hne => ?_, ?_⟩
  · show min e 2 < 3 ∧ min e 2 < 3
    omega
  · have : e = 1 := by
      by_contra h1
      refine he (fun path hp => h1 ?_)
      simp only [keyCalls, List.mem_cons, List.not_mem_nil, or_false, reduceCtorEq, false_or, or_false, KCall.idf.injEq] at hp
      exact hp.1
    show min e 2 ≠ min e' 2 ∧ min e 2 ≠ min e' 2
    omega
  · intro c hc
    simp only [keyCalls, List.mem_cons, List.not_mem_nil, or_false] at hc
    rcases hc with rfl | rfl | rfl | rfl | rfl | rfl | rfl
    · exact (by decide +kernel : (keyWorld.p.pos (keyWorld.tf 0).pos).tok = 0)
    · exact (by decide +kernel : (keyWorld.tf 1).tok = 0)
    · exact ⟨by decide +kernel, by decide +kernel⟩
    · exact ⟨by decide +kernel, by decide +kernel⟩
    · exact ⟨_, lit ['大', '学'], rfl, by decide +kernel⟩
    · trivial
    · show (0 : Int) ≤ 3
      decide

/-- What a call returned, if it has returned. -/
def keysOf {F : Type} : Co (KWorld F) Yield (KResult F) → Option (List (Key × Option F))
  | .ret (.keys l) => some l
  | _ => none

/-- Every call returns; the first three alone. -/
example : keysOf (((KPool.start keyRSys 0 true keyWorld keyCalls).run (List.replicate 60 0)).th 0) =
      some [(.word (lit ['大', '学']), some (10 / 3)), (.word (lit ['北', '京']), some 1)] ∧
    keysOf (((KPool.start keyRSys 0 true keyWorld keyCalls).run (List.replicate 60 1)).th 1) = some [(.word (lit ['大', '学']), none)] ∧
    (keysOf (((KPool.start keyRSys 0 true keyWorld keyCalls).run (List.replicate 80 2)).th 2)).map (List.map Prod.fst) =
      some [.word (lit ['大', '学']), .word (lit ['北', '京'])] ∧
    (List.range 7).all (fun i => isRet (((KPool.start keyRSys 0 true keyWorld keyCalls).run (List.replicate 80 i)).th i)) = true := by
  decide +kernel

/-- With stop words: 大学 is added before the tokens are counted. -/
example : keysOf (((KPool.start keyRSys 0 true keyWorld keyCalls).run ([1, 1] ++ List.replicate 5 4 ++ List.replicate 60 1)).th 1) =
    some [(.word (lit ['北', '京']), none)] := by decide +kernel

/-- Two calls of `textrank` of the same extractor, one with `allowPOS=('ns',)`, one with `allowPOS=('n', 'ns')`. -/
def filtCalls : List KCall :=
  [.rank 0 rankedText none false [lit ['n', 's']] true, .rank 0 rankedText none false [lit ['n'], lit ['n', 's']] true]

theorem filt_ready : KReady keyRSys 1000 0 keyWorld filtCalls := by
  refine ⟨ratArith_signOk, constTables_shipped _, fun _ _ _ => List.Perm.refl _, keyRSys_num, by decide +kernel,
    nonNeg_of_all _ (by decide +kernel), by decide +kernel, fun e => ?_, fun e e' he _ => ?_, ?_⟩
  · show min e 2 < 3 ∧ min e 2 < 3
    omega
  · exact absurd (fun path hp => by simp [filtCalls] at hp) he
  · intro c hc
    simp only [filtCalls, List.mem_cons, List.not_mem_nil, or_false] at hc
    rcases hc with rfl | rfl
    · exact ⟨by decide +kernel, by decide +kernel⟩
    · exact ⟨by decide +kernel, by decide +kernel⟩

/-- C108: `allowPOS` of one call can take effect in another.  The filter is kept in the extractor: in one execution the call with
`allowPOS=('ns',)` returns 大学 with the flag 'n', in another the call with `allowPOS=('n', 'ns')` returns nothing.  One after the other, in
either order, the first returns nothing and the second both words. -/
theorem C108_textrank_filter_is_shared :
    (∃ sched, keysOf (((KPool.start keyRSys 0 true keyWorld filtCalls).run sched).th 0) =
      some [(.pair (lit ['大', '学']) (lit ['n']), none), (.pair (lit ['北', '京']) (lit ['n', 's']), none)]) ∧
    (∃ sched, keysOf (((KPool.start keyRSys 0 true keyWorld filtCalls).run sched).th 1) = some []) ∧
    ∀ sched ∈ [List.replicate 80 0 ++ List.replicate 80 1, List.replicate 80 1 ++ List.replicate 80 0],
      keysOf (((KPool.start keyRSys 0 true keyWorld filtCalls).run sched).th 0) = some [] ∧
      keysOf (((KPool.start keyRSys 0 true keyWorld filtCalls).run sched).th 1) =
        some [(.pair (lit ['大', '学']) (lit ['n']), none), (.pair (lit ['北', '京']) (lit ['n', 's']), none)] :=
  ⟨⟨[0, 1] ++ List.replicate 80 0, by decide +kernel⟩, ⟨[1, 0] ++ List.replicate 80 1, by decide +kernel⟩, by decide +kernel⟩

end Jieba.Props
