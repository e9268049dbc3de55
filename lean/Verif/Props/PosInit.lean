import Verif.Proofs.PosInitEnd
import Verif.Props.PosCalls
/-!
# C112: `POSTokenizer.initialize()` while others segment, tag and change the dictionary

`PPool.startI P t io p calls` is a process in state `p` with the calls of the list about to start, as in C106; some of them may be calls
of `initialize()` of POS tokenizers.
-/

namespace Jieba.Props
open Jieba Jieba.Spec Jieba.Lazy Jieba.Pos Jieba.Pos.Steps Jieba.PosData Jieba.Co

variable {F : Type} [LinearOrder F]

/-! ## Without interference -/

theorem setPos_self' (p : PWorld) (k : Nat) : p.setPos k ⟨(p.pos k).tok, (p.pos k).tab⟩ = p := by
  unfold PWorld.setPos
  congr 1
  funext j
  by_cases h : j = k
  · subst h; simp
  · simp [h]

theorem setPos_twice (p : PWorld) (k : Nat) (x y : PosTok) : (p.setPos k x).setPos k y = p.setPos k y := by
  unfold PWorld.setPos
  congr 1
  funext j
  by_cases h : j = k <;> simp [h]

theorem loadTagsL_alone {α : Type} (k : Nat) (ls : List Bytes) (n : Nat) (p : PWorld) :
    drive (fun _ p => p) (loadTagsL k ls : Co PWorld α Unit) n p =
      (p.setPos k ⟨(p.pos k).tok, (loadTagsLoop ls (p.pos k).tab).1⟩, [], (loadTagsLoop ls (p.pos k).tab).2) := by
  induction ls generalizing p with
  | nil => simp only [loadTagsL, loadTagsLoop, drive, setPos_self']
  | cons l ls ih =>
    unfold loadTagsL loadTagsLoop
    cases tagLine l with
    | none => simp only [drive, setPos_self']
    | some e =>
      cases e with
      | none => exact ih p
      | some e =>
        obtain ⟨w, g⟩ := e
        simp only [bind_def, Co.bind, drive]
        rw [ih, setPos_twice]
        simp [PWorld.setPos]

/-- The steps are those of the function of the sequential model when nobody interferes. -/
theorem C112_alone {α : Type} (P : PSys F) (k : Nat) (io : Bool) (p : PWorld) :
    drive (fun _ p => p) (initPosL P k io : Co PWorld α Unit) 0 p = ((initPos P p k none io).1, [], (initPos P p k none io).2) := by
  unfold initPosL initPos
  simp only [bind_def, Co.get, Co.bind, drive]
  generalize hx : initTok P.sys p.w (p.pos k).tok none io = x
  obtain ⟨w, r⟩ := x
  cases r with
  | error e => simp only [id_eq, hx, Co.lift, Co.bind, drive]
  | ok u =>
    simp only [id_eq, hx, Co.lift, Co.bind, drive]
    cases hd : dictFile w (w.tok (p.pos k).tok).dictionary with
    | error e => simp only [Co.bind, drive]
    | ok data =>
      simp only [Co.bind, drive, loadWordTagL, bind_def]
      rw [loadTagsL_alone, setPos_twice]
      simp [PWorld.setPos, loadTags]

/-! ## At the same time -/

/-- The process can start: as `PReady`. -/
structure IReady (P : PSys F) (t : Nat) (p : PWorld) (calls : List ICall) : Prop where
  sign : SignOk P.sys.A
  tables : Shipped P.tables
  order : ∀ s t l, (P.σ s t l).Perm l
  init : (p.w.tok t).initialized = true
  nonneg : NonNeg (p.w.tok t).freq
  total : 0 < (p.w.tok t).total
  calls : ∀ c ∈ calls, ICallOk t p c

/-- What holds when the call has returned. -/
def InitPost (gbk : Bytes → Str) (t : Nat) (w0 : World) : ICall → Option Int → World → Prop
  | .call c, r, w => PPost gbk t w0 c r w
  | .init _, r, _ => r = none

theorem callOk_lines {t k : Nat} {p : PWorld} (h : ICallOk t p (.init k)) : (p.pos k).tok = t ∧
    ∃ data, dictFile p.w (p.w.tok t).dictionary = .ok data ∧ ∀ l ∈ fileLines data, Readable l := by
  obtain ⟨h1, ls, ⟨data, h2, h3⟩, h4⟩ := h
  have := (fileLines_iff _ _).mp h3
  subst this
  exact ⟨h1, data, h2, fun l hl => readable_of l (h4 l hl)⟩

theorem iready_start (P : PSys F) (t : Nat) (io : Bool) (p : PWorld) (calls : List ICall) (h : IReady P t p calls) :
    PPoolInv t (PrefixClosed (p.w.tok t).freq) (fun i r p' => ∀ c, calls[i]? = some c → InitPost P.sys.gbk t p.w c r p'.w)
      (PPool.startI P t io p calls) := by
  have hw : Healthy t p.w := ⟨h.init, h.nonneg, h.total⟩
  refine ⟨hw, fun _ => p, fun _ => Lazy.nil, fun i => ⟨?_, TameP.refl t p, hw⟩, ?_⟩
  · unfold PPool.startI
    simp only []
    cases hci : calls[i]? with
    | none => exact ⟨fun c hc => by simp at hc, fun _ hp => hp⟩
    | some c =>
      have hok := h.calls c (List.mem_of_getElem? hci)
      cases c with
      | init k =>
        obtain ⟨h1, data, h2, h3⟩ := callOk_lines hok
        refine GoodP.bind (initPosL_good P t k io p ⟨hw, h1⟩ data h2 h3) (fun _ p' _ => ⟨?_, fun _ hp => hp⟩)
        rintro c' hc'
        cases hc'
        rfl
      | call c =>
        cases c with
        | tok d =>
          refine ((Good.onWorld (prog_good P.sys h.sign t io d p.w hw hok)).mapOut _).mono (fun r w' h c' hc' => ?_)
          cases hc'
          exact h
        | tag k hm s =>
          refine GoodP.bind ((cutL_calm P t k hm s io (fun _ => detail_ok P h.tables h.order) p ⟨hw, hok⟩).mapOut _) (fun _ p' _ => ⟨?_, fun _ hp => hp⟩)
          rintro c' hc'
          cases hc'
          rfl
  · exact fun hp u hu q hq hqu => Or.inl (hp u hu q hq hqu)

/-- C112: no call raises. -/
theorem C112_no_exception (P : PSys F) (t : Nat) (io : Bool) (p : PWorld) (calls : List ICall) (h : IReady P t p calls)
    (sched : List Nat) (i : Nat) (e : PyErr) : ((PPool.startI P t io p calls).run sched).th i ≠ .raise e := by
  obtain ⟨-, v, D, h1, -⟩ := (ppoolInv_run t _ _ _ sched (iready_start P t io p calls h)).1
  intro he
  have := (h1 i).1
  rw [he] at this
  exact this

/-- C112: in an execution without end, a call that moves again and again returns. -/
theorem C112_returns (P : PSys F) (t : Nat) (io : Bool) (p : PWorld) (calls : List ICall) (h : IReady P t p calls) (σ : Nat → Nat)
    (i : Nat) (hi : ∀ n, ∃ m, n ≤ m ∧ σ m = i) :
    ∃ n r, ((PPool.startI P t io p calls).run ((List.range n).map σ)).th i = .ret r := by
  obtain ⟨m, -, h1⟩ := pends (fun n => (PPool.startI P t io p calls).run ((List.range n).map σ)) σ
    (fun n => by simp [PPool.run, List.range_succ]) i hi 0
  rcases h1 with ⟨r, hr⟩ | ⟨e, he⟩
  · exact ⟨m, r, hr⟩
  · exact absurd he (C112_no_exception P t io p calls h _ i e)

/-- C112: when a call of a method of the tokenizer has returned, its result is as it should be and the words it registers are in the
table, as without `initialize`. -/
theorem C112_returned (P : PSys F) (t : Nat) (io : Bool) (p : PWorld) (calls : List ICall) (h : IReady P t p calls)
    (sched : List Nat) (i : Nat) (c : Call) (hc : calls[i]? = some (.call (.tok c))) (r : Option Int)
    (hr : ((PPool.startI P t io p calls).run sched).th i = .ret r) :
    ResultOk c r ∧ Registered P.sys.gbk p.w (((PPool.startI P t io p calls).run sched).p.w.tok t).freq c := by
  obtain ⟨hw, v, D, h1, -⟩ := (ppoolInv_run t _ _ _ sched (iready_start P t io p calls h)).1
  obtain ⟨h2, h3⟩ := h1 i
  rw [hr] at h2
  exact Post.stable (h2.1 _ hc) (h3.1.1 h3.2).2.1

/-- C112: at every moment the tokenizer is initialised, no frequency is negative, the total is positive, every word that was in the
table is in it, and every POS tokenizer belongs to the same tokenizer as before. -/
theorem C112_table (P : PSys F) (t : Nat) (io : Bool) (p : PWorld) (calls : List ICall) (h : IReady P t p calls) (sched : List Nat) :
    (((PPool.startI P t io p calls).run sched).p.w.tok t).initialized = true ∧
    NonNeg (((PPool.startI P t io p calls).run sched).p.w.tok t).freq ∧ 0 < (((PPool.startI P t io p calls).run sched).p.w.tok t).total ∧
    (∀ k, (p.w.tok t).freq.has k = true → (((PPool.startI P t io p calls).run sched).p.w.tok t).freq.has k = true) ∧
    ∀ k, (((PPool.startI P t io p calls).run sched).p.pos k).tok = (p.pos k).tok := by
  obtain ⟨h1, h2⟩ := ppoolInv_run t _ _ _ sched (iready_start P t io p calls h)
  exact ⟨h1.healthy.init, h1.healthy.nonneg, h1.healthy.total, (h2.1 ⟨h.init, h.nonneg, h.total⟩).2.1, h2.2⟩

/-! ## What is yielded -/

theorem iout_run (P : PSys F) (t : Nat) (io : Bool) (p : PWorld) (calls : List ICall) (sched : List Nat) (i : Nat) (c : ICall)
    (hc : calls[i]? = some c) :
    (∃ l r, Co.Runs (c.prog P t io) (((PPool.startI P t io p calls).run sched).out i ++ l) r) ∧
    ∀ r, ((PPool.startI P t io p calls).run sched).th i = .ret r →
      Co.Runs (c.prog P t io) (((PPool.startI P t io p calls).run sched).out i) (.ok r) := by
  have hstart : (PPool.startI P t io p calls).th i = c.prog P t io := by unfold PPool.startI; simp only [hc]
  have hrun : ∀ l r, Co.Runs (((PPool.startI P t io p calls).run sched).th i) l r →
      Co.Runs (c.prog P t io) (((PPool.startI P t io p calls).run sched).out i ++ l) r := by
    intro l r h
    obtain ⟨m, h1, h2⟩ := ppool_runs _ sched i l r h
    rw [hstart] at h2
    rw [h1]
    exact h2
  refine ⟨?_, fun r hr => ?_⟩
  · obtain ⟨l, r, h⟩ := exists_run p (((PPool.startI P t io p calls).run sched).th i)
    exact ⟨l, r, hrun l r h⟩
  · have := hrun [] (.ok r) (by rw [hr]; exact .ret r)
    rwa [List.append_nil] at this

/-- C112: what a call of `cut` of a POS tokenizer has yielded at any moment are non-empty words with tags that join to a beginning of
the text, and to the whole text when the call has ended, even if the POS tokenizer is being initialised. -/
theorem C112_tagged_words (P : PSys F) (hT : Shipped P.tables) (hσ : ∀ s t l, (P.σ s t l).Perm l) (t : Nat) (io : Bool) (p : PWorld)
    (calls : List ICall) (sched : List Nat) (i k : Nat) (hm : Bool) (s : PyText) (hc : calls[i]? = some (.call (.tag k hm s))) :
    (∀ a ∈ ((PPool.startI P t io p calls).run sched).out i, a.1 ≠ []) ∧
    ((((PPool.startI P t io p calls).run sched).out i).map Prod.fst).flatten <+: strdecode P.sys.gbk s ∧
    ∀ r, ((PPool.startI P t io p calls).run sched).th i = .ret r →
      IsSegmentation ((((PPool.startI P t io p calls).run sched).out i).map Prod.fst) (strdecode P.sys.gbk s) := by
  have key : ∀ l r, Co.Runs ((PCall.tag k hm s).prog P t io) l r →
      ∃ r', Lossless ⟨l.map Prod.fst, errOf r'⟩ (strdecode P.sys.gbk s) ∧ ∀ b, r = .ok b → r' = .ok () := by
    intro l r hr
    obtain ⟨r', h1, h2⟩ := runs_then_none _ _ _ hr
    obtain ⟨m, rfl, h3⟩ := mapOut_runs _ _ _ _ h1
    refine ⟨r', ?_, h2⟩
    have := C82_any_interleaving P hT hσ k hm s io m r' h3
    rw [List.map_map]
    exact this
  obtain ⟨⟨l, r, h1⟩, h2⟩ := iout_run P t io p calls sched i _ hc
  obtain ⟨r', ⟨g1, g2, -⟩, -⟩ := key _ _ h1
  rw [List.map_append] at g1 g2
  refine ⟨fun a ha => g1 _ (List.mem_append_left _ (List.mem_map_of_mem ha)), ?_, fun r hr => ?_⟩
  · refine List.IsPrefix.trans ?_ g2
    simp only [List.flatten_append]
    exact List.prefix_append _ _
  · obtain ⟨r', ⟨k1, -, k3⟩, k4⟩ := key _ _ (h2 r hr)
    have := k4 r rfl
    subst this
    exact ⟨k3 rfl, k1⟩

/-- C112: every word that a call of `cut` of a POS tokenizer yields has a tag: one that was in a table in use when the calls began; the
tag of a user word; if a POS tokenizer is being initialised, a tag that the dictionary file gives to this word; or 'x', 'm' or 'eng';
or, only with HMM and for words of Han characters, one of the 64 tags of the HMM. -/
theorem C112_tags (P : PSys F) (t : Nat) (io : Bool) (p : PWorld) (calls : List ICall) (h : IReady P t p calls) (sched : List Nat)
    (i k : Nat) (hm : Bool) (s : PyText) (hc : calls[i]? = some (.call (.tag k hm s))) :
    ∀ a ∈ ((PPool.startI P t io p calls).run sched).out i, ∃ g, a.2 = some g ∧
      (ITagKnown P.sys.gbk t p calls a.1 g ∨ g ∈ [lit ['x'], lit ['m'], lit ['e', 'n', 'g']] ∨
        (hm = true ∧ (∀ c ∈ a.1, isHan c = true) ∧ g ∈ hmmTags)) := by
  have hinv := iready_start P t io p calls h
  have hstart : IKnown t p.w (Uses calls) (ITagKnown P.sys.gbk t p calls)
      (fun i a => ∀ c, calls[i]? = some (.call c) → YieldOk P.tables (ITagKnown P.sys.gbk t p calls) c a) (PPool.startI P t io p calls) := by
    refine ⟨SameFiles.refl t _, ⟨fun x hx => Or.inr (Or.inl (Or.inl hx)), fun k hk => ⟨?_, fun x hx => Or.inl ⟨k, hk, hx⟩⟩⟩, fun i => ?_,
      fun i a ha => by simp [PPool.startI] at ha⟩
    · rcases hk with hk | ⟨hm, s, hk⟩
      · exact (h.calls _ hk).1
      · exact h.calls _ hk
    unfold PPool.startI
    simp only []
    cases hci : calls[i]? with
    | none => trivial
    | some c =>
      have hmem := List.mem_of_getElem? hci
      cases c with
      | init k =>
        refine KeepsI.bind (initPosL_keeps P k (Or.inl hmem) io (fun ls hls l hl u g hg => ?_)) (fun _ => trivial)
        exact Or.inr (Or.inr ⟨⟨k, hmem⟩, ls, hls, l, hl, hg⟩)
      | call c =>
        have := pprog_keeps (t := t) (K := ITagKnown P.sys.gbk t p calls) (ks := Uses calls) P h.order io c p rfl
          (h.calls _ hmem) (fun k hm s hk => Or.inr ⟨hm, s, hk ▸ hmem⟩) (fun d hd u g hg => Or.inr (Or.inl (Or.inr ⟨d, hd ▸ hmem, hg⟩)))
        have hE : (fun a => ∀ c', some (ICall.call c) = some (.call c') → YieldOk P.tables (ITagKnown P.sys.gbk t p calls) c' a) =
            YieldOk P.tables (ITagKnown P.sys.gbk t p calls) c := by
          funext a
          exact propext ⟨fun h => h c rfl, fun h c' hc' => by cases hc'; exact h⟩
        rw [hE]
        exact KeepsP.toI this
  intro a ha
  obtain ⟨g, h1, h2⟩ := (iknown_run _ sched hinv hstart).done i a ha _ hc
  refine ⟨g, h1, ?_⟩
  rcases h2 with h2 | h2 | ⟨h2, h3, y, h4, rfl⟩
  · exact Or.inl h2
  · exact Or.inr (Or.inl h2)
  · refine Or.inr (Or.inr ⟨h2, h3, ?_⟩)
    have := List.all_eq_true.mp states_tags y (shipped_isState _ h.tables y h4)
    simpa using this

/-! ## The table afterwards -/

/-- C112: when all calls of `initialize` of POS tokenizer `k`, of which there is at least one, have returned, then its table holds for every
word without a tag as a user word the tag on the last line of the dictionary file with this word, and nothing for a word that is not
in the file; other calls may still be under way. -/
theorem C112_table_afterwards (P : PSys F) (t : Nat) (io : Bool) (p : PWorld) (calls : List ICall) (h : IReady P t p calls) (sched : List Nat)
    (k : Nat) (hk : .init k ∈ calls) (u : Str) (hu : ∀ g, ¬ UserTag P.sys.gbk t p calls u g)
    (hr : ∀ i, calls[i]? = some (.init k) → ∃ r, ((PPool.startI P t io p calls).run sched).th i = .ret r) (ls : List Bytes)
    (hls : DictLines t p.w ls) : LastTag ls u ((((PPool.startI P t io p calls).run sched).p.pos k).tab.get? u) := by
  have hw : Healthy t p.w := ⟨h.init, h.nonneg, h.total⟩
  obtain ⟨h1, data, h2, h3⟩ := callOk_lines (h.calls _ hk)
  have hls' := (dictLines_iff h2 ls).mp hls
  subst hls'
  have hstart : SetInv t p u k (lastOf u (fileLines data)) (fun i => calls[i]? = some (.init k)) (PPool.startI P t io p calls) := by
    have hset : ∀ i, calls[i]? = some (.init k) → Sets t p u k (lastOf u (fileLines data)) ((PPool.startI P t io p calls).th i) := by
      intro i hi
      unfold PPool.startI
      simp only [hi]
      exact initPosL_sets P h1 io data h2 h3 _ trivial
    refine ⟨⟨hw, SameFiles.refl t _, fun _ => rfl, fun g hg => hu g (Or.inl hg)⟩, fun i => ?_, ?_⟩
    · by_cases hik : calls[i]? = some (.init k)
      · exact Or.inr ⟨hik, hset i hik⟩
      · left
        unfold PPool.startI
        simp only []
        cases hci : calls[i]? with
        | none => trivial
        | some c =>
          have hmem := List.mem_of_getElem? hci
          cases c with
          | init j =>
            have hkj : k ≠ j := by rintro rfl; exact hik hci
            exact Still.bind (initPosL_other P j hkj (h.calls _ hmem).1 io) (fun _ => trivial)
          | call c => exact pprog_still P io c (h.calls _ hmem) (fun d hd g hg => hu g (Or.inr ⟨d, hd ▸ hmem, hg⟩))
    · obtain ⟨i, hi⟩ := List.mem_iff_getElem?.mp hk
      exact Or.inl ⟨i, hi, hset i hi⟩
  have hend := setInv_run _ sched (iready_start P t io p calls h) hstart
  rcases hend.tab with ⟨i, hi, hs⟩ | ht
  · obtain ⟨r, hri⟩ := hr i hi
    rw [hri] at hs
    exact hs.elim
  · rw [ht]
    exact lastOf_spec u _

/-! ## The hypotheses can be met -/

/-- POS tokenizers on a tokenizer whose dictionary file is that of `samplePWorld`. -/
def renewPWorld : PWorld := ⟨{ readyWorld boostFreq 100 with defaultDict := taggedData }, fun _ => ⟨0, [(lit ['北', '京'], lit ['n', 's'])]⟩⟩

/-- POS tokenizer 0 is initialised twice while a word is added, a user dictionary is read and texts are cut and tagged. -/
def renewCalls : List ICall := busyPCalls.map .call ++ [.init 0, .init 0]

example : IReady busyPSys 0 renewPWorld renewCalls := by
  refine ⟨dbl_signOk _, constTables_shipped _, fun _ _ _ => List.Perm.refl _, rfl, nonNeg_of_all _ (by decide), by decide, ?_⟩
  have hinit : ICallOk 0 renewPWorld (.init 0) := by
    refine ⟨rfl, fileLines taggedData, ⟨taggedData, rfl, fileLines_spec _⟩, fun l hl => ?_⟩
    have hall : ∀ l ∈ fileLines taggedData, ((tagLine l).getD none).isSome = true := by decide +kernel
    have := hall l hl
    cases ht : tagLine l with
    | none => rw [ht] at this; simp at this
    | some e =>
      cases e with
      | none => rw [ht] at this; simp at this
      | some e => exact Or.inr ⟨e.1, e.2, (tagEntry_iff l e.1 e.2).mpr ht⟩
  intro c hc
  simp only [renewCalls, busyPCalls, List.map_cons, List.map_nil, List.cons_append, List.nil_append, List.mem_cons, List.not_mem_nil, or_false] at hc
  rcases hc with rfl | rfl | rfl | rfl | rfl | rfl | rfl
  · trivial
  · refine ⟨_, rfl, ?_⟩
    intro ln hln
    simp only [List.mem_singleton] at hln
    subst hln
    exact ⟨lit ['京', '人', ' ', '7', ' ', 'n', 's'], (userLine_iff _ _).mp (by decide), by decide⟩
  · trivial
  · rfl
  · rfl
  · exact hinit
  · exact hinit

/-- POS tokenizer 0 is initialised while a text is tagged. -/
def earlyCalls : List ICall := [.init 0, .call (.tag 0 false (.str (lit ['北', '京', '大', '学'])))]

/-- C112: tagging notices that the table is being renewed.  There is an execution in which both calls return and words that are in the
dictionary, and had their tags before and have them afterwards, are tagged 'x'; one after the other, in either order, the calls give
the tags of the dictionary. -/
theorem C112_not_atomic :
    (∃ sched, let q := (PPool.startI samplePSys 0 true samplePWorld earlyCalls).run sched
      (isRet (q.th 0), isRet (q.th 1), q.out 1) =
        (true, true, [(lit ['北', '京'], some (lit ['x'])), (lit ['大', '学'], some (lit ['x']))]) ∧
      (cutPW samplePSys q.p 0 false (.str (lit ['北', '京', '大', '学'])) true).2 =
        Gen.ok [(lit ['北', '京'], lit ['n', 's']), (lit ['大', '学'], lit ['n'])]) ∧
    (∀ sched ∈ [List.replicate 60 0 ++ List.replicate 60 1, List.replicate 60 1 ++ List.replicate 60 0],
      let q := (PPool.startI samplePSys 0 true samplePWorld earlyCalls).run sched
      (isRet (q.th 0), isRet (q.th 1), q.out 1) =
      (true, true, [(lit ['北', '京'], some (lit ['n', 's'])), (lit ['大', '学'], some (lit ['n']))])) :=
  ⟨⟨List.replicate 5 0 ++ List.replicate 60 1 ++ List.replicate 60 0, by decide +kernel⟩, by decide +kernel⟩

end Jieba.Props
