import Verif.Proofs.PosCallTags
import Verif.Props.Calls
import Verif.Props.PosLazy
import Verif.Props.PosTags
/-!
# C106: segmenting, tagging and changing the dictionary at the same time

`PPool.start P t io p calls` is a process in state `p` with the calls of the list about to start, on tokenizer `t` and on POS
tokenizers that belong to it; in `.run sched` the calls named in `sched` have moved, one access to the shared state (or one yielded
value) at a time.
-/

namespace Jieba.Props
open Jieba Jieba.Spec Jieba.Lazy Jieba.Pos Jieba.Pos.Steps Jieba.PosData

variable {F : Type} [LinearOrder F]

/-- The process can start: the tables of the tagger are those shipped, the tokenizer is initialised, its table has no negative
frequency and a positive total, and the arguments of the calls are as they should be. -/
structure PReady (P : PSys F) (t : Nat) (p : PWorld) (calls : List PCall) : Prop where
  sign : SignOk P.sys.A
  tables : Shipped P.tables
  order : ∀ s t l, (P.σ s t l).Perm l
  init : (p.w.tok t).initialized = true
  nonneg : NonNeg (p.w.tok t).freq
  total : 0 < (p.w.tok t).total
  calls : ∀ c ∈ calls, PCallOk t p c

/-- What holds when the call has returned. -/
def PPost (gbk : Bytes → Str) (t : Nat) (w0 : World) : PCall → Option Int → World → Prop
  | .tok c, r, w => Post gbk t w0 c r w
  | .tag _ _ _, r, _ => r = none

theorem detail_ok (P : PSys F) (hT : Shipped P.tables) (hσ : ∀ s t l, (P.σ s t l).Perm l) (b : Str) : (cutDetail (detailEnv P) b).err = none := by
  obtain ⟨ws, h, -⟩ := cutDetail_spec (detailEnv P) (shipped_ok _ hT) (shipped_bmes _ hT) hσ b
  unfold words Gen.ok at h
  simp only [Gen.mk.injEq] at h
  exact h.2

theorem pready_start (P : PSys F) (t : Nat) (io : Bool) (p : PWorld) (calls : List PCall) (h : PReady P t p calls) :
    PPoolInv t (PrefixClosed (p.w.tok t).freq) (fun i r p' => ∀ c, calls[i]? = some c → PPost P.sys.gbk t p.w c r p'.w)
      (PPool.start P t io p calls) := by
  have hw : Healthy t p.w := ⟨h.init, h.nonneg, h.total⟩
  refine ⟨hw, fun _ => p, fun _ => Lazy.nil, fun i => ⟨?_, TameP.refl t p, hw⟩, ?_⟩
  · unfold PPool.start
    simp only []
    cases hci : calls[i]? with
    | none => exact ⟨fun c hc => by simp at hc, fun _ hp => hp⟩
    | some c =>
      have hok := h.calls c (List.mem_of_getElem? hci)
      cases c with
      | tok d =>
        refine ((Good.onWorld (prog_good P.sys h.sign t io d p.w hw hok)).mapOut _).mono (fun r w' h c' hc' => ?_)
        cases hc'
        exact h
      | tag k hm s =>
        refine GoodP.bind ((cutL_calm P t k hm s io (fun _ => detail_ok P h.tables h.order) p ⟨hw, hok⟩).mapOut _) (fun _ p' _ => ⟨?_, fun _ hp => hp⟩)
        rintro c' hc'
        cases hc'
        rfl
  · exact fun hp u hu q hq hqu => Or.inl (hp u hu q hq hqu)

/-- C106: no call raises. -/
theorem C106_no_exception (P : PSys F) (t : Nat) (io : Bool) (p : PWorld) (calls : List PCall) (h : PReady P t p calls)
    (sched : List Nat) (i : Nat) (e : PyErr) : ((PPool.start P t io p calls).run sched).th i ≠ .raise e := by
  obtain ⟨-, v, D, h1, -⟩ := (ppoolInv_run t _ _ _ sched (pready_start P t io p calls h)).1
  intro he
  have := (h1 i).1
  rw [he] at this
  exact this

/-- C106: when a call of a method of the tokenizer has returned, its result is as it should be and the words it registers are in the
table. -/
theorem C106_returned (P : PSys F) (t : Nat) (io : Bool) (p : PWorld) (calls : List PCall) (h : PReady P t p calls)
    (sched : List Nat) (i : Nat) (c : Call) (hc : calls[i]? = some (.tok c)) (r : Option Int)
    (hr : ((PPool.start P t io p calls).run sched).th i = .ret r) :
    ResultOk c r ∧ Registered P.sys.gbk p.w (((PPool.start P t io p calls).run sched).p.w.tok t).freq c := by
  obtain ⟨hw, v, D, h1, -⟩ := (ppoolInv_run t _ _ _ sched (pready_start P t io p calls h)).1
  obtain ⟨h2, h3⟩ := h1 i
  rw [hr] at h2
  exact Post.stable (h2.1 _ hc) (h3.1.1 h3.2).2.1

/-- C106: at every moment the tokenizer is initialised, no frequency is negative, the total is positive, every word that was in the
table is in it, and every POS tokenizer belongs to the same tokenizer as before. -/
theorem C106_table (P : PSys F) (t : Nat) (io : Bool) (p : PWorld) (calls : List PCall) (h : PReady P t p calls) (sched : List Nat) :
    (((PPool.start P t io p calls).run sched).p.w.tok t).initialized = true ∧
    NonNeg (((PPool.start P t io p calls).run sched).p.w.tok t).freq ∧ 0 < (((PPool.start P t io p calls).run sched).p.w.tok t).total ∧
    (∀ k, (p.w.tok t).freq.has k = true → (((PPool.start P t io p calls).run sched).p.w.tok t).freq.has k = true) ∧
    ∀ k, (((PPool.start P t io p calls).run sched).p.pos k).tok = (p.pos k).tok := by
  obtain ⟨h1, h2⟩ := ppoolInv_run t _ _ _ sched (pready_start P t io p calls h)
  exact ⟨h1.healthy.init, h1.healthy.nonneg, h1.healthy.total, (h2.1 ⟨h.init, h.nonneg, h.total⟩).2.1, h2.2⟩

/-- C106: when all calls have returned, every prefix of a word in the table is in the table, if it was so at the beginning. -/
theorem C106_prefix_closed (P : PSys F) (t : Nat) (io : Bool) (p : PWorld) (calls : List PCall) (h : PReady P t p calls)
    (hp : PrefixClosed (p.w.tok t).freq) (sched : List Nat)
    (hr : ∀ i, i < calls.length → ∃ r, ((PPool.start P t io p calls).run sched).th i = .ret r) :
    PrefixClosed (((PPool.start P t io p calls).run sched).p.w.tok t).freq := by
  have hret : ∀ i, ∃ r, ((PPool.start P t io p calls).run sched).th i = .ret r := by
    intro i
    rcases Nat.lt_or_ge i calls.length with hlt | hge
    · exact hr i hlt
    · have hidle : ∀ sched (p : PPool), p.th i = .ret none → (p.run sched).th i = .ret none := by
        intro sched
        induction sched with
        | nil => exact fun p h => h
        | cons j sched ih =>
          intro p hpi
          refine ih (p.step j) ?_
          by_cases hj : j = i
          · subst hj; unfold PPool.step; rw [hpi]; exact hpi
          · unfold PPool.step
            split <;> simp [Ne.symm hj, hpi]
      refine ⟨none, hidle sched _ ?_⟩
      unfold PPool.start
      simp only [List.getElem?_eq_none hge]
  obtain ⟨-, v, D, h1, h2⟩ := (ppoolInv_run t _ _ _ sched (pready_start P t io p calls h)).1
  intro u hu q hq hqu
  rcases h2 hp u hu q hq hqu with g | ⟨i, hi⟩
  · exact g
  · obtain ⟨r, hri⟩ := hret i
    have := (h1 i).1
    rw [hri] at this
    exact absurd hi (this.2 q)

/-- C106: in an execution without end, a call that moves again and again returns. -/
theorem C106_returns (P : PSys F) (t : Nat) (io : Bool) (p : PWorld) (calls : List PCall) (h : PReady P t p calls) (σ : Nat → Nat)
    (i : Nat) (hi : ∀ n, ∃ m, n ≤ m ∧ σ m = i) :
    ∃ n r, ((PPool.start P t io p calls).run ((List.range n).map σ)).th i = .ret r := by
  obtain ⟨m, -, h1⟩ := pends (fun n => (PPool.start P t io p calls).run ((List.range n).map σ)) σ
    (fun n => by simp [PPool.run, List.range_succ]) i hi 0
  rcases h1 with ⟨r, hr⟩ | ⟨e, he⟩
  · exact ⟨m, r, hr⟩
  · exact absurd he (C106_no_exception P t io p calls h _ i e)

/-! ## What is yielded -/

/-- A run of a program with other values comes from a run of the program. -/
theorem mapOut_runs {W α α' β : Type} (f : α → α') (c : Co W α β) (l' : List α') (r : Except PyErr β) (h : Co.Runs (c.mapOut f) l' r) :
    ∃ l, l' = l.map f ∧ Co.Runs c l r := by
  induction c generalizing l' with
  | ret b => cases h; exact ⟨[], rfl, .ret b⟩
  | raise e => cases h; exact ⟨[], rfl, .raise e⟩
  | yield a k ih =>
    cases h with
    | yield _ _ l _ h => obtain ⟨m, rfl, h2⟩ := ih l h; exact ⟨a :: m, rfl, .yield _ _ _ _ h2⟩
  | act g k ih =>
    cases h with
    | act _ _ w _ _ h => obtain ⟨m, h1, h2⟩ := ih w l' h; exact ⟨m, h1, .act _ _ _ _ _ h2⟩

theorem onWorld_runs {α β : Type} (c : Co World α β) (l : List α) (r : Except PyErr β) (h : Co.Runs c.onWorld l r) : Co.Runs c l r := by
  induction c generalizing l with
  | ret b => cases h; exact .ret b
  | raise e => cases h; exact .raise e
  | yield a k ih =>
    cases h with
    | yield _ _ l _ h => exact .yield _ _ _ _ (ih l h)
  | act g k ih =>
    cases h with
    | act _ _ w _ _ h => exact .act _ _ w.w _ _ (ih w.w l h)

/-- A run of a program that ends with `ret none`. -/
theorem runs_then_none {W α : Type} (c : Co W α Unit) (l : List α) (r : Except PyErr (Option Int))
    (h : Co.Runs (c.bind fun _ => .ret none) l r) : ∃ r', Co.Runs c l r' ∧ ∀ b, r = .ok b → r' = .ok () := by
  induction c generalizing l with
  | ret b => cases h; exact ⟨_, .ret b, fun _ _ => rfl⟩
  | raise e => cases h; exact ⟨_, .raise e, fun b hb => by cases hb⟩
  | yield a k ih =>
    cases h with
    | yield _ _ l _ h => obtain ⟨r', h1, h2⟩ := ih l h; exact ⟨r', .yield _ _ _ _ h1, h2⟩
  | act f k ih =>
    cases h with
    | act _ _ w _ _ h => obtain ⟨r', h1, h2⟩ := ih w l h; exact ⟨r', .act _ _ _ _ _ h1, h2⟩

/-- What a call has yielded can be completed to a run of its program; when the call has ended, it is the run. -/
theorem pout_run (P : PSys F) (t : Nat) (io : Bool) (p : PWorld) (calls : List PCall) (sched : List Nat) (i : Nat) (c : PCall)
    (hc : calls[i]? = some c) :
    (∃ l r, Co.Runs (c.prog P t io) (((PPool.start P t io p calls).run sched).out i ++ l) r) ∧
    ∀ r, ((PPool.start P t io p calls).run sched).th i = .ret r →
      Co.Runs (c.prog P t io) (((PPool.start P t io p calls).run sched).out i) (.ok r) := by
  have hstart : (PPool.start P t io p calls).th i = c.prog P t io := by unfold PPool.start; simp only [hc]
  have hrun : ∀ l r, Co.Runs (((PPool.start P t io p calls).run sched).th i) l r →
      Co.Runs (c.prog P t io) (((PPool.start P t io p calls).run sched).out i ++ l) r := by
    intro l r h
    obtain ⟨m, h1, h2⟩ := ppool_runs _ sched i l r h
    rw [hstart] at h2
    rw [h1]
    exact h2
  refine ⟨?_, fun r hr => ?_⟩
  · obtain ⟨l, r, h⟩ := exists_run p (((PPool.start P t io p calls).run sched).th i)
    exact ⟨l, r, hrun l r h⟩
  · have := hrun [] (.ok r) (by rw [hr]; exact .ret r)
    rwa [List.append_nil] at this

/-- C106: what a call of `cut` of a POS tokenizer has yielded at any moment are non-empty words with tags that join to a beginning of
the text, and to the whole text when the call has ended; whether the tokenizer is initialised, and what the table holds, does not matter. -/
theorem C106_tagged_words (P : PSys F) (hT : Shipped P.tables) (hσ : ∀ s t l, (P.σ s t l).Perm l) (t : Nat) (io : Bool) (p : PWorld)
    (calls : List PCall) (sched : List Nat) (i k : Nat) (hm : Bool) (s : PyText) (hc : calls[i]? = some (.tag k hm s)) :
    (∀ a ∈ ((PPool.start P t io p calls).run sched).out i, a.1 ≠ []) ∧
    ((((PPool.start P t io p calls).run sched).out i).map Prod.fst).flatten <+: strdecode P.sys.gbk s ∧
    ∀ r, ((PPool.start P t io p calls).run sched).th i = .ret r →
      IsSegmentation ((((PPool.start P t io p calls).run sched).out i).map Prod.fst) (strdecode P.sys.gbk s) := by
  have key : ∀ l r, Co.Runs ((PCall.tag k hm s).prog P t io) l r →
      ∃ r', Lossless ⟨l.map Prod.fst, errOf r'⟩ (strdecode P.sys.gbk s) ∧ ∀ b, r = .ok b → r' = .ok () := by
    intro l r hr
    obtain ⟨r', h1, h2⟩ := runs_then_none _ _ _ hr
    obtain ⟨m, rfl, h3⟩ := mapOut_runs _ _ _ _ h1
    refine ⟨r', ?_, h2⟩
    have := C82_any_interleaving P hT hσ k hm s io m r' h3
    rw [List.map_map]
    exact this
  obtain ⟨⟨l, r, h1⟩, h2⟩ := pout_run P t io p calls sched i _ hc
  obtain ⟨r', ⟨g1, g2, -⟩, -⟩ := key _ _ h1
  rw [List.map_append] at g1 g2
  refine ⟨fun a ha => g1 _ (List.mem_append_left _ (List.mem_map_of_mem ha)), ?_, fun r hr => ?_⟩
  · refine List.IsPrefix.trans ?_ g2
    simp only [List.flatten_append]
    exact List.prefix_append _ _
  · obtain ⟨r', ⟨k1, -, k3⟩, k4⟩ := key _ _ (h2 r hr)
    have := k4 r rfl
    subst this
    exact ⟨k3 rfl, k1⟩

/-- C106: every word that a call of `cut` of a POS tokenizer yields has a tag: one that was known for this word when the calls began or that
one of the calls gives to this word; or 'x', 'm' or 'eng'; or, only with HMM and for words of Han characters, one of the 64 tags of the
HMM. -/
theorem C106_tags (P : PSys F) (t : Nat) (io : Bool) (p : PWorld) (calls : List PCall) (h : PReady P t p calls) (sched : List Nat)
    (i k : Nat) (hm : Bool) (s : PyText) (hc : calls[i]? = some (.tag k hm s)) :
    ∀ a ∈ ((PPool.start P t io p calls).run sched).out i, ∃ g, a.2 = some g ∧
      (TagKnown P.sys.gbk t p calls a.1 g ∨ g ∈ [lit ['x'], lit ['m'], lit ['e', 'n', 'g']] ∨
        (hm = true ∧ (∀ c ∈ a.1, isHan c = true) ∧ g ∈ hmmTags)) := by
  have hinv := pready_start P t io p calls h
  have hstart : KnownInv t p.w.files (fun k => ∃ hm s, PCall.tag k hm s ∈ calls) (TagKnown P.sys.gbk t p calls)
      (fun i a => ∀ c, calls[i]? = some c → YieldOk P.tables (TagKnown P.sys.gbk t p calls) c a) (PPool.start P t io p calls) := by
    refine ⟨rfl, ⟨fun x hx => Or.inr (Or.inl hx), fun k ⟨hm, s, hk⟩ => ⟨h.calls _ hk, fun x hx => Or.inl ⟨k, hm, s, hk, hx⟩⟩⟩, fun i => ?_,
      fun i a ha => by simp [PPool.start] at ha⟩
    unfold PPool.start
    simp only []
    cases hci : calls[i]? with
    | none => trivial
    | some c =>
      have hmem := List.mem_of_getElem? hci
      have := pprog_keeps (t := t) (K := TagKnown P.sys.gbk t p calls) (ks := fun k => ∃ hm s, PCall.tag k hm s ∈ calls) P h.order io c p rfl
        (h.calls c hmem) (fun k hm s hk => ⟨hm, s, hk ▸ hmem⟩) (fun d hd u g hg => Or.inr (Or.inr ⟨d, hd ▸ hmem, hg⟩))
      have hE : (fun a => ∀ c', some c = some c' → YieldOk P.tables (TagKnown P.sys.gbk t p calls) c' a) =
          YieldOk P.tables (TagKnown P.sys.gbk t p calls) c := by
        funext a
        exact propext ⟨fun h => h c rfl, fun h c' hc' => by cases hc'; exact h⟩
      rw [hE]
      exact this
  intro a ha
  obtain ⟨g, h1, h2⟩ := (knownInv_run _ sched hinv hstart).done i a ha _ hc
  refine ⟨g, h1, ?_⟩
  rcases h2 with h2 | h2 | ⟨h2, h3, y, h4, rfl⟩
  · exact Or.inl h2
  · exact Or.inr (Or.inl h2)
  · refine Or.inr (Or.inr ⟨h2, h3, ?_⟩)
    have := List.all_eq_true.mp states_tags y (shipped_isState _ h.tables y h4)
    simpa using this

/-- C106: what a call of `cut` of the tokenizer has yielded at any moment is a segmentation of a beginning of the text, and of the whole
text when the call has ended. -/
theorem C106_cut (P : PSys F) (t : Nat) (io : Bool) (p : PWorld) (calls : List PCall) (sched : List Nat) (i : Nat) (hm : Bool)
    (s : PyText) (hc : calls[i]? = some (.tok (.cut false hm s))) :
    (∀ a ∈ ((PPool.start P t io p calls).run sched).out i, a.1 ≠ [] ∧ a.2 = none) ∧
    ((((PPool.start P t io p calls).run sched).out i).map Prod.fst).flatten <+: strdecode P.sys.gbk s ∧
    ∀ r, ((PPool.start P t io p calls).run sched).th i = .ret r →
      IsSegmentation ((((PPool.start P t io p calls).run sched).out i).map Prod.fst) (strdecode P.sys.gbk s) := by
  have key : ∀ l r, Co.Runs ((PCall.tok (.cut false hm s)).prog P t io) l r →
      ∃ m r', l = m.map (fun w => (w, none)) ∧ Lossless ⟨m, errOf r'⟩ (strdecode P.sys.gbk s) ∧ ∀ b, r = .ok b → r' = .ok () := by
    intro l r hr
    obtain ⟨m, rfl, h1⟩ := mapOut_runs _ _ _ _ hr
    obtain ⟨r', h2, h3⟩ := runs_then_none _ _ _ (onWorld_runs _ _ _ h1)
    exact ⟨m, r', rfl, C56_cut_any_interleaving P.sys t hm s io m r' h2, h3⟩
  have hfst : ∀ m : List Str, ((m.map (fun w => (w, (none : Option Str)))).map Prod.fst) = m := by
    intro m; rw [List.map_map]; simp [Function.comp_def]
  obtain ⟨⟨l, r, h1⟩, h2⟩ := pout_run P t io p calls sched i _ hc
  obtain ⟨m, r', hl, ⟨g1, g2, -⟩, -⟩ := key _ _ h1
  refine ⟨fun a ha => ?_, ?_, fun r hr => ?_⟩
  · have : a ∈ m.map (fun w => (w, (none : Option Str))) := hl ▸ List.mem_append_left _ ha
    obtain ⟨w, hw, rfl⟩ := List.mem_map.mp this
    exact ⟨g1 w hw, rfl⟩
  · have hm' := hfst m
    rw [← hl, List.map_append] at hm'
    refine List.IsPrefix.trans ?_ g2
    rw [← hm']
    simp only [List.flatten_append]
    exact List.prefix_append _ _
  · obtain ⟨m, r', hl, ⟨k1, -, k3⟩, k4⟩ := key _ _ (h2 r hr)
    have := k4 r rfl
    subst this
    rw [hl, hfst]
    exact ⟨k3 rfl, k1⟩

/-! ## The hypotheses can be met -/

/-- Tables of the shape shipped. -/
def busyPSys : PSys ℚ := ⟨floatSys (fun _ => 0), constTables 0, fun _ _ l => l⟩

def busyPWorld : PWorld := ⟨readyWorld boostFreq 100, fun _ => ⟨0, [(lit ['北', '京'], lit ['n', 's'])]⟩⟩

/-- 北京人 is added with a tag while a user dictionary is read and a text is cut and tagged. -/
def busyPCalls : List PCall :=
  [.tok (.addWord (.str (lit ['北', '京', '人'])) .none (some (lit ['n']))),
   .tok (.loadUserdict (.lines [.str (lit ['京', '人', ' ', '7', ' ', 'n', 's'])])),
   .tok (.cut false false (.str (lit ['北', '京', '人']))),
   .tag 0 true (.str (lit ['北', '京', '人', '京', '人'])),
   .tag 1 false (.str (lit ['北', '京', '人']))]

example : PReady busyPSys 0 busyPWorld busyPCalls := by
  refine ⟨dbl_signOk _, constTables_shipped _, fun _ _ _ => List.Perm.refl _, rfl, nonNeg_of_all _ (by decide), by decide, ?_⟩
  intro c hc
  simp only [busyPCalls, List.mem_cons, List.not_mem_nil, or_false] at hc
  rcases hc with rfl | rfl | rfl | rfl | rfl
  · trivial
  · refine ⟨_, rfl, ?_⟩
    intro ln hln
    simp only [List.mem_singleton] at hln
    subst hln
    exact ⟨lit ['京', '人', ' ', '7', ' ', 'n', 's'], (userLine_iff _ _).mp (by decide), by decide⟩
  · trivial
  · rfl
  · rfl

/-- Two calls: 北京城 is added with the tag zz while a text is tagged. -/
def lossCalls : List PCall :=
  [.tok (.addWord (.str (lit ['北', '京', '城'])) (.int 90) (some (lit ['z', 'z']))), .tag 0 false (.str (lit ['大', '厦']))]

/-- 大厦 has been added with the tag n, and nothing has been tagged since. -/
def lossWorld : PWorld := addAll 0 [(lit ['大', '厦'], 3, lit ['n'])] samplePWorld

/-- C106: a tag can be lost.  There is an execution in which both calls return, the word that was added is in the dictionary, and from
then on it is tagged 'x'; one after the other, in either order, the calls keep the tag. -/
theorem C106_tag_can_be_lost :
    (∃ sched, let q := (PPool.start samplePSys 0 true lossWorld lossCalls).run sched
      (isRet (q.th 0), isRet (q.th 1), (q.p.w.tok 0).freq.get? (lit ['北', '京', '城']),
        (cutPW samplePSys q.p 0 false (.str (lit ['北', '京', '城'])) true).2) =
      (true, true, some 90, Gen.ok [(lit ['北', '京', '城'], lit ['x'])])) ∧
    (∀ sched ∈ [List.replicate 40 0 ++ List.replicate 40 1, List.replicate 40 1 ++ List.replicate 40 0],
      let q := (PPool.start samplePSys 0 true lossWorld lossCalls).run sched
      (isRet (q.th 0), isRet (q.th 1), (cutPW samplePSys q.p 0 false (.str (lit ['北', '京', '城'])) true).2) =
      (true, true, Gen.ok [(lit ['北', '京', '城'], lit ['z', 'z'])])) :=
  ⟨⟨[1, 1] ++ List.replicate 40 0 ++ List.replicate 40 1, by decide +kernel⟩, by decide +kernel⟩

end Jieba.Props
