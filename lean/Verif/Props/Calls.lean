import Verif.Proofs.CallsSolo
import Verif.Props.AddRace
import Verif.Props.SuggestDouble
/-!
# C99: whole calls under way at the same time

`Pool.start S t io w calls` is a process in state `w` with the calls of the list about to start, all on tokenizer `t`; in
`.run sched` the calls named in `sched` have moved, one access to the shared state (or one yielded value) at a time.
-/

namespace Jieba.Props
open Jieba Jieba.Spec Jieba.Lazy

variable {F : Type} [LinearOrder F]

/-- The process can start: the tokenizer is initialised, its table has no negative frequency and a positive total, and the
arguments of the calls are as they should be. -/
structure Ready (S : Sys F) (t : Nat) (w : World) (calls : List Call) : Prop where
  sign : SignOk S.A
  init : (w.tok t).initialized = true
  nonneg : NonNeg (w.tok t).freq
  total : 0 < (w.tok t).total
  calls : ∀ c ∈ calls, CallOk w c

theorem ready_inv (S : Sys F) (t : Nat) (io : Bool) (w : World) (calls : List Call) (h : Ready S t w calls) (sched : List Nat) :
    PoolInv t (PrefixClosed (w.tok t).freq) (fun i r w' => ∀ c, calls[i]? = some c → Post S.gbk t w c r w')
      ((Pool.start S t io w calls).run sched) := by
  have hw : Healthy t w := ⟨h.init, h.nonneg, h.total⟩
  refine poolInv_run t _ _ _ sched ⟨hw, fun _ => w, fun _ => Lazy.nil, fun i => ⟨?_, Tame.refl t w, hw⟩, ?_⟩
  · unfold Pool.start
    simp only []
    cases hci : calls[i]? with
    | none => exact ⟨fun c hc => by simp at hc, fun _ hp => hp⟩
    | some c =>
      refine (prog_good S h.sign t io c w hw (h.calls c (List.mem_of_getElem? hci))).mono (fun r w' h c' hc' => ?_)
      cases hc'
      exact h
  · exact fun hp u hu q hq hqu => Or.inl (hp u hu q hq hqu)

/-- C99: no call raises. -/
theorem C99_no_exception (S : Sys F) (t : Nat) (io : Bool) (w : World) (calls : List Call) (h : Ready S t w calls)
    (sched : List Nat) (i : Nat) (e : PyErr) : ((Pool.start S t io w calls).run sched).th i ≠ .raise e := by
  obtain ⟨-, v, D, h1, -⟩ := ready_inv S t io w calls h sched
  intro he
  have := (h1 i).1
  rw [he] at this
  exact this

/-- C99: when a call has returned, its result is as it should be and the words it registers are in the table. -/
theorem C99_returned (S : Sys F) (t : Nat) (io : Bool) (w : World) (calls : List Call) (h : Ready S t w calls)
    (sched : List Nat) (i : Nat) (c : Call) (hc : calls[i]? = some c) (r : Option Int)
    (hr : ((Pool.start S t io w calls).run sched).th i = .ret r) :
    ResultOk c r ∧ Registered S.gbk w (((Pool.start S t io w calls).run sched).w.tok t).freq c := by
  obtain ⟨hw, v, D, h1, -⟩ := ready_inv S t io w calls h sched
  obtain ⟨h2, h3⟩ := h1 i
  rw [hr] at h2
  exact (h2.1 c hc).stable (h3.1 h3.2).2.1

/-- C99: at every moment the tokenizer is initialised, no frequency is negative, the total is positive, and every word that was in
the table is in it. -/
theorem C99_table (S : Sys F) (t : Nat) (io : Bool) (w : World) (calls : List Call) (h : Ready S t w calls) (sched : List Nat) :
    (((Pool.start S t io w calls).run sched).w.tok t).initialized = true ∧
    NonNeg (((Pool.start S t io w calls).run sched).w.tok t).freq ∧ 0 < (((Pool.start S t io w calls).run sched).w.tok t).total ∧
    ∀ k, (w.tok t).freq.has k = true → (((Pool.start S t io w calls).run sched).w.tok t).freq.has k = true := by
  have h1 := (ready_inv S t io w calls h sched).healthy
  refine ⟨h1.init, h1.nonneg, h1.total, ?_⟩
  have hk : ∀ sched (p : Pool), PoolInv t False (fun _ _ _ => True) p → ∀ k, Key t p.w k → Key t (p.run sched).w k := by
    intro sched
    induction sched with
    | nil => exact fun p _ k hk => hk
    | cons i sched ih =>
      intro p hp k hk
      refine ih (p.step i) (poolInv_step t _ _ p i hp) k ?_
      obtain ⟨hw, v, D, g1, -⟩ := hp
      unfold Pool.step
      split
      · exact hk
      · exact hk
      · exact hk
      · next f c hc =>
        have := (g1 i).1
        rw [hc] at this
        exact ((this p.w (g1 i).2.1 hw).1 hw).2.1 k hk
  intro k hk0
  obtain ⟨hw, v, D, g1, -⟩ := ready_inv S t io w calls h []
  exact hk sched _ ⟨hw, v, D, fun i => ⟨(g1 i).1.mono (fun _ _ _ => trivial), (g1 i).2⟩, fun hF => hF.elim⟩ k hk0

/-- C99: when all calls have returned, every prefix of a word in the table is in the table, if it was so at the beginning. -/
theorem C99_prefix_closed (S : Sys F) (t : Nat) (io : Bool) (w : World) (calls : List Call) (h : Ready S t w calls)
    (hp : PrefixClosed (w.tok t).freq) (sched : List Nat)
    (hr : ∀ i, i < calls.length → ∃ r, ((Pool.start S t io w calls).run sched).th i = .ret r) :
    PrefixClosed (((Pool.start S t io w calls).run sched).w.tok t).freq := by
  have hret : ∀ i, ∃ r, ((Pool.start S t io w calls).run sched).th i = .ret r := by
    intro i
    rcases Nat.lt_or_ge i calls.length with hlt | hge
    · exact hr i hlt
    · have hidle : ∀ sched (p : Pool), p.th i = .ret none → (p.run sched).th i = .ret none := by
        intro sched
        induction sched with
        | nil => exact fun p h => h
        | cons j sched ih =>
          intro p hpi
          refine ih (p.step j) ?_
          by_cases hj : j = i
          · subst hj; unfold Pool.step; rw [hpi]; exact hpi
          · unfold Pool.step
            split <;> simp [Ne.symm hj, hpi]
      refine ⟨none, hidle sched _ ?_⟩
      unfold Pool.start
      simp only [List.getElem?_eq_none hge]
  obtain ⟨-, v, D, h1, h2⟩ := ready_inv S t io w calls h sched
  intro u hu q hq hqu
  rcases h2 hp u hu q hq hqu with g | ⟨i, hi⟩
  · exact g
  · obtain ⟨r, hri⟩ := hret i
    have := (h1 i).1
    rw [hri] at this
    exact absurd hi (this.2 q)

/-- Every program has a run. -/
theorem exists_run {W α β : Type} (w : W) (c : Co W α β) : ∃ l r, Co.Runs c l r :=
  ⟨_, _, Co.drive_runs (fun _ w => w) c 0 w⟩

/-- A run of a program that ends with `ret none`. -/
theorem runs_then (c : Co World Str Unit) (l : List Str) (r : Except PyErr (Option Int))
    (h : Co.Runs (c.bind fun _ => .ret none) l r) : ∃ r', Co.Runs c l r' ∧ ∀ b, r = .ok b → r' = .ok () := by
  induction c generalizing l with
  | ret b => cases h; exact ⟨_, .ret b, fun _ _ => rfl⟩
  | raise e => cases h; exact ⟨_, .raise e, fun b hb => by cases hb⟩
  | yield a k ih =>
    cases h with
    | yield _ _ l _ h => obtain ⟨r', h1, h2⟩ := ih l h; exact ⟨r', .yield _ _ _ _ h1, h2⟩
  | act f k ih =>
    cases h with
    | act _ _ w _ _ h => obtain ⟨r', h1, h2⟩ := ih w l h; exact ⟨r', .act _ _ _ _ _ h1, h2⟩

/-- What a call has yielded can be completed to a run of the call; when the call has ended, it is the run. -/
theorem out_run (S : Sys F) (t : Nat) (io : Bool) (w : World) (calls : List Call) (sched : List Nat) (i : Nat) (c : Call)
    (g : Co World Str Unit) (hc : calls[i]? = some c) (hg : c.prog S t io = g.bind fun _ => .ret none) :
    (∃ l r, Co.Runs g (((Pool.start S t io w calls).run sched).out i ++ l) r) ∧
    ∀ r, ((Pool.start S t io w calls).run sched).th i = .ret r →
      Co.Runs g (((Pool.start S t io w calls).run sched).out i) (.ok ()) := by
  have hstart : (Pool.start S t io w calls).th i = g.bind fun _ => .ret none := by
    unfold Pool.start; simp only [hc, hg]
  have hrun : ∀ l r, Co.Runs (((Pool.start S t io w calls).run sched).th i) l r →
      Co.Runs (g.bind fun _ => .ret none) (((Pool.start S t io w calls).run sched).out i ++ l) r := by
    intro l r h
    obtain ⟨m, h1, h2⟩ := pool_runs _ sched i l r h
    rw [hstart] at h2
    rw [h1]
    exact h2
  constructor
  · obtain ⟨l, r, h⟩ := exists_run w (((Pool.start S t io w calls).run sched).th i)
    obtain ⟨r', h1, -⟩ := runs_then g _ r (hrun l r h)
    exact ⟨l, r', h1⟩
  · intro r hr
    have := hrun [] (.ok r) (by rw [hr]; exact .ret r)
    rw [List.append_nil] at this
    obtain ⟨r', h1, h2⟩ := runs_then g _ _ this
    rw [h2 r rfl] at h1
    exact h1

/-- C99: what a call of `cut` has yielded at any moment is a segmentation of a beginning of the text, and of the whole text when
the call has ended. -/
theorem C99_cut (S : Sys F) (t : Nat) (io : Bool) (w : World) (calls : List Call) (sched : List Nat) (i : Nat) (hm : Bool)
    (s : PyText) (hc : calls[i]? = some (.cut false hm s)) :
    (∀ a ∈ ((Pool.start S t io w calls).run sched).out i, a ≠ []) ∧
    (((Pool.start S t io w calls).run sched).out i).flatten <+: strdecode S.gbk s ∧
    (∀ r, ((Pool.start S t io w calls).run sched).th i = .ret r →
      IsSegmentation (((Pool.start S t io w calls).run sched).out i) (strdecode S.gbk s)) := by
  obtain ⟨⟨l, r, h1⟩, h2⟩ := out_run S t io w calls sched i _ (cutL S t false hm s io) hc rfl
  obtain ⟨g1, g2, -⟩ := C56_cut_any_interleaving S t hm s io _ _ h1
  refine ⟨fun a ha => g1 a (List.mem_append_left _ ha), ?_, fun r hr => ?_⟩
  · refine List.IsPrefix.trans ?_ g2
    simp only [List.flatten_append]
    exact List.prefix_append _ _
  · obtain ⟨k1, -, k3⟩ := C56_cut_any_interleaving S t hm s io _ _ (h2 r hr)
    exact ⟨k3 rfl, k1⟩

/-- C99: what a call of `cut_for_search` has yielded at any moment are non-empty parts of the text, and when the call has ended
some of them, in order, are a segmentation of the text. -/
theorem C99_search (S : Sys F) (t : Nat) (io : Bool) (w : World) (calls : List Call) (sched : List Nat) (i : Nat) (hm : Bool)
    (s : PyText) (hc : calls[i]? = some (.cutForSearch hm s)) :
    (∀ a ∈ ((Pool.start S t io w calls).run sched).out i, a ≠ [] ∧ a <:+: strdecode S.gbk s) ∧
    (∀ r, ((Pool.start S t io w calls).run sched).th i = .ret r →
      ∃ words, words.Sublist (((Pool.start S t io w calls).run sched).out i) ∧ IsSegmentation words (strdecode S.gbk s)) := by
  obtain ⟨⟨l, r, h1⟩, h2⟩ := out_run S t io w calls sched i _ (cutForSearchL S t hm s io) hc rfl
  refine ⟨fun a ha => (C56_search_any_interleaving S t hm s io _ _ h1).1 a (List.mem_append_left _ ha), fun r hr => ?_⟩
  obtain ⟨-, words, k1, k2, -, k3⟩ := C56_search_any_interleaving S t hm s io _ _ (h2 r hr)
  exact ⟨words, k1, k3 rfl, k2⟩

/-- C99: in an execution without end, a call that moves again and again returns: none waits for another, and none is kept from
its end by what the others do. -/
theorem C99_returns (S : Sys F) (t : Nat) (io : Bool) (w : World) (calls : List Call) (h : Ready S t w calls) (σ : Nat → Nat)
    (i : Nat) (hi : ∀ n, ∃ m, n ≤ m ∧ σ m = i) :
    ∃ n r, ((Pool.start S t io w calls).run ((List.range n).map σ)).th i = .ret r := by
  obtain ⟨m, -, h1⟩ := ends (fun n => (Pool.start S t io w calls).run ((List.range n).map σ)) σ
    (fun n => by simp [Pool.run, List.range_succ]) i hi 0
  rcases h1 with ⟨r, hr⟩ | ⟨e, he⟩
  · exact ⟨m, r, hr⟩
  · exact absurd he (C99_no_exception S t io w calls h _ i e)

/-- C99: the calls, when nobody interferes, are the functions of the sequential model. -/
theorem C99_alone (S : Sys F) (t : Nat) (io : Bool) (w : World) :
    (∀ word freq tag, Co.drive (fun _ w => w) (addWordL S t word freq tag io : Co World Str Unit) 0 w =
      ((addWord S w t word freq tag io).1, [], (addWord S w t word freq tag io).2)) ∧
    (∀ seg tune, Co.drive (fun _ w => w) (suggestFreqL S t seg tune io : Co World Str Int) 0 w =
      ((suggestFreq S w t seg tune io).1, [], (suggestFreq S w t seg tune io).2)) ∧
    (∀ f, Co.drive (fun _ w => w) (loadUserdictL S t f io : Co World Str Unit) 0 w =
      ((loadUserdict S w t f io).1, [], (loadUserdict S w t f io).2)) :=
  ⟨fun word freq tag => addWordL_solo S t word freq tag io w 0, fun seg tune => suggestFreqL_solo S t seg tune io w 0,
    fun f => loadUserdictL_solo S t f io w 0⟩

/-! ## The hypotheses can be met -/

/-- Exact arithmetic respects signs. -/
theorem exact_signOk {K : Type} [Field K] [LinearOrder K] [IsStrictOrderedRing K] (A : Arith K) (h : Exact A)
    (ht : ∀ x : K, 0 ≤ x → 0 ≤ A.trunc x) : SignOk A := by
  refine ⟨?_, ?_, ?_, ?_⟩
  · intro n hn; rw [h.zero, h.ofInt]; exact_mod_cast hn
  · intro x y; rw [h.zero, h.mul]; exact mul_nonneg
  · intro x y; rw [h.zero, h.div]; exact div_nonneg
  · intro x; rw [h.zero]; exact ht x

/-- IEEE double arithmetic respects signs. -/
theorem dbl_signOk (log : Nat → ℚ) : SignOk (dblArith log) := by
  refine ⟨?_, ?_, ?_, ?_⟩
  · intro n hn; exact rnd_nonneg (by exact_mod_cast hn)
  · intro x y hx hy; exact rnd_nonneg (mul_nonneg hx hy)
  · intro x y hx hy; exact rnd_nonneg (div_nonneg hx hy)
  · intro x hx
    change 0 ≤ (if 0 ≤ x then ⌊x⌋ else ⌈x⌉)
    rw [if_pos (show 0 ≤ x from hx)]
    exact Int.floor_nonneg.mpr hx

/-- 北京人 is added without a frequency while another call takes 北京 apart, a third reads a user dictionary (京人 7 ns) and two cut
a text. -/
def busyCalls : List Call :=
  [.addWord (.str (lit ['北', '京', '人'])) .none none,
   .suggestFreq (.tuple [.str (lit ['北']), .str (lit ['京'])]) true,
   .loadUserdict (.lines [.str (lit ['京', '人', ' ', '7', ' ', 'n', 's'])]),
   .cut false false (.str (lit ['北', '京', '人', '京', '人'])),
   .cutForSearch false (.str (lit ['北', '京', '人']))]

theorem busy_ready (log : Nat → ℚ) : Ready (floatSys log) 0 (readyWorld boostFreq 100) busyCalls := by
  refine ⟨dbl_signOk log, rfl, nonNeg_of_all _ (by decide), by decide, ?_⟩
  intro c hc
  simp only [busyCalls, List.mem_cons, List.not_mem_nil, or_false] at hc
  rcases hc with rfl | rfl | rfl | rfl | rfl
  · trivial
  · trivial
  · refine ⟨_, rfl, ?_⟩
    intro ln hln
    simp only [List.mem_singleton] at hln
    subst hln
    exact ⟨lit ['京', '人', ' ', '7', ' ', 'n', 's'], (userLine_iff _ _).mp (by decide), by decide⟩
  · trivial
  · trivial

/-- Two calls: 大学生 is added while 大学生!大学生 is being cut. -/
def raceCalls : List Call :=
  [.addWord (.str (lit ['大', '学', '生'])) (.int 90000) none, .cut false false (.str (lit ['大', '学', '生', '!', '大', '学', '生']))]

def isRet {W α β : Type} : Co W α β → Bool
  | .ret _ => true
  | _ => false

/-- C99: calls are not atomic.  A word that is added while a text is being cut can be used for the second half of the text and not
for the first, which is what neither order of the two calls gives. -/
theorem C99_not_atomic :
    (∃ sched, let p := (Pool.start sampleSys 0 true loadedWorld raceCalls).run sched
      (isRet (p.th 0), isRet (p.th 1), p.out 1) =
        (true, true, [lit ['大', '学'], lit ['生'], lit ['!'], lit ['大', '学', '生']])) ∧
    (cutW sampleSys loadedWorld 0 false false (.str (lit ['大', '学', '生', '!', '大', '学', '生'])) true).2.out =
      [lit ['大', '学'], lit ['生'], lit ['!'], lit ['大', '学'], lit ['生']] ∧
    (cutW sampleSys (addWord sampleSys loadedWorld 0 (.str (lit ['大', '学', '生'])) (.int 90000) none true).1 0 false false
      (.str (lit ['大', '学', '生', '!', '大', '学', '生'])) true).2.out =
      [lit ['大', '学', '生'], lit ['!'], lit ['大', '学', '生']] :=
  ⟨⟨List.replicate 15 1 ++ List.replicate 20 0 ++ List.replicate 80 1, by decide +kernel⟩, by decide +kernel, by decide +kernel⟩

end Jieba.Props
