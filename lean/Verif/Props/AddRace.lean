import Verif.Proofs.AddRace
import Verif.Props.Lazy
import Verif.Props.ThreadRaces
import Verif.Props.Suggest
/-!
# C72, C73: threads calling `add_word` at the same time

`AEv.adds P`: an event is the start of `add_word` with arguments satisfying `P`, or a step of a thread inside `add_word`.
-/

namespace Jieba.Props
open Jieba Jieba.Spec Jieba.Threads Jieba.Lazy

/-! ## C72 -/

/-- C72: however calls of `add_word` interleave, once they have all returned every prefix of a registered word is registered. -/
theorem C72_prefix_closed {F : Type _} (S : Sys F) (t : Nat) (a a' : ASt) (es : List AEv) (he : ∀ e ∈ es, e.adds (fun _ => True))
    (h : runA S a es = some a') (hp : PrefixClosed (a.s.w.tok t).freq) (h0 : ∀ i, ∃ r, a.ad i = .idle r)
    (h1 : ∀ i, ∃ r, a'.ad i = .idle r) : PrefixClosed (a'.s.w.tok t).freq := by
  have hI : PInv t a' := by
    refine runA_inv S _ (PInv t) (pinv_step S _ t) es a a' he h ⟨fun u hu p hne hpre => Or.inl (hp u hu p hne hpre), ?_⟩
    intro i x k hs
    obtain ⟨r, hr⟩ := h0 i
    rw [hr] at hs; simp [AddPC.stored] at hs
  intro u hu p hne hpre
  rcases hI.1 u hu p hne hpre with g | ⟨i, x, k, hs, -⟩
  · exact g
  · obtain ⟨r, hr⟩ := h1 i
    rw [hr] at hs; simp [AddPC.stored] at hs

/-- C72: `cut` beside threads that add words with non-negative frequencies raises nothing and yields a segmentation of the text,
whatever the interleaving (also while words are half added). -/
theorem C72_cut_beside_adders {F : Type} [LinearOrder F] (S : Sys F) (t : Nat) (hmm : Bool) (s : PyText) (io : Bool) (a : ASt)
    (h0 : ∀ i, ∃ r, a.ad i = .idle r) (hi : (a.s.w.tok t).initialized = true) (hn : NonNeg (a.s.w.tok t).freq)
    (ht : 0 < (a.s.w.tok t).total) (l : List Str) (r : Except PyErr Unit)
    (h : Beside S (AEv.adds (fun x => x.t = t → 0 ≤ x.f)) a (cutL S t false hmm s io) l r) :
    r = .ok () ∧ IsSegmentation l (strdecode S.gbk s) := by
  have hN : NInv t a.ad := by
    constructor
    · intro i x hx
      obtain ⟨q, hq⟩ := h0 i
      rw [hq] at hx; simp [AddPC.arg] at hx
    · intro i x n hx
      obtain ⟨q, hq⟩ := h0 i
      rw [hq] at hx; simp at hx
  exact C65_segmentation S t hmm s io a.s.w hi hn ht l r (Beside.under h hN ⟨hi, hn, ht⟩ (cutL_reads S t false hmm s io))

/-- C72: the frequency given to `add_word` is stored and stays, if no other call concerns a word that begins with this one. -/
theorem C72_frequency_kept {F : Type _} (S : Sys F) (i : Nat) (x : AddArg) (a a' : ASt) (es : List AEv)
    (hi : (a.s.w.tok x.t).initialized = true)
    (h0 : ∀ j, ∃ r, a.ad j = .idle r)
    (he : ∀ e ∈ es, e.adds (fun y => y.t = x.t → ¬ x.word <+: y.word))
    (h : runA S a (.add i x :: es) = some a') (h1 : ∃ r, a'.ad i = .idle r) :
    (a'.s.w.tok x.t).freq.get? x.word = some x.f := by
  simp only [runA] at h
  split at h
  · exact absurd h (by simp)
  · next b hb =>
    have hbb : b = a.goto i (.chk x) := by
      simp only [AEv.run] at hb
      split at hb
      · exact (Option.some.inj hb).symm
      · exact absurd hb (by simp)
    have hK : KInv (fun y => y.t = x.t → ¬ x.word <+: y.word) i x b := by
      subst hbb
      refine ⟨hi, ?_, Or.inl (agoto_self _ _ _), ?_⟩
      · intro j y hy
        by_cases hj : j = i
        · subst hj
          rw [agoto_self] at hy
          exact Or.inl ⟨rfl, (Option.some.inj hy).symm⟩
        · rw [agoto_ne _ _ _ _ hj] at hy
          obtain ⟨q, hq⟩ := h0 j
          rw [hq] at hy; simp [AddPC.arg] at hy
      · intro k hk; rw [agoto_self] at hk; simp at hk
    obtain ⟨-, -, k, -⟩ := runA_inv S _ _ (kinv_step S _ i x (fun y hy => hy)) es b a' he h hK
    obtain ⟨r, hr⟩ := h1
    rcases k with k | k | k
    · rw [hr] at k; simp at k
    · rw [hr] at k; simp at k
    · exact k

/-- C72: a call that is not interrupted does what the sequential model says. -/
theorem C72_alone {F : Type _} [LinearOrder F] (S : Sys F) (a : ASt) (i : Nat) (x : AddArg) (io : Bool)
    (hi : (a.s.w.tok x.t).initialized = true) (r q : Option (Option PyErr)) (ha : a.ad i = .idle r) (hs : a.s.th i = .idle q) :
    ∃ n a', runA S a (.add i x :: List.replicate n (.step i)) = some a' ∧
      addWord S a.s.w x.t (.str x.word) (.int x.f) x.tag io = (a'.s.w, .ok ()) ∧ a'.ad i = .idle (some none) ∧
      (∀ j, j ≠ i → a'.ad j = a.ad j) ∧ a'.s.th = a.s.th := by
  obtain ⟨n, hn⟩ := addWord_alone S a i x hi r q ha hs
  refine ⟨n, _, hn, ?_, ?_, ?_, rfl⟩
  · unfold addWord
    rw [checkInit_of_init S _ _ io hi]
    rfl
  · exact agoto_self _ _ _
  · intro j hj; exact agoto_ne _ _ _ _ hj

/-- C72: the same for a tokenizer that is not initialised: `add_word` initialises it, and raises what the initialisation raises. -/
theorem C72_alone_first_use {F : Type _} [LinearOrder F] (S : Sys F) (a : ASt) (i : Nat) (x : AddArg) (io : Bool)
    (hi : (a.s.w.tok x.t).initialized = false) (r q : Option (Option PyErr)) (ha : a.ad i = .idle r) (hs : a.s.th i = .idle q)
    (hl : a.s.lock x.t = none) (hw : ∀ L, a.s.wl L = none) (tmp : Path) (hq : a.s.w.files tmp = none)
    (hqc : ∀ d, tmp ≠ cachePath S (a.s.w.tok x.t) d) :
    ∃ (chs : List Choice) (n : Nat) (a' : ASt),
      runA S a (.add i x :: .step i :: (chs.map (fun ch => .ev (.step i ch)) ++ List.replicate n (.step i))) = some a' ∧
      a'.s.w = (addWord S a.s.w x.t (.str x.word) (.int x.f) x.tag io).1 ∧
      a'.ad i = .idle (some (match (addWord S a.s.w x.t (.str x.word) (.int x.f) x.tag io).2 with | .ok _ => none | .error e => some e)) ∧
      (∀ j, j ≠ i → a'.ad j = a.ad j ∧ a'.s.th j = a.s.th j) ∧ a'.s.lock = a.s.lock ∧ a'.s.wl = a.s.wl := by
  obtain ⟨chs, s', h1, h2, h3, h4, h5, h6⟩ := C62_uninterrupted_initialize S a.s i x.t none io tmp q hs hl hw hq hqc
  have hstart : runEvs S (a.s.goto i (.readD x.t)) (chs.map (fun ch => .step i ch)) = some s' := by
    simp only [runEvs, Ev.run, hs] at h1
    exact h1
  have hrun : ∀ es, runA S a (.add i x :: .step i :: (chs.map (fun ch => .ev (.step i ch)) ++ es)) =
      runA S { s := s', ad := fun j => if j = i then .wait x else a.ad j } es := by
    intro es
    simp only [runA, AEv.run, ha, hs, agoto_self, agoto_s, hi, Bool.false_eq_true, if_false]
    rw [runA_append, runA_evs]
    simp only [agoto_s]
    rw [hstart]
    simp only [Option.map_some, Option.bind_some]
    congr 1
    simp only [ASt.goto, ASt.mk.injEq, true_and]
    funext j
    split <;> simp_all
  have hcheck : checkInit S a.s.w x.t io = initTok S a.s.w x.t none io := by
    unfold checkInit; rw [hi]; rfl
  cases hr : initTok S a.s.w x.t none io with
  | mk w1 res =>
    rw [hr] at h2 h3
    simp only [] at h2 h3
    cases res with
    | error e =>
      refine ⟨chs, 1, { s := s', ad := fun j => if j = i then .idle (some (some e)) else a.ad j }, (hrun _).trans ?_, ?_⟩
      · simp only [List.replicate_succ, List.replicate_zero, runA, AEv.run, if_pos, h3]
        congr 1
        simp only [ASt.goto, ASt.mk.injEq, true_and]
        funext j
        split <;> simp_all
      · have hadd : addWord S a.s.w x.t (.str x.word) (.int x.f) x.tag io = (w1, .error e) := by
          unfold addWord; rw [hcheck, hr]
        rw [hadd]
        exact ⟨h2, by simp, fun j hj => ⟨by simp [hj], h4 j hj⟩, h5, h6⟩
    | ok u =>
      obtain ⟨n, hn⟩ := addWord_rest S { s := s', ad := fun j => if j = i then .wait x else a.ad j } i x
      refine ⟨chs, n + 1, _, (hrun _).trans ((?_ : _ = _).trans hn), ?_⟩
      · rw [List.replicate_succ]
        simp only [runA, AEv.run, if_pos, h3]
        congr 1
      · have hadd : addWord S a.s.w x.t (.str x.word) (.int x.f) x.tag io = (addFreq w1 x.t x.word x.f x.tag, .ok ()) := by
          unfold addWord; rw [hcheck, hr]; rfl
        rw [hadd]
        refine ⟨by simp only [ASt.at, agoto_s, h2], agoto_self _ _ _, fun j hj => ⟨?_, h4 j hj⟩, h5, h6⟩
        unfold ASt.at
        rw [agoto_ne _ _ _ _ hj]
        simp [hj]

example : (threadWorld.tok 0).initialized = false ∧ (ASt.init threadWorld).ad 2 = .idle none ∧ (ASt.init threadWorld).s.th 2 = .idle none ∧
    threadWorld.files (lit ['q']) = none ∧ ∀ d, lit ['q'] ≠ cachePath sampleSys (threadWorld.tok 0) d := by
  refine ⟨rfl, rfl, rfl, rfl, fun a => ?_⟩
  cases a <;> simp [cachePath, threadWorld, Tok.new, sampleSys, pathJoin, lit, truthyStr]

/-- Tokenizer 0 is initialised; its only word is 大学 (北 is the prefix of a deleted word). -/
def addWorld : World := readyWorld [(lit ['北'], 0), (lit ['大'], 0), (lit ['大', '学'], 32)] 32

/-- Threads 0 and 1 add 北京 and 北京大学. -/
def addShort : AddArg := ⟨0, lit ['北', '京'], 5, none⟩
def addLong : AddArg := ⟨0, lit ['北', '京', '大', '学'], 7, none⟩

/-- The hypotheses of C72 are met by this process; 大学 and 北京 are independent of each other. -/
example : (∀ i, ∃ r, (ASt.init addWorld).ad i = .idle r) ∧ (addWorld.tok 0).initialized = true ∧ NonNeg (addWorld.tok 0).freq ∧
    0 < (addWorld.tok 0).total ∧ ¬ addShort.word <+: lit ['大', '学'] :=
  ⟨fun _ => ⟨_, rfl⟩, rfl, nonNeg_of_all _ (by decide), by decide, by decide⟩

/-- … and by an interleaved execution of both calls to the end. -/
example : ((runA sampleSys (ASt.init addWorld)
    ([.add 0 addShort, .add 1 addLong] ++ stepsOf 0 4 ++ stepsOf 1 10 ++ stepsOf 0 5 ++ stepsOf 1 2)).map (fun a =>
      ((List.range 3).map a.ad, (a.s.w.tok 0).freq))) =
    some ([.idle (some none), .idle (some none), .idle none],
      [(lit ['北'], 0), (lit ['大'], 0), (lit ['大', '学'], 32), (lit ['北', '京'], 5), (lit ['北', '京', '大', '学'], 7),
       (lit ['北', '京', '大'], 0)]) := by
  decide +kernel

/-- C72, negative part: if another thread is adding a longer word at the same time, the word can be lost: both calls have returned
normally, and 北京 has frequency 0. -/
theorem C72_word_can_be_lost : ∃ (es : List AEv) (a : ASt), (∀ e ∈ es, e.adds (fun x => x = addShort ∨ x = addLong)) ∧
    runA sampleSys (ASt.init addWorld) es = some a ∧ a.ad 0 = .idle (some none) ∧ a.ad 1 = .idle (some none) ∧
    (a.s.w.tok 0).freq.get? addShort.word = some 0 := by
  obtain ⟨a, h1, h2⟩ := Option.map_eq_some_iff.mp (show (runA sampleSys (ASt.init addWorld)
      ([.add 0 addShort, .add 1 addLong] ++ stepsOf 1 7 ++ stepsOf 0 9 ++ stepsOf 1 6)).map (fun a =>
        decide (a.ad 0 = .idle (some none)) && decide (a.ad 1 = .idle (some none)) &&
        decide ((a.s.w.tok 0).freq.get? addShort.word = some 0)) = some true by decide +kernel)
  simp only [Bool.and_eq_true, decide_eq_true_eq] at h2
  refine ⟨_, a, ?_, h1, h2.1.1, h2.1.2, h2.2⟩
  intro e he
  simp only [List.cons_append, List.nil_append, List.mem_cons, List.mem_append] at he
  rcases he with rfl | rfl | (he | he) | he
  · exact Or.inl rfl
  · exact Or.inr rfl
  all_goals
    rw [List.eq_of_mem_replicate he]
    exact trivial

/-- C72, negative part: `self.total += freq` is not atomic; after two calls that have returned normally, `total` can be too small by
the frequency of one of them (C22 then fails: it is less than the sum of the frequencies). -/
theorem C72_total_can_be_lost : ∃ (es : List AEv) (a : ASt), (∀ e ∈ es, e.adds (fun x => x = addShort ∨ x = addLong)) ∧
    runA sampleSys (ASt.init addWorld) es = some a ∧ a.ad 0 = .idle (some none) ∧ a.ad 1 = .idle (some none) ∧
    (a.s.w.tok 0).total = 32 + addShort.f ∧ (a.s.w.tok 0).total < sumFreq (a.s.w.tok 0).freq := by
  obtain ⟨a, h1, h2⟩ := Option.map_eq_some_iff.mp (show (runA sampleSys (ASt.init addWorld)
      ([.add 0 addShort, .add 1 addLong] ++ stepsOf 0 3 ++ stepsOf 1 12 ++ stepsOf 0 6)).map (fun a =>
        decide (a.ad 0 = .idle (some none)) && decide (a.ad 1 = .idle (some none)) &&
        decide ((a.s.w.tok 0).total = 32 + addShort.f) && decide ((a.s.w.tok 0).total < sumFreq (a.s.w.tok 0).freq)) = some true by
    decide +kernel)
  simp only [Bool.and_eq_true, decide_eq_true_eq] at h2
  refine ⟨_, a, ?_, h1, h2.1.1.1, h2.1.1.2, h2.1.2, h2.2⟩
  intro e he
  simp only [List.cons_append, List.nil_append, List.mem_cons, List.mem_append] at he
  rcases he with rfl | rfl | (he | he) | he
  · exact Or.inl rfl
  · exact Or.inr rfl
  all_goals
    rw [List.eq_of_mem_replicate he]
    exact trivial

/-! ## C73 -/

/-- Is the event a call, a step of a thread or the passing of time? -/
def ainternal : AEv → Bool
  | .ev e => internal e
  | _ => true

/-- C73: a word added by `add_word` while another thread runs `initialize('/e')` on the same tokenizer can get into the cache of `/e`:
another tokenizer (in this or a later process) that uses `/e` then has the word, although nobody added it there and `/e` is
unchanged. -/
theorem C73_user_word_in_cache : ∃ (es : List AEv) (a : ASt), runA sampleSys (ASt.init threadWorld) es = some a ∧
    (∀ e ∈ es, ainternal e = true) ∧ (a.s.w.files (lit ['/', 'e'])).map File.data = some dataE ∧
    (∀ i x, AEv.add i x ∈ es → x.t = 0) ∧ a.s.th 0 = .idle (some none) ∧
    (a.s.w.tok 2).dictionary = some (lit ['/', 'e']) ∧ (a.s.w.tok 2).initialized = true ∧
    wordsE.get? addShort.word = none ∧ (a.s.w.tok 2).freq.get? addShort.word = some addShort.f := by
  obtain ⟨a, h1, h2⟩ := Option.map_eq_some_iff.mp (show (runA sampleSys (ASt.init threadWorld)
      (([Ev.start 0 (.check 0)] ++ steps 0 14 ++ named 0 2 ++ steps 0 6).map .ev ++ [.add 1 addShort] ++ stepsOf 1 1 ++
        ([Ev.start 0 (.init 0 (some (lit ['/', 'e'])))] ++ steps 0 15).map .ev ++ stepsOf 1 1 ++
        (named 0 2 ++ steps 0 6 ++ [Ev.tick, .start 0 (.check 2)] ++ steps 0 14).map .ev)).map (fun a =>
      decide ((a.s.w.files (lit ['/', 'e'])).map File.data = some dataE) && decide (a.s.th 0 = .idle (some none)) &&
      decide ((a.s.w.tok 2).dictionary = some (lit ['/', 'e'])) && (a.s.w.tok 2).initialized &&
      decide ((a.s.w.tok 2).freq.get? addShort.word = some addShort.f)) = some true by decide +kernel)
  simp only [Bool.and_eq_true, decide_eq_true_eq] at h2
  refine ⟨_, a, h1, by decide, h2.1.1.1.1, ?_, h2.1.1.1.2, h2.1.1.2, h2.1.2, by decide, h2.2⟩
  intro i x hx
  simp only [List.mem_append, List.mem_map, List.mem_singleton, stepsOf, List.mem_replicate] at hx
  rcases hx with ((((⟨_, _, h⟩ | h) | ⟨_, h⟩) | ⟨_, _, h⟩) | ⟨_, h⟩) | ⟨_, _, h⟩
  · simp at h
  · simp only [AEv.add.injEq] at h; rw [h.2]; rfl
  all_goals simp at h

end Jieba.Props
