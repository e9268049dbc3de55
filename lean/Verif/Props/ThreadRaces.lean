import Verif.Props.Threads
import Verif.Proofs.ThreadsSolo
/-!
# C34, C38, C62, C63: races that do happen
-/

namespace Jieba.Props
open Jieba Jieba.Spec Jieba.Threads

/-- Two threads initialise tokenizers 0 and 1, interleaved; the second one waits for the first and then loads the cache. -/
example : ((runEvs sampleSys (St.init threadWorld)
    ([.tick, .start 0 (.check 0)] ++ steps 0 10 ++ [.start 1 (.init 1 none)] ++ steps 1 3 ++ steps 0 4 ++ named 0 2 ++ steps 0 6 ++
      steps 1 12)).map (fun s =>
    ([s.th 0, s.th 1], [(s.w.tok 0).initialized, (s.w.tok 1).initialized, (s.w.tok 1).freq == (s.w.tok 0).freq],
      [s.built 0, s.built 1]))) =
    some ([.idle (some none), .idle (some none)], [true, true, true], [1, 1]) := by decide +kernel

/-- The words of `/d` and of `/e`, as `gen_pfdict` reads them. -/
def wordsD : Freq := [([21271, 20140], 3), ([21271], 0)]
def wordsE : Freq := [([22823, 23398], 5), ([22823], 0)]

example : genPfdict dataD = .ok (wordsD, 3) ∧ genPfdict dataE = .ok (wordsE, 5) := ⟨rfl, rfl⟩

/-- Is the event a call, a step of a thread or the passing of time (and not somebody else writing files)? -/
def internal : Ev → Bool
  | .start _ _ => true
  | .step _ _ => true
  | .tick => true
  | _ => false

theorem exec (es : List Ev) (p : St → Bool) (h : (runEvs sampleSys (St.init threadWorld) es).map p = some true) :
    ∃ s, runEvs sampleSys (St.init threadWorld) es = some s ∧ p s = true := Option.map_eq_some_iff.mp h

/-- C38, negative part: `initialize()` in one thread and `initialize('/e')` in another one on the same tokenizer can leave the words
of `/e` in the cache of `/d`.  A third call, on another tokenizer, then loads them as the words of `/d`. -/
theorem C38_racing_initialize_poisons_cache : ∃ (es : List Ev) (s : St), runEvs sampleSys (St.init threadWorld) es = some s ∧
    (∀ e ∈ es, internal e = true) ∧ (s.w.files (lit ['/', 'd'])).map File.data = some dataD ∧
    s.th 1 = .idle (some none) ∧ (s.w.tok 1).dictionary = some (lit ['/', 'd']) ∧ (s.w.tok 1).initialized = true ∧
    (s.w.tok 1).freq = wordsE := by
  obtain ⟨s, h1, h2⟩ := exec
    ([.tick, .start 0 (.init 0 none)] ++ steps 0 2 ++ [.start 1 (.init 0 (some (lit ['/', 'e'])))] ++ steps 1 3 ++ steps 0 11 ++
      named 0 2 ++ steps 0 6 ++ steps 1 4 ++ [.start 1 (.check 1)] ++ steps 1 14)
    (fun s => decide ((s.w.files (lit ['/', 'd'])).map File.data = some dataD) && decide (s.th 1 = .idle (some none)) &&
      decide ((s.w.tok 1).dictionary = some (lit ['/', 'd'])) && (s.w.tok 1).initialized && decide ((s.w.tok 1).freq = wordsE))
    (by decide +kernel)
  simp only [Bool.and_eq_true, decide_eq_true_eq] at h2
  exact ⟨_, s, h1, by decide, h2.1.1.1.1, h2.1.1.1.2, h2.1.1.2, h2.1.2, h2.2⟩

/-- C62, negative part: `initialize('/e')` can return normally without having read `/e`: another thread that was finishing
`initialize()` marks the tokenizer as initialised after `initialize('/e')` has cleared the mark.  The tokenizer then claims to use
`/e`, is initialised, and has the words of `/d`. -/
theorem C62_initialize_can_be_lost : ∃ (es : List Ev) (s : St), runEvs sampleSys (St.init threadWorld) es = some s ∧
    (∀ e ∈ es, internal e = true) ∧ s.th 0 = .idle (some none) ∧ s.th 1 = .idle (some none) ∧
    (s.w.tok 0).dictionary = some (lit ['/', 'e']) ∧ (s.w.tok 0).initialized = true ∧ (s.w.tok 0).freq = wordsD := by
  obtain ⟨s, h1, h2⟩ := exec
    ([.start 0 (.check 0)] ++ steps 0 14 ++ named 0 2 ++ steps 0 4 ++ [.start 1 (.init 0 (some (lit ['/', 'e'])))] ++ steps 1 3 ++
      steps 0 2 ++ steps 1 4)
    (fun s => decide (s.th 0 = .idle (some none)) && decide (s.th 1 = .idle (some none)) &&
      decide ((s.w.tok 0).dictionary = some (lit ['/', 'e'])) && (s.w.tok 0).initialized && decide ((s.w.tok 0).freq = wordsD))
    (by decide +kernel)
  simp only [Bool.and_eq_true, decide_eq_true_eq] at h2
  exact ⟨_, s, h1, by decide, h2.1.1.1.1, h2.1.1.1.2, h2.1.1.2, h2.1.2, h2.2⟩

/-- C62, positive part: `initialize(d)` not interrupted by other threads (which may be inside calls on other tokenizers, as long as
they hold no lock of `DICT_WRITING`) does what the sequential model says (`initTok`, to which C32, C34 and C35 apply): same result
or exception, same tokenizers, same files.  `io`: writing the cache succeeds; `q` is any unused name for the temporary file. -/
theorem C62_uninterrupted_initialize {F : Type _} [LinearOrder F] (S : Sys F) (s : St) (i t : Nat) (d : Option Path) (io : Bool)
    (q : Path) (r : Option (Option PyErr)) (hidle : s.th i = .idle r) (hl : s.lock t = none) (hw : ∀ L, s.wl L = none)
    (hq : s.w.files q = none) (hqc : ∀ a, q ≠ cachePath S (s.w.tok t) a) :
    ∃ (chs : List Choice) (s' : St),
      runEvs S s (.start i (.init t d) :: chs.map (fun ch => .step i ch)) = some s' ∧
      s'.w = (initTok S s.w t d io).1 ∧
      s'.th i = .idle (some (match (initTok S s.w t d io).2 with | .ok _ => none | .error e => some e)) ∧
      (∀ j, j ≠ i → s'.th j = s.th j) ∧ s'.lock = s.lock ∧ s'.wl = s.wl := by
  have h0 : Gets S i t (s.goto i ((Call.init t d).start S)) s.w ((Call.init t d).start S) none false :=
    ⟨_, .refl, by simp, rfl, by simpa using hw, by simp, fun _ _ => rfl⟩
  obtain ⟨s', h1, h2, h3, h4, h5, h6⟩ := h0.ofInit hl io hq hqc
  obtain ⟨chs, h7⟩ := h1.evs
  refine ⟨chs, s', ?_, h3, h2, ?_, ?_, ?_⟩
  · simp only [runEvs, Ev.run, hidle]
    exact h7
  · intro j hj; rw [h6 j hj, goto_th_ne _ _ _ _ hj]
  · funext u; simpa using h5 u
  · funext u; rw [hw u]; simpa using h4 u

example : (St.init threadWorld).th 3 = .idle none ∧ (St.init threadWorld).lock 0 = none ∧ threadWorld.files (lit ['q']) = none ∧
    ∀ a, lit ['q'] ≠ cachePath sampleSys (threadWorld.tok 0) a := by
  refine ⟨rfl, rfl, rfl, fun a => ?_⟩
  cases a <;> simp [cachePath, threadWorld, Tok.new, sampleSys, pathJoin, lit, truthyStr]

/-- C34, negative part: a dictionary edited after it was read and before the cache is written gets a cache that is newer than the edit
and holds the old contents; the next initialisation uses it. -/
theorem C34_edit_while_building_is_lost : ∃ (es : List Ev) (s : St), runEvs sampleSys (St.init threadWorld) es = some s ∧
    (s.w.files (lit ['/', 'd'])).map File.data = some dataE ∧
    s.th 1 = .idle (some none) ∧ (s.w.tok 1).dictionary = some (lit ['/', 'd']) ∧ (s.w.tok 1).initialized = true ∧
    (s.w.tok 1).freq = wordsD := by
  obtain ⟨s, h1, h2⟩ := exec
    ([.start 0 (.check 0)] ++ steps 0 12 ++ [.tick, .write (lit ['/', 'd']) dataE, .tick] ++ steps 0 2 ++ named 0 2 ++ steps 0 6 ++
      [.start 1 (.check 1)] ++ steps 1 14)
    (fun s => decide ((s.w.files (lit ['/', 'd'])).map File.data = some dataE) && decide (s.th 1 = .idle (some none)) &&
      decide ((s.w.tok 1).dictionary = some (lit ['/', 'd'])) && (s.w.tok 1).initialized && decide ((s.w.tok 1).freq = wordsD))
    (by decide +kernel)
  simp only [Bool.and_eq_true, decide_eq_true_eq] at h2
  exact ⟨_, s, h1, h2.1.1.1.1, h2.1.1.1.2, h2.1.1.2, h2.1.2, h2.2⟩

/-- The thread is inside `with wlock` (lines 145-156), building the dictionary of tokenizer `t`. -/
def builds (pc : PC) (t : Nat) : Bool := match pc with
  | .cs u (.bld _ _) => u == t
  | _ => false

/-- C63, negative part: `DICT_WRITING` does not keep two tokenizers with the same dictionary from building it at the same time:
each of two threads can find the table empty and install its own lock. -/
theorem C63_same_dictionary_built_twice_at_once : ∃ (es : List Ev) (s : St), runEvs sampleSys (St.init threadWorld) es = some s ∧
    (∀ e ∈ es, internal e = true) ∧ builds (s.th 0) 0 = true ∧ builds (s.th 1) 1 = true ∧
    (s.w.tok 0).dictionary = (s.w.tok 1).dictionary := by
  obtain ⟨s, h1, h2⟩ := exec
    ([.start 0 (.check 0)] ++ steps 0 8 ++ [.start 1 (.check 1)] ++ steps 1 10 ++ steps 0 2)
    (fun s => builds (s.th 0) 0 && builds (s.th 1) 1 && decide ((s.w.tok 0).dictionary = (s.w.tok 1).dictionary))
    (by decide +kernel)
  simp only [Bool.and_eq_true, decide_eq_true_eq] at h2
  exact ⟨_, s, h1, by decide, h2.1.1, h2.1.2, h2.2⟩

/-- C63, positive part: two threads never build the dictionary of the same tokenizer at the same time. -/
theorem C63_one_builder_per_tokenizer {F : Type _} [LinearOrder F] (S : Sys F) (w0 : World) (s : St)
    (h : Run S (fun _ _ => True) (St.init w0) s) (t i j : Nat) (hi : builds (s.th i) t = true) (hj : builds (s.th j) t = true) :
    i = j := by
  have hL := lockInv_run S _ w0 s h
  have key : ∀ i, builds (s.th i) t = true → s.lock t = some i := by
    intro i hi
    refine (hL.1 t i).mpr ?_
    unfold builds at hi
    split at hi
    · next h => rw [h]; simp at hi; subst hi; rfl
    · simp at hi
  have h1 := key i hi
  rw [key j hj] at h1
  exact (Option.some.inj h1).symm

end Jieba.Props
