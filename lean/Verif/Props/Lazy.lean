import Verif.Proofs.LazyBlocks
import Verif.Props.SampleWorld
/-!
# C56, C64, C65: generators and changes of the dictionary

`drive μ c 0 w` runs the generator `c` from state `w`; when its `n`-th value has been yielded the caller changes the state to
`μ n` of it.  `Runs c l r` says that `c` can yield `l` and end with `r` if other threads may change the state in any way before
each access.  `errOf r` is the exception of `r`, if any.
-/

namespace Jieba.Props
open Jieba Jieba.Spec Jieba.Co Jieba.Lazy

variable {F : Type} [LinearOrder F]

/-! ## C56 -/

/-- C56 for threads: the same if the state may be anything at each access to the dictionary. -/
theorem C56_cut_any_interleaving (S : Sys F) (t : Nat) (hmm : Bool) (s : PyText) (io : Bool) (l : List Str)
    (r : Except PyErr Unit) (hr : Runs (cutL S t false hmm s io) l r) : Lossless ⟨l, errOf r⟩ (strdecode S.gbk s) := by
  have := (cutL_takes S t hmm s io).lossless hr
  revert this
  cases r <;> exact id

/-- C56: whatever the caller does to the process between two `next()` calls, the tokens of `cut` are non-empty and join to a
beginning of the text, and to the text if nothing is raised. -/
theorem C56_cut_interrupted (S : Sys F) (t : Nat) (hmm : Bool) (s : PyText) (io : Bool) (μ : Nat → World → World) (w : World) :
    Lossless ⟨(drive μ (cutL S t false hmm s io) 0 w).2.1, errOf (drive μ (cutL S t false hmm s io) 0 w).2.2⟩
      (strdecode S.gbk s) :=
  C56_cut_any_interleaving S t hmm s io _ _ (drive_runs μ _ 0 w)

/-- The generator is the function of the sequential model when nobody interferes. -/
theorem C56_cut_alone (S : Sys F) (t : Nat) (cutAllFlag hmm : Bool) (s : PyText) (io : Bool) (w : World) :
    (drive (fun _ w => w) (cutL S t cutAllFlag hmm s io) 0 w).1 = (cutW S w t cutAllFlag hmm s io).1 ∧
    (drive (fun _ w => w) (cutL S t cutAllFlag hmm s io) 0 w).2.1 = (cutW S w t cutAllFlag hmm s io).2.out ∧
    errOf (drive (fun _ w => w) (cutL S t cutAllFlag hmm s io) 0 w).2.2 = (cutW S w t cutAllFlag hmm s io).2.err := by
  rw [← sem_cutL]
  unfold sem
  exact ⟨rfl, rfl, by cases h : (drive (fun _ w => w) (cutL S t cutAllFlag hmm s io) 0 w).2.2 <;> simp [errOf, h]⟩

theorem trace_extra {l : List Str} {s s' : Str} (h : Trace Extra s l s') :
    ∃ words, words.Sublist l ∧ Trace Next s words s' ∧ ∀ a ∈ l, a ≠ [] ∧ a <:+: s := by
  induction h with
  | nil s => exact ⟨[], List.Sublist.refl _, .nil s, by simp⟩
  | cons s a s' l s'' h _ ih =>
    obtain ⟨words, h1, h2, h3⟩ := ih
    rcases h with h | ⟨ha, hi, rfl⟩
    · refine ⟨a :: words, h1.cons_cons a, .cons _ _ _ _ _ h h2, ?_⟩
      intro b hb
      rcases List.mem_cons.mp hb with rfl | hb
      · exact ⟨h.1, ⟨[], s', by rw [h.2]; simp⟩⟩
      · obtain ⟨h4, h5⟩ := h3 b hb
        exact ⟨h4, h5.trans ⟨a, [], by rw [h.2]; simp⟩⟩
    · refine ⟨words, h1.cons a, h2, ?_⟩
      intro b hb
      rcases List.mem_cons.mp hb with rfl | hb
      · exact ⟨ha, hi⟩
      · exact h3 b hb

/-- C56 for `cut_for_search`, for threads: the values are non-empty substrings of the text, and some of them, in order, are a
segmentation (of a beginning if there is an exception). -/
theorem C56_search_any_interleaving (S : Sys F) (t : Nat) (hmm : Bool) (s : PyText) (io : Bool) (l : List Str)
    (r : Except PyErr Unit) (hr : Runs (cutForSearchL S t hmm s io) l r) :
    (∀ a ∈ l, a ≠ [] ∧ a <:+: strdecode S.gbk s) ∧
    ∃ words, words.Sublist l ∧ Lossless ⟨words, errOf r⟩ (strdecode S.gbk s) := by
  obtain ⟨rest, h1, h2⟩ := (cutForSearchL_safe S t hmm s io).run hr
  obtain ⟨words, h3, h4, h5⟩ := trace_extra h1
  obtain ⟨h6, h7⟩ := trace_next_iff h4
  refine ⟨h5, words, h3, h7, ⟨rest, h6.symm⟩, ?_⟩
  intro he
  cases r with
  | error e => simp [errOf] at he
  | ok u => rw [h2 u rfl, List.append_nil] at h6; exact h6.symm

theorem trace_span {s : Str} {search : Bool} {l : List (Str × Nat × Nat)} {o o' : Nat} (h : Trace (Span s search) o l o') :
    (∀ e ∈ l, ExactSpan s e ∧ e.1 ≠ []) ∧ (∃ words, words.Sublist l ∧ Contiguous o words o') ∧ (search = false → Contiguous o l o') := by
  induction h with
  | nil o => exact ⟨by simp, ⟨[], List.Sublist.refl _, .nil o⟩, fun _ => .nil o⟩
  | cons o e o1 l o2 h _ ih =>
    obtain ⟨ih1, ⟨words, ih2, ih3⟩, ih4⟩ := ih
    obtain ⟨h1, h2, h3⟩ := h
    obtain ⟨x, a, b⟩ := e
    refine ⟨?_, ?_, ?_⟩
    · intro e he
      rcases List.mem_cons.mp he with rfl | he
      · exact ⟨h1, h2⟩
      · exact ih1 e he
    · rcases h3 with ⟨ha, hb⟩ | ⟨-, rfl⟩
      · simp only [] at ha hb; subst ha; subst hb
        exact ⟨_ :: words, ih2.cons_cons _, .cons _ _ _ _ _ ih3⟩
      · exact ⟨words, ih2.cons _, ih3⟩
    · intro hs
      rcases h3 with ⟨ha, hb⟩ | ⟨hs', -⟩
      · simp only [] at ha hb; subst ha; subst hb
        exact .cons _ _ _ _ _ (ih4 hs)
      · rw [hs] at hs'; exact Bool.noConfusion hs'

/-- C56 for `tokenize`, for threads: every span is exact; some of the entries in order (all of them in default mode) are adjacent
spans from 0, up to the end of the text if nothing is raised. -/
theorem C56_tokenize_any_interleaving (S : Sys F) (t : Nat) (search hmm : Bool) (s : Str) (io : Bool) (l : List (Str × Nat × Nat))
    (r : Except PyErr Unit) (hr : Runs (tokenizeL S t search hmm (.str s) io) l r) :
    (∀ e ∈ l, ExactSpan s e ∧ e.1 ≠ []) ∧
    ∃ words stop, words.Sublist l ∧ (search = false → words = l) ∧ Contiguous 0 words stop ∧ (r = .ok () → stop = s.length) := by
  obtain ⟨stop, h1, h2⟩ := (tokenizeL_safe S t search hmm s io).run hr
  obtain ⟨h3, ⟨words, h4, h5⟩, h6⟩ := trace_span h1
  refine ⟨h3, ?_⟩
  cases search with
  | true => exact ⟨words, stop, h4, by simp, h5, fun h => h2 () h⟩
  | false => exact ⟨l, stop, List.Sublist.refl _, fun _ => rfl, h6 rfl, fun h => h2 () h⟩

/-- The caller adds 京大 after the first token. -/
def addLater : Nat → World → World := fun n w => if n = 0 then addFreq w 0 (lit ['京', '大']) 1000 none else w

/-- The sample process with its dictionary loaded. -/
def loadedWorld : World := (checkInit sampleSys sampleWorld 0 true).1

/-- The change is noticed (`!` separates blocks), and nothing is lost. -/
example :
    (drive addLater (cutL sampleSys 0 false false (.str (lit ['大', '!', '京', '大', '学'])) true) 0 loadedWorld).2.1 =
      [lit ['大'], lit ['!'], lit ['京', '大'], lit ['学']] ∧
    (cutW sampleSys loadedWorld 0 false false (.str (lit ['大', '!', '京', '大', '学'])) true).2.out =
      [lit ['大'], lit ['!'], lit ['京'], lit ['大', '学']] := by decide +kernel

/-! ## C64 -/

/-- C64: full mode, and accurate mode without the HMM: each maximal run of word characters (and each run of other characters) is
cut as in one state of the process, whatever the caller does between the tokens. -/
theorem C64_block_snapshot (S : Sys F) (t : Nat) (cutAllFlag hmm io : Bool) (h : cutAllFlag = true ∨ hmm = false)
    (μ : Nat → World → World) (s : PyText) (w : World) (hok : (drive μ (cutL S t cutAllFlag hmm s io) 0 w).2.2 = .ok ()) :
    let runs := (strdecode S.gbk s).splitBy (fun a b => isWordCh a == isWordCh b)
    ∃ snaps : List World, snaps.length = runs.length ∧
      (drive μ (cutL S t cutAllFlag hmm s io) 0 w).2.1 =
        (List.zipWith (fun v b => (cut (v.env S t) cutAllFlag hmm b).out) snaps runs).flatten ∧
      ∀ p ∈ snaps.zip runs, (∀ c ∈ p.2, isWordCh c = true) → (p.1.tok t).initialized = true :=
  drive_cutL_snapshots S t cutAllFlag hmm io h μ s w hok

/-- C64 for a text of word characters: the caller's changes have no effect at all. -/
theorem C64_single_run (S : Sys F) (t : Nat) (cutAllFlag hmm io : Bool) (h : cutAllFlag = true ∨ hmm = false)
    (μ : Nat → World → World) (s : PyText) (w : World) (hs : ∀ c ∈ strdecode S.gbk s, isWordCh c = true) :
    (drive μ (cutL S t cutAllFlag hmm s io) 0 w).2.1 = (cutW S w t cutAllFlag hmm s io).2.out ∧
    errOf (drive μ (cutL S t cutAllFlag hmm s io) 0 w).2.2 = (cutW S w t cutAllFlag hmm s io).2.err :=
  drive_cutL_word S t cutAllFlag hmm io h μ s w hs

example : ∀ c ∈ strdecode sampleSys.gbk (.str (lit ['北', '京', '大', '学', '生'])), isWordCh c = true := by decide +kernel

/-- With the HMM this is false: words not to be joined by the HMM are looked up for each token. -/
theorem C64_fails_with_hmm : ∃ (μ : Nat → World → World) (s : Str), (∀ c ∈ s, isWordCh c = true) ∧
    (drive μ (cutL sampleSys 0 false true (.str s) true) 0 loadedWorld).2.1 ≠
      (cutW sampleSys loadedWorld 0 false true (.str s) true).2.out :=
  ⟨fun n w => if n = 0 then addFreq w 0 (lit ['学', '生']) 0 none else w, lit ['北', '京', '学', '生'], by decide +kernel⟩

/-! ## C65 -/

/-- C65: if others only change the process so that the tokenizer stays initialised with non-negative frequencies and a positive
total, and no key of the table disappears, then `cut` raises nothing in any mode, however the steps interleave. -/
theorem C65_never_raises (S : Sys F) (t : Nat) (cutAllFlag hmm : Bool) (s : PyText) (io : Bool) (w : World)
    (hi : (w.tok t).initialized = true) (hn : NonNeg (w.tok t).freq) (ht : 0 < (w.tok t).total) (l : List Str)
    (r : Except PyErr Unit) (hr : RunsUnder (Grows t) w (cutL S t cutAllFlag hmm s io) l r) : r = .ok () := by
  obtain ⟨b, rfl⟩ := (cutL_calm S t cutAllFlag hmm s io w ⟨hi, hn, ht⟩).run hr
  rfl

/-- C65: hence the result is a segmentation of the whole text. -/
theorem C65_segmentation (S : Sys F) (t : Nat) (hmm : Bool) (s : PyText) (io : Bool) (w : World)
    (hi : (w.tok t).initialized = true) (hn : NonNeg (w.tok t).freq) (ht : 0 < (w.tok t).total) (l : List Str)
    (r : Except PyErr Unit) (hr : RunsUnder (Grows t) w (cutL S t false hmm s io) l r) :
    r = .ok () ∧ IsSegmentation l (strdecode S.gbk s) := by
  have h := C65_never_raises S t false hmm s io w hi hn ht l r hr
  have hl := C56_cut_any_interleaving S t hmm s io l r hr.runs
  rw [h] at hl
  exact ⟨h, hl.complete rfl, hl.nonempty⟩

/-- What others may do: adding and deleting words of any tokenizer, as a whole, … -/
theorem C65_add_word_allowed (t u : Nat) (w : World) (word : Str) (f : Int) (hf : 0 ≤ f) (tag : Option Str) :
    Grows t w (addFreq w u word f tag) := grows_addFreq t u w word f hf tag

/-- … and step by step: storing one entry of `FREQ`, … -/
theorem C65_store_allowed (t : Nat) (w : World) (word : Str) (f : Int) (hf : 0 ≤ f) :
    Grows t w (w.setTok t { w.tok t with freq := (w.tok t).freq.set word f }) := grows_setEntry t w word f hf

/-- … increasing `total`, … -/
theorem C65_total_allowed (t : Nat) (w : World) (f : Int) (hf : 0 ≤ f) :
    Grows t w (w.setTok t { w.tok t with total := (w.tok t).total + f }) := grows_addTotal t w f hf

/-- … and any sequence of such changes. -/
theorem C65_sequences_allowed (t : Nat) (a b c : World) (h1 : Grows t a b) (h2 : Grows t b c) : Grows t a c :=
  Grows.trans t a b c h1 h2

/-- C65 for a caller who adds and deletes words between the tokens. -/
theorem C65_caller_adds_words (S : Sys F) (t : Nat) (hmm : Bool) (s : PyText) (io : Bool) (w : World)
    (hi : (w.tok t).initialized = true) (hn : NonNeg (w.tok t).freq) (ht : 0 < (w.tok t).total)
    (changes : Nat → List (Str × Nat)) :
    let d := drive (fun n w => (changes n).foldl (fun w e => addFreq w t e.1 e.2 none) w) (cutL S t false hmm s io) 0 w
    d.2.2 = .ok () ∧ IsSegmentation d.2.1 (strdecode S.gbk s) := by
  refine C65_segmentation S t hmm s io w hi hn ht _ _
    (drive_runsUnder (Grows t) (Grows.refl t) (Grows.trans t) _ ?_ _ 0 w w (Grows.refl t w))
  intro n w
  induction changes n generalizing w with
  | nil => exact Grows.refl t w
  | cons e es ih => exact Grows.trans t _ _ _ (grows_addFreq t t w e.1 e.2 (by omega) none) (ih _)

/-- The hypotheses hold of the sample process. -/
example : (loadedWorld.tok 0).initialized = true ∧ 0 < (loadedWorld.tok 0).total ∧ ∀ p ∈ (loadedWorld.tok 0).freq, 0 ≤ p.2 := by
  decide +kernel

/-- C65, the restriction is needed: if another thread may replace the table (`initialize` with another dictionary) between
`frag in self.FREQ` and `self.FREQ[frag]`, there is a run in which `cut` raises `KeyError`. -/
theorem C65_reinitialise_race : ∃ l, Runs (cutL sampleSys 0 false true (.str (lit ['北', '京'])) true) l (.error .keyError) := by
  refine ⟨[], ?_⟩
  show Runs (cutBlocksL sampleSys 0 false true true [[], lit ['北', '京'], []]) _ _
  refine .act _ _ loadedWorld _ _ ?_
  refine .act _ _ loadedWorld _ _ ?_
  refine .act _ _ sampleWorld _ _ ?_
  exact .raise _

end Jieba.Props
