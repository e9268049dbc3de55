import Verif.Proofs.Logging
import Verif.Props.SampleWorld
/-!
# C139: what the log says

`Spec.LogMeans` says what the messages of an `initialize` mean for the state; below, when there are messages at all, and which of them are written to stderr at
which level.
-/

namespace Jieba.Props
open Jieba Jieba.Spec

variable {F : Type}

/-- With the messages or without: the same results. -/
theorem C139_results (S : Sys F) (w : World) (t : Nat) (d : Option Path) (io : Bool) : (initTokLog S w t d io).1 = initTok S w t d io := by
  unfold initTokLog initTok
  match d with
  | none => exact initLockedLog_fst ..
  | some [] => exact initLockedLog_fst ..
  | some (x :: p) =>
    dsimp only
    by_cases h : (w.tok t).dictionary = some (S.abspath (x :: p)) ∧ (w.tok t).initialized = true
    · rw [if_pos h, if_pos h]
    · rw [if_neg h, if_neg h]
      exact initLockedLog_fst ..

/-- There is no message exactly if there is nothing to do. -/
theorem C139_silent (S : Sys F) (w : World) (t : Nat) (d : Option Path) (io : Bool) :
    ((initTokLog S w t d io).2 = [] ↔ (w.tok t).initialized = true ∧ ∀ p, d = some p → p ≠ [] → (w.tok t).dictionary = some (S.abspath p)) ∧
    ((initTokLog S w t d io).2 = [] → (initTokLog S w t d io).1 = (w, .ok ())) := by
  have hL : ∀ (w : World) (a : Option Path), ((initLockedLog S w t a io).2 = [] ↔ (w.tok t).initialized = true) ∧
      ((initLockedLog S w t a io).2 = [] → (initLockedLog S w t a io).1 = (w, .ok ())) := fun w a => by
    by_cases h : (w.tok t).initialized = true
    · simp [initLockedLog, h]
    · obtain ⟨c, l, d, e, hlog, -⟩ := (initLockedLog_means S w t a io (by simpa using h)).order
      rw [hlog]
      simp [h]
  match d with
  | none => simpa [initTokLog] using hL w _
  | some [] => simpa [initTokLog] using hL w _
  | some (x :: p) =>
    unfold initTokLog
    dsimp only
    by_cases h : (w.tok t).dictionary = some (S.abspath (x :: p)) ∧ (w.tok t).initialized = true
    · rw [if_pos h]
      refine ⟨⟨fun _ => ⟨h.2, ?_⟩, fun _ => rfl⟩, fun _ => rfl⟩
      rintro q hq -
      obtain rfl := Option.some.inj hq
      exact h.1
    · rw [if_neg h]
      have hf : (initLockedLog S (w.setTok t { w.tok t with dictionary := some (S.abspath (x :: p)), initialized := false }) t (some (S.abspath (x :: p))) io).2 ≠ [] := by
        intro e
        have := ((hL _ _).1.mp e)
        simp [World.setTok] at this
      refine ⟨⟨fun e => absurd e hf, ?_⟩, fun e => absurd e hf⟩
      rintro ⟨h1, h2⟩
      exact absurd ⟨h2 _ rfl (by simp), h1⟩ h

/-- The messages of `initialize()` and of the initialisation at the first use. -/
theorem C139_default (S : Sys F) (w : World) (t : Nat) (io : Bool) (h : (w.tok t).initialized = false) :
    LogMeans S w t (w.tok t).dictionary io (initTok S w t none io) (initTokLog S w t none io).2 := by
  rw [← C139_results]
  exact initLockedLog_means S w t _ io h

/-- The messages of `initialize(path)`. -/
theorem C139_given (S : Sys F) (w : World) (t : Nat) (p : Path) (io : Bool) (hp : p ≠ [])
    (h : ¬ ((w.tok t).dictionary = some (S.abspath p) ∧ (w.tok t).initialized = true)) :
    LogMeans S (w.setTok t { w.tok t with dictionary := some (S.abspath p), initialized := false }) t (some (S.abspath p)) io
      (initTok S w t (some p) io) (initTokLog S w t (some p) io).2 := by
  rw [← C139_results]
  cases p with
  | nil => exact absurd rfl hp
  | cons x p =>
    unfold initTokLog
    dsimp only
    rw [if_neg h]
    exact initLockedLog_means S _ t _ io (by simp [World.setTok])

/-- What is written at which level. -/
theorem C139_levels (n : Nat) (ms : List Msg) :
    (n ≤ 10 → shown n ms = ms) ∧ (10 < n → n ≤ 40 → shown n ms = ms.filter (· = .dumpFailed)) ∧ (40 < n → shown n ms = []) := by
  have hl : ∀ m : Msg, (m = .dumpFailed ∧ m.level = 40) ∨ (m ≠ .dumpFailed ∧ m.level = 10) := fun m => by cases m <;> simp [Msg.level]
  refine ⟨fun h => ?_, fun h h' => ?_, fun h => ?_⟩
  · refine List.filter_eq_self.mpr fun m _ => ?_
    rcases hl m with ⟨-, e⟩ | ⟨-, e⟩ <;> simp [e] <;> omega
  · refine List.filter_congr fun m _ => ?_
    rcases hl m with ⟨rfl, -⟩ | ⟨e', e⟩
    · simp [Msg.level, h']
    · simp [e, e']; omega
  · refine List.filter_eq_nil_iff.mpr fun m _ => ?_
    rcases hl m with ⟨-, e⟩ | ⟨-, e⟩ <;> simp [e] <;> omega

/-- Levels do not change what the calls do: the state afterwards is the same with any levels at the beginning, and without the calls that set them. -/
theorem C139_levels_only_show (S : Sys F) (cs : List LogCall) : ∀ (w : World) (l l' : Levels),
    (runLog S w l cs).1.1 = (runLog S w l' (cs.filter (fun c => !setsLevel c))).1.1 := by
  induction cs with
  | nil => intros; rfl
  | cons c cs ih =>
    intro w l l'
    cases c with
    | setLogLevel n => exact ih w { l with jieba := n } l'
    | setCompatLevel n => exact ih w { l with compat := n } l'
    | init t d io => exact ih _ l l'
    | checkInitialized t io =>
      rw [List.filter_cons, if_pos (by rfl), runLog, runLog]
      have : ((LogCall.checkInitialized t io).run S w l).1.1 = ((LogCall.checkInitialized t io).run S w l').1.1 := by
        simp only [LogCall.run]; split <;> rfl
      dsimp only
      rw [this]
      exact ih _ _ _
    | enablePaddle a b c => exact ih w l l'

theorem runLog_append (S : Sys F) (cs ds : List LogCall) : ∀ (w : World) (l : Levels),
    (runLog S w l (cs ++ ds)).2 = (runLog S w l cs).2 ++ (runLog S (runLog S w l cs).1.1 (runLog S w l cs).1.2 ds).2 := by
  induction cs with
  | nil => intros; rfl
  | cons c cs ih => intro w l; simp [runLog, ih]

/-- Above level 40, no initialisation writes anything; from 11 to 40, only the message that a cache file could not be written. -/
theorem C139_quiet (S : Sys F) (cs : List LogCall) (h : ∀ c ∈ cs, (∃ t d io, c = .init t d io) ∨ ∃ t io, c = .checkInitialized t io) :
    ∀ (w : World) (l : Levels), (40 < l.ofJieba → (runLog S w l cs).2 = []) ∧ (10 < l.ofJieba → ∀ m ∈ (runLog S w l cs).2, m = .dumpFailed) := by
  have hs : ∀ n ms, (40 < n → shown n ms = []) ∧ (10 < n → ∀ m ∈ shown n ms, m = .dumpFailed) := fun n ms => by
    obtain ⟨-, h2, h3⟩ := C139_levels n ms
    refine ⟨h3, fun hn m hm => ?_⟩
    by_cases h4 : n ≤ 40
    · rw [h2 hn h4] at hm; simpa using (List.mem_filter.mp hm).2
    · rw [h3 (by omega)] at hm; simp at hm
  induction cs with
  | nil => intro w l; simp [runLog]
  | cons c cs ih =>
    intro w l
    have hc : (c.run S w l).1.2 = l ∧ ∃ ms, (c.run S w l).2 = shown l.ofJieba ms := by
      rcases h c (by simp) with ⟨t, d, io, rfl⟩ | ⟨t, io, rfl⟩
      · exact ⟨rfl, _, rfl⟩
      · simp only [LogCall.run]
        split
        · exact ⟨rfl, [], by simp [shown]⟩
        · exact ⟨rfl, _, rfl⟩
    obtain ⟨h1, ms, h2⟩ := hc
    have ih := ih (fun c hc => h c (by simp [hc])) (c.run S w l).1.1 l
    simp only [runLog, h1, h2]
    obtain ⟨g1, g2⟩ := hs l.ofJieba ms
    refine ⟨fun hn => by rw [g1 hn, ih.1 hn]; rfl, fun hn m hm => ?_⟩
    rcases List.mem_append.mp hm with hm | hm
    · exact g2 hn m hm
    · exact ih.2 hn m hm

/-- `jieba.setLogLevel` has no influence on what `enable_paddle` writes: its logger is another one, with a level of its own. -/
theorem C139_paddle (S : Sys F) (cs : List LogCall) (h : ∀ n, LogCall.setCompatLevel n ∉ cs) (w : World) (l : Levels) (hl : l.compat = 10)
    (a b : Paddle.Imported (Option Str)) (p : Paddle.Imported Unit) :
    (runLog S w l (cs ++ [.enablePaddle a b p])).2 = (runLog S w l cs).2 ++ enablePaddleLog a b p := by
  have hk : ∀ (cs : List LogCall), (∀ n, LogCall.setCompatLevel n ∉ cs) → ∀ (w : World) (l : Levels), (runLog S w l cs).1.2.compat = l.compat := fun cs => by
    induction cs with
    | nil => intros; rfl
    | cons c cs ih =>
      intro h w l
      have hc : (c.run S w l).1.2.compat = l.compat := by
        cases c with
        | setCompatLevel n => exact absurd (by simp) (h n)
        | setLogLevel n => rfl
        | init t d io => rfl
        | checkInitialized t io => simp only [LogCall.run]; split <;> rfl
        | enablePaddle a b c => rfl
      rw [runLog]
      dsimp only
      rw [ih (fun n hn => h n (by simp [hn])), hc]
  rw [runLog_append]
  congr 1
  rw [runLog, runLog]
  have : (runLog S w l cs).1.2.ofCompat = 10 := by
    rw [Levels.ofCompat, hk cs h, hl]; rfl
  simp only [LogCall.run, this, List.append_nil]
  exact (C139_levels 10 _).1 (le_refl _)

/-- So the highest level does not make jieba silent. -/
theorem C139_not_silent (S : Sys F) (w : World) (l : Levels) (hl : l.compat = 10) :
    ¬ ∀ n c, (runLog S w l [.setLogLevel n, c]).2 = [] := by
  intro h
  have h1 := h 1000 (.enablePaddle .importError .importError .importError)
  have h2 := C139_paddle S [.setLogLevel 1000] (by simp) w l hl .importError .importError .importError
  rw [List.singleton_append] at h2
  rw [h2] at h1
  simp [enablePaddleLog] at h1

/-- What the messages of `enable_paddle` mean: pip is called; the flag is set (if it was not before). "Now, back to jieba basic cut", after paddle could not
be imported, is not what happens: an exception follows. -/
theorem C139_enable (a b : Paddle.Imported (Option Str)) (p : Paddle.Imported Unit) :
    (.installing ∈ enablePaddleLog a b p ↔ (Paddle.enablePaddle a b p false).1 = true) ∧
    (.enabled ∈ enablePaddleLog a b p ↔ (Paddle.enablePaddle a b p false).2.1 = true) ∧
    (.importFailed ∈ enablePaddleLog a b p ↔ a = .importError ∧ b = .importError) ∧
    (.importFailed ∈ enablePaddleLog a b p → (Paddle.enablePaddle a b p false).2.2 = .error .unboundLocal) ∧
    (.oldVersion ∈ enablePaddleLog a b p ∨ .noPredict ∈ enablePaddleLog a b p ↔ (Paddle.enablePaddle a b p false).2 = (false, .ok ())) ∧
    (enablePaddleLog a b p).length ≤ 2 := by
  have hv : ∀ v, .installing ∉ checkVersionLog v p ∧ .importFailed ∉ checkVersionLog v p ∧
      (.enabled ∈ checkVersionLog v p ↔ (Paddle.checkVersion v p false).1 = true) ∧
      (.oldVersion ∈ checkVersionLog v p ∨ .noPredict ∈ checkVersionLog v p ↔ Paddle.checkVersion v p false = (false, .ok ())) ∧
      (checkVersionLog v p).length ≤ 1 := fun v => by
    cases v with
    | none => simp [checkVersionLog, Paddle.checkVersion]
    | some v =>
      unfold checkVersionLog Paddle.checkVersion
      dsimp only
      by_cases hlt : Pos.strLt v Paddle.minVersion = true
      · rw [if_pos hlt, if_pos hlt]; simp
      · rw [if_neg hlt, if_neg hlt]; cases p <;> simp
  cases a with
  | ok v =>
    obtain ⟨h1, h2, h3, h4, h5⟩ := hv v
    simp only [enablePaddleLog, Paddle.enablePaddle]
    exact ⟨by simpa using h1, h3, ⟨fun h => absurd h h2, fun h => nomatch h.1⟩, fun h => absurd h h2, h4, by omega⟩
  | raises e => simp [enablePaddleLog, Paddle.enablePaddle]
  | importError =>
    cases b with
    | ok v =>
      obtain ⟨h1, h2, h3, h4, h5⟩ := hv v
      simp only [enablePaddleLog, Paddle.enablePaddle]
      exact ⟨by simp, by simpa using h3, ⟨fun h => absurd (by simpa using h) h2, fun h => nomatch h.2⟩, fun h => absurd (by simpa using h) h2, by simpa using h4, by simpa using h5⟩
    | raises e => simp [enablePaddleLog, Paddle.enablePaddle]
    | importError => simp [enablePaddleLog, Paddle.enablePaddle]

/-! ## Examples -/

/-- The first initialisation reads the dictionary and writes the cache, another tokenizer then reads the cache, and a third time there is nothing to do. -/
example : let c := cachePath sampleSys (sampleWorld.tok 0) none
    (runLog sampleSys sampleWorld ⟨30, 10, 10⟩ [.init 0 none true, .checkInitialized 1 true, .init 0 none true]).2 =
      [.building none, .dumping c, .cost, .built, .building none, .loading c, .cost, .built] := by decide +kernel

/-- If the cache cannot be written, this is the only message at the level INFO; a missing dictionary leaves one message and no success. -/
example : (runLog sampleSys sampleWorld ⟨30, 10, 10⟩ [.setLogLevel 20, .init 0 none false]).2 = [.dumpFailed] ∧
    (runLog sampleSys sampleWorld ⟨30, 10, 10⟩ [.init 0 (some [0x2F, 0x78]) true]).2 = [.building (some (sampleSys.abspath [0x2F, 0x78]))] := by decide +kernel

/-- The hypotheses of `C139_default` and `C139_given` are met. -/
example : (sampleWorld.tok 0).initialized = false ∧
    ¬ ((sampleWorld.tok 0).dictionary = some (sampleSys.abspath [0x2F, 0x78]) ∧ (sampleWorld.tok 0).initialized = true) := by decide +kernel

/-- Level 0 of the logger `jieba` is the level of the root logger. -/
example : (runLog sampleSys sampleWorld ⟨30, 0, 10⟩ [.init 0 none true, .enablePaddle (.ok (some [0x32])) .importError (.ok ())]).2 = [.enabled] := by
  decide +kernel

end Jieba.Props
