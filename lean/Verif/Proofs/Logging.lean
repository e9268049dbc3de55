import Verif.Spec.Log

namespace Jieba
open Jieba.Spec

variable {F : Type}

theorem buildDictLog_fst (S : Sys F) (w : World) (t : Nat) (cache : Path) (io : Bool) : (buildDictLog S w t cache io).1 = buildDict S w t cache io := by
  unfold buildDictLog buildDict
  cases dictFile w (w.tok t).dictionary with
  | error e => rfl
  | ok data => cases hg : genPfdict data <;> simp only [hg]

theorem initLockedLog_fst (S : Sys F) (w : World) (t : Nat) (a : Option Path) (io : Bool) : (initLockedLog S w t a io).1 = initLocked S w t a io := by
  unfold initLockedLog initLocked
  by_cases h : (w.tok t).initialized = true
  · rw [if_pos h, if_pos h]
  · rw [if_neg h, if_neg h]
    dsimp only
    cases cacheUsable w a (cachePath S (w.tok t) a) with
    | error e => rfl
    | ok cf =>
      dsimp only
      cases cf.bind (fun f => S.load f.data) with
      | some x => rfl
      | none =>
        dsimp only
        rw [← buildDictLog_fst]
        rcases buildDictLog S w t (cachePath S (w.tok t) a) io with ⟨⟨w', r⟩, l⟩
        cases r <;> rfl

theorem initLockedLog_means (S : Sys F) (w : World) (t : Nat) (a : Option Path) (io : Bool) (h : (w.tok t).initialized = false) :
    LogMeans S w t a io (initLockedLog S w t a io).1 (initLockedLog S w t a io).2 := by
  unfold initLockedLog
  rw [if_neg (by simp [h])]
  dsimp only
  generalize cachePath S (w.tok t) a = cache
  have hus : ∀ f, cacheUsable w a cache = .ok (some f) → w.files cache = some f := fun f hf => by
    unfold cacheUsable at hf
    split at hf
    · simp at hf
    · rename_i cf hc
      split at hf
      · simpa [hc] using hf
      · split at hf
        · simp at hf
        · split at hf <;> simp_all
  split
  · constructor
    · exact ⟨cache, [], [], [], rfl, by simp, by simp, by simp⟩
    all_goals simp [h]
  · rename_i cf hcf
    split
    · rename_i freq total hb
      obtain ⟨f, rfl, hf⟩ := Option.bind_eq_some_iff.mp hb
      have hc := hus f hcf
      constructor
      · exact ⟨cache, [.loading cache], [], [.cost, .built], by simp, by simp, by simp, by simp⟩
      · simp
      · simp [markInit, World.setTok]
      · intro _ _
        refine ⟨rfl, cache, f, by simp, hc, ?_⟩
        simpa [markInit, World.setTok] using hf
      · simp
      · simp
      · simp
    · rename_i hb
      have hl : ∃ l : List Msg, (l = [] ∨ l = [.loading cache]) ∧ (if cf.isSome = true then [Msg.loading cache] else []) = l := by
        split <;> simp
      obtain ⟨l, hl, e⟩ := hl
      rw [e]
      unfold buildDictLog
      cases hd : dictFile w (w.tok t).dictionary with
      | error e =>
        constructor
        · exact ⟨cache, l, [], [], by simp, hl, by simp, by simp⟩
        all_goals rcases hl with rfl | rfl <;> simp [h]
      | ok data =>
        dsimp only
        cases hg : genPfdict data with
        | error e =>
          constructor
          · exact ⟨cache, l, [], [], by simp, hl, by simp, by simp⟩
          all_goals rcases hl with rfl | rfl <;> simp [h]
        | ok x =>
          obtain ⟨freq, total⟩ := x
          dsimp only
          constructor
          · refine ⟨cache, l, [.dumping cache] ++ (if io then [] else [.dumpFailed]), [.cost, .built], by simp, hl, ?_, by simp⟩
            cases io <;> simp
          · simp
          · simp [markInit, World.setTok]
          · intro _ hn
            exact absurd (List.mem_append_left _ (List.mem_append_right _ (List.mem_append_left _ (by simp)))) (hn cache)
          · intro c hcm
            obtain rfl : c = cache := by
              rcases hl with rfl | rfl <;> cases io <;> simpa using hcm
            refine ⟨by simp, ⟨data, hd, ?_⟩, ?_, ?_⟩
            · cases io <;> simpa [markInit, World.setTok, World.setFile] using hg
            · intro hf
              have : io = false := by
                cases io
                · rfl
                · rcases hl with rfl | rfl <;> simp at hf
              subst this
              rfl
            · intro hf
              have : io = true := by
                cases io
                · simp at hf
                · rfl
              subst this
              refine ⟨_, by simp [markInit, World.setTok, World.setFile]; rfl, ?_, ?_⟩
              · simpa [markInit, World.setTok, World.setFile] using S.load_dump (freq, total)
              · intro q hq
                simp [markInit, World.setTok, World.setFile, hq]
          · rcases hl with rfl | rfl <;> cases io <;> simp
          · simp

end Jieba
