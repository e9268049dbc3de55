import Verif.Spec.TagSource
import Verif.Proofs.PosWords
import Verif.Proofs.Posseg
import Verif.Proofs.PosTagged
import Verif.Proofs.PosData
/-!
# Lemmas: where the tags of `posseg.cut` come from
-/

set_option linter.unusedSectionVars false

namespace Jieba.Pos
open Jieba.Spec

variable {F : Type _} [LinearOrder F]

theorem foldlM_keys {V : Type _} (f : PyDict PState V → PState → Except PyErr (PyDict PState V))
    (hf : ∀ d y d', f d y = .ok d' → ∀ k ∈ PyDict.keys d', k ∈ PyDict.keys d ∨ k = y)
    (l : List PState) (d r : PyDict PState V) (h : l.foldlM f d = .ok r) : ∀ k ∈ PyDict.keys r, k ∈ PyDict.keys d ∨ k ∈ l := by
  induction l generalizing d with
  | nil => intro k hk; simp [pure, Except.pure] at h; subst h; exact Or.inl hk
  | cons y l ih =>
    intro k hk
    rw [List.foldlM_cons] at h
    cases hy : f d y with
    | error e => rw [hy] at h; simp [bind, Except.bind] at h
    | ok d' =>
      rw [hy] at h
      rcases ih d' h k hk with hk | hk
      · rcases hf d y d' hy k hk with hk | rfl
        · exact Or.inl hk
        · exact Or.inr (by simp)
      · exact Or.inr (by simp [hk])

theorem mem_keys_set {V : Type _} (d : PyDict PState V) (y : PState) (v : V) (k : PState) (h : k ∈ PyDict.keys (PyDict.set d y v)) :
    k ∈ PyDict.keys d ∨ k = y := by
  rw [PyDict.keys_set] at h
  split at h
  · exact Or.inl h
  · rcases List.mem_append.mp h with h | h
    · exact Or.inl h
    · exact Or.inr (by simpa using h)

theorem statesFor_state (T : Tables F) (c : Ch) (y : PState) (h : y ∈ statesFor T c) : IsState T y := by
  unfold statesFor at h
  cases hc : T.charStates.get? c with
  | none => rw [hc] at h; exact Or.inl ((PyDict.mem_keys_iff _ _).mp h)
  | some l => rw [hc] at h; exact Or.inr (Or.inl ⟨c, l, hc, h⟩)

theorem initCol_states (A : Arith F) (T : Tables F) (c : Ch) (V : Col F) (h : initCol A T c = .ok V) :
    ∀ y ∈ PyDict.keys V, IsState T y := by
  intro y hy
  have := foldlM_keys (initOne A T c) ?_ _ _ _ h y hy
  · rcases this with h | h
    · simp [PyDict.keys] at h
    · exact statesFor_state T c y h
  · intro d y d' hd k hk
    unfold initOne at hd
    cases h1 : look T.start y with
    | error e => rw [h1] at hd; simp [bind, Except.bind] at hd
    | ok s =>
      cases h2 : look T.emit y with
      | error e => rw [h1, h2] at hd; simp [bind, Except.bind] at hd
      | ok e =>
        rw [h1, h2] at hd
        simp only [bind, Except.bind, pure, Except.pure, Except.ok.injEq] at hd
        subst hd
        exact mem_keys_set _ _ _ _ hk

theorem prevStates_rows (T : Tables F) (l : List PState) (r : List (PState × PyDict PState F)) (h : prevStates T l = .ok r) :
    ∀ p ∈ r, T.trans.get? p.1 = some p.2 := by
  induction l generalizing r with
  | nil => simp [prevStates] at h; subst h; simp
  | cons x l ih =>
    unfold prevStates at h
    cases h1 : look T.trans x with
    | error e => rw [h1] at h; simp [bind, Except.bind] at h
    | ok tx =>
      cases h2 : prevStates T l with
      | error e => rw [h1, h2] at h; simp [bind, Except.bind] at h
      | ok r' =>
        rw [h1, h2] at h
        simp only [bind, Except.bind, pure, Except.pure, Except.ok.injEq] at h
        subst h
        intro p hp
        split at hp
        · rcases List.mem_cons.mp hp with rfl | hp
          · exact (look_ok _ _ _).mp h1
          · exact ih r' h2 p hp
        · exact ih r' h2 p hp

theorem obsStates_state (T : Tables F) (σ : List PState → List PState) (hσ : ∀ l, (σ l).Perm l) (c : Ch)
    (prev : List (PState × PyDict PState F)) (hp : ∀ p ∈ prev, T.trans.get? p.1 = some p.2) :
    ∀ y ∈ obsStates T σ c prev, IsState T y := by
  intro y hy
  unfold obsStates at hy
  simp only at hy
  split at hy
  · have := (hσ _).mem_iff.mp hy
    rw [List.mem_filter, mem_dedup] at this
    exact statesFor_state T c y this.1
  · split at hy
    · have := (hσ _).mem_iff.mp hy
      rw [mem_dedup, List.mem_flatMap] at this
      obtain ⟨p, h1, h2⟩ := this
      exact Or.inr (Or.inr ⟨p.1, p.2, hp p h1, (PyDict.mem_keys_iff _ _).mp h2⟩)
    · exact Or.inl ((PyDict.mem_keys_iff _ _).mp hy)

theorem stepCol_states (A : Arith F) (T : Tables F) (σ : List PState → List PState) (hσ : ∀ l, (σ l).Perm l) (V : Col F) (c : Ch)
    (W : Col F) (h : stepCol A T σ V c = .ok W) : ∀ y ∈ PyDict.keys W, IsState T y := by
  intro y hy
  unfold stepCol at h
  cases h1 : prevStates T V.keys with
  | error e => rw [h1] at h; simp [bind, Except.bind] at h
  | ok prev =>
    rw [h1] at h
    simp only [bind, Except.bind] at h
    have := foldlM_keys (stepOne A T V c prev) ?_ _ _ _ h y hy
    · rcases this with h | h
      · simp [PyDict.keys] at h
      · exact obsStates_state T σ hσ c prev (prevStates_rows T _ _ h1) y h
    · intro d y d' hd k hk
      unfold stepOne at hd
      cases h2 : prev.mapM (candidate A T V c y) with
      | error e => rw [h2] at hd; simp [bind, Except.bind] at hd
      | ok cands =>
        cases h3 : maxState cands with
        | error e => rw [h2] at hd; simp [bind, Except.bind, h3] at hd
        | ok b =>
          rw [h2] at hd
          simp only [bind, Except.bind, h3, pure, Except.pure, Except.ok.injEq] at hd
          subst hd
          exact mem_keys_set _ _ _ _ hk

theorem columns_states (A : Arith F) (T : Tables F) (σ : Nat → List PState → List PState) (hσ : ∀ t l, (σ t l).Perm l) (t : Nat)
    (cs : Str) (cols r : List (Col F)) (h : columns A T σ t cs cols = .ok r) (hc : ∀ V ∈ cols, ∀ y ∈ PyDict.keys V, IsState T y) :
    ∀ V ∈ r, ∀ y ∈ PyDict.keys V, IsState T y := by
  induction cs generalizing t cols with
  | nil => simp [columns] at h; subst h; exact hc
  | cons c cs ih =>
    cases cols with
    | nil => simp [columns] at h
    | cons V cols =>
      unfold columns at h
      cases h1 : stepCol A T (σ t) V c with
      | error e => rw [h1] at h; simp [bind, Except.bind] at h
      | ok W =>
        rw [h1] at h
        simp only [bind, Except.bind] at h
        refine ih (t + 1) _ h ?_
        intro X hX
        rcases List.mem_cons.mp hX with rfl | hX
        · exact stepCol_states A T _ (hσ t) V c _ h1
        · exact hc X hX

theorem backtrace_keys (cols : List (Col F)) (st : PState) (r : List PState) (h : backtrace cols st = .ok r) :
    ∀ y ∈ r, ∃ V ∈ cols, y ∈ PyDict.keys V := by
  induction cols generalizing st r with
  | nil => simp [backtrace] at h; subst h; simp
  | cons V cols ih =>
    unfold backtrace at h
    cases h1 : look V st with
    | error e => rw [h1] at h; simp [bind, Except.bind] at h
    | ok v =>
      have hk : st ∈ PyDict.keys V := by
        rw [PyDict.mem_keys_iff]
        unfold PyDict.has
        rw [(look_ok _ _ _).mp h1]; rfl
      rw [h1] at h
      simp only [bind, Except.bind] at h
      cases cols with
      | nil =>
        simp only [pure, Except.pure, Except.ok.injEq] at h
        subst h
        intro y hy
        simp at hy; subst hy
        exact ⟨V, by simp, hk⟩
      | cons W cols =>
        cases h2 : v.2 with
        | none => rw [h2] at h; simp at h
        | some p =>
          rw [h2] at h
          simp only at h
          cases h3 : backtrace (W :: cols) p with
          | error e => rw [h3] at h; simp at h
          | ok r' =>
            rw [h3] at h
            simp only [pure, Except.pure, Except.ok.injEq] at h
            subst h
            intro y hy
            rcases List.mem_append.mp hy with hy | hy
            · obtain ⟨X, hX, hy⟩ := ih p r' h3 y hy
              exact ⟨X, List.mem_cons_of_mem _ hX, hy⟩
            · simp at hy; subst hy
              exact ⟨V, by simp, hk⟩

theorem viterbi_states (A : Arith F) (T : Tables F) (σ : Nat → List PState → List PState) (hσ : ∀ t l, (σ t l).Perm l) (s : Str)
    (r : WithBot F × List PState) (h : viterbi A T σ s = .ok r) : ∀ y ∈ r.2, IsState T y := by
  cases s with
  | nil => simp [viterbi] at h
  | cons c cs =>
    simp only [viterbi] at h
    cases h1 : initCol A T c with
    | error e => rw [h1] at h; simp [bind, Except.bind] at h
    | ok V0 =>
      rw [h1] at h
      simp only [bind, Except.bind] at h
      cases h2 : columns A T σ 1 cs [V0] with
      | error e => rw [h2] at h; simp at h
      | ok cols =>
        rw [h2] at h
        simp only at h
        cases h3 : maxState ((cols.headD []).map (fun kv => (kv.2.1, kv.1))) with
        | error e => rw [h3] at h; simp at h
        | ok b =>
          rw [h3] at h
          simp only at h
          cases h4 : backtrace cols b.2 with
          | error e => rw [h4] at h; simp at h
          | ok route =>
            rw [h4] at h
            simp only [pure, Except.pure, Except.ok.injEq] at h
            subst h
            intro y hy
            obtain ⟨V, hV, hy⟩ := backtrace_keys cols b.2 route h4 y hy
            refine columns_states A T σ hσ 1 cs [V0] cols h2 ?_ V hV y hy
            intro V hV
            simp at hV; subst hV
            exact initCol_states A T c _ h1

/-! ## The output -/

/-- Everything yielded satisfies `P`. -/
def AllOut {α : Type _} (P : α → Prop) (g : Gen α) : Prop := ∀ a ∈ g.out, P a

theorem AllOut.ok {α : Type _} {P : α → Prop} {l : List α} (h : ∀ a ∈ l, P a) : AllOut P (Gen.ok l) := h
theorem AllOut.raise {α : Type _} {P : α → Prop} (e : PyErr) : AllOut P (Gen.raise e) := by simp [AllOut, Gen.raise]
theorem AllOut.andThen {α : Type _} {P : α → Prop} {g k : Gen α} (hg : AllOut P g) (hk : AllOut P k) : AllOut P (g.andThen k) := by
  unfold AllOut Gen.andThen at *
  cases g.err with
  | some e => exact hg
  | none =>
    intro a ha
    rcases List.mem_append.mp ha with ha | ha
    · exact hg a ha
    · exact hk a ha
theorem AllOut.forEach {α β : Type _} {P : β → Prop} {f : α → Gen β} (l : List α) (h : ∀ a ∈ l, AllOut P (f a)) :
    AllOut P (Gen.forEach l f) := by
  induction l with
  | nil => exact AllOut.ok (by simp)
  | cons a l ih => exact AllOut.andThen (h a (by simp)) (ih (fun b hb => h b (by simp [hb])))
theorem AllOut.ofExcept {α β : Type _} {P : β → Prop} {x : Except PyErr α} {k : α → Gen β} (h : ∀ a, x = .ok a → AllOut P (k a)) :
    AllOut P (Gen.ofExcept x k) := by
  cases x with
  | error e => exact AllOut.raise e
  | ok a => exact h a rfl

theorem cutLoop_tags (sent : Str) (pos : List PState) (rest : List (Ch × PState)) (i b n : Nat) (hr : ∀ q ∈ rest, q.1 ∈ sent ∧ q.2 ∈ pos) :
    AllOut (fun p : Pair => (∀ c ∈ p.1, c ∈ sent) ∧ ∃ y ∈ pos, p.2 = y.2) (cutLoop sent pos rest i b n) := by
  induction rest generalizing i b n with
  | nil =>
    unfold cutLoop
    split
    · split
      · exact AllOut.raise _
      · next p hp =>
        refine AllOut.ok ?_
        intro a ha; simp at ha; subst ha
        exact ⟨fun c hc => List.mem_of_mem_drop hc, p, List.mem_of_getElem? hp, rfl⟩
    · exact AllOut.ok (by simp)
  | cons q rest ih =>
    obtain ⟨c, p⟩ := q
    have ih := fun i b n => ih i b n (fun q hq => hr q (by simp [hq]))
    obtain ⟨h1, h2⟩ := hr (c, p) (by simp)
    unfold cutLoop
    split
    · exact ih _ _ _
    · split
      · refine AllOut.andThen (AllOut.ok ?_) (ih _ _ _)
        intro a ha; simp at ha; subst ha
        exact ⟨fun c hc => mem_of_mem_slice _ _ _ _ hc, p, h2, rfl⟩
      · split
        · refine AllOut.andThen (AllOut.ok ?_) (ih _ _ _)
          intro a ha; simp at ha; subst ha
          exact ⟨fun d hd => by simp at hd; subst hd; exact h1, p, h2, rfl⟩
        · exact ih _ _ _

theorem tagOf_from (E : PEnv F) (hm : Bool) (w : Str) : TagFrom E hm (w, tagOf E.tab w) := by
  unfold tagOf
  cases h : E.tab.get? w with
  | some g => exact .table w g h
  | none => exact .unknown w h

theorem skipPair_from (E : PEnv F) (hm : Bool) (x : Str) (hx : x ≠ []) : TagFrom E hm (skipPair x) := by
  cases x with
  | nil => exact absurd rfl hx
  | cons c u =>
    by_cases h1 : IsNumCh c
    · have : skipPair (c :: u) = (c :: u, lit ['m']) := by
        unfold skipPair
        have : reNum.isMatch (c :: u) = true := by
          unfold reNum; rw [isMatch_plus']; exact (isNumCh_iff c).mpr h1
        rw [if_pos this]; rfl
      rw [this]; exact .number c u h1
    · by_cases h2 : IsAlnumCh c
      · rw [skipPair_eng c u h1 h2]; exact .foreign c u h2
      · have : skipPair (c :: u) = (c :: u, lit ['x']) := by
          unfold skipPair
          have h3 : ¬ reNum.isMatch (c :: u) = true := by
            unfold reNum; rw [isMatch_plus']; exact fun h' => h1 ((isNumCh_iff c).mp h')
          have h4 : ¬ reEngPos.isMatch (c :: u) = true := by
            unfold reEngPos; rw [isMatch_plus']; exact fun h' => h2 ((isAlnumCh_iff c).mp h')
          rw [if_neg h3, if_neg h4]; rfl
        rw [this]; exact .other c u h1 h2

theorem cutDetail_from (E : PEnv F) (hσ : ∀ s t l, (E.σ s t l).Perm l) (s : Str) : AllOut (TagFrom E true) (cutDetail E s) := by
  unfold cutDetail
  refine AllOut.forEach _ (fun blk hblk => ?_)
  split
  · next hm =>
    unfold hmmCut
    refine AllOut.ofExcept (fun r hr => ?_)
    have hst := viterbi_states E.A E.tables _ (hσ blk) blk r hr
    have hall : ∀ c ∈ blk, isHan c = true := by
      by_cases hne : blk = []
      · subst hne; simp
      · have hin : blk ∈ chunks isHan s := by
          rw [← split_plus_chunks]
          exact List.mem_filter.mpr ⟨hblk, by simpa using hne⟩
        rcases chunks_uniform _ _ blk hin with h | h
        · exact h
        · exfalso
          unfold reHan at hm
          rw [isMatch_eq_any _ _ blk hne (Or.inr h)] at hm
          rw [List.any_eq_true] at hm
          obtain ⟨c, hc, h'⟩ := hm
          rw [h c hc] at h'; cases h'
    intro p hp
    obtain ⟨h1, y, hy, h2⟩ := cutLoop_tags blk r.2 (blk.zip r.2) 0 0 0
      (fun q hq => ⟨(List.of_mem_zip hq).1, (List.of_mem_zip hq).2⟩) p hp
    obtain ⟨w, g⟩ := p
    simp only at h1 h2
    subst h2
    exact .state w y rfl (fun c hc => hall c (h1 c hc)) (hst y hy)
  · refine AllOut.ok ?_
    intro p hp
    obtain ⟨x, hx, rfl⟩ := List.mem_map.mp hp
    exact skipPair_from E true x (by simpa using (List.mem_filter.mp hx).2)

theorem flushBuf_from (E : PEnv F) (hσ : ∀ s t l, (E.σ s t l).Perm l) (buf : Str) : AllOut (TagFrom E true) (flushBuf E buf) := by
  unfold flushBuf
  split
  · exact AllOut.ok (by simp)
  · split
    · refine AllOut.ok ?_
      intro p hp; simp at hp; subst hp; exact tagOf_from E true _
    · split
      · exact cutDetail_from E hσ buf
      · refine AllOut.ok ?_
        intro p hp
        obtain ⟨c, -, rfl⟩ := List.mem_map.mp hp
        exact tagOf_from E true _

theorem dagCutLoop_from (E : PEnv F) (hσ : ∀ s t l, (E.σ s t l).Perm l) (s : Str) (route : List (F × Nat)) (fuel x : Nat) (buf : Str) :
    AllOut (TagFrom E true) (dagCutLoop E s route fuel x buf) := by
  induction fuel generalizing x buf with
  | zero => exact flushBuf_from E hσ buf
  | succ n ih =>
    unfold dagCutLoop
    split
    · split
      · exact AllOut.raise _
      · simp only
        split
        · exact ih _ _
        · refine AllOut.andThen (flushBuf_from E hσ buf) (AllOut.andThen (AllOut.ok ?_) (ih _ _))
          intro p hp; simp at hp; subst hp; exact tagOf_from E true _
    · exact flushBuf_from E hσ buf

theorem noHmmLoop_from (E : PEnv F) (s : Str) (hs : (0x0A : Ch) ∉ s) (route : List (F × Nat)) (fuel x : Nat) (buf : Str)
    (hb : ∀ c ∈ buf, IsAlnumCh c) : AllOut (TagFrom E false) (noHmmLoop E.tab s route fuel x buf) := by
  have hbuf : ∀ buf : Str, (∀ c ∈ buf, IsAlnumCh c) → ∀ p ∈ (if buf = [] then [] else [(buf, flagEng)] : List Pair), TagFrom E false p := by
    intro buf hb p hp
    cases buf with
    | nil => simp at hp
    | cons c buf =>
      simp at hp; subst hp
      exact .foreign c buf (hb c (by simp))
  induction fuel generalizing x buf with
  | zero => exact AllOut.ok (hbuf buf hb)
  | succ n ih =>
    unfold noHmmLoop
    split
    · split
      · exact AllOut.raise _
      · next r _ =>
        simp only
        split
        · next hm =>
          have hnl : (0x0A : Ch) ∉ slice s x (r.2 + 1) := fun h => hs (mem_of_mem_slice _ _ _ _ h)
          obtain ⟨d, hd, ha⟩ := (reEng1_letter _ hnl).mp hm
          refine ih _ _ ?_
          intro c hc
          rcases List.mem_append.mp hc with hc | hc
          · exact hb c hc
          · rw [hd] at hc; simp at hc; subst hc; exact (isAlnumCh_iff _).mp ha
        · refine AllOut.andThen (AllOut.ok ?_) (ih _ _ (by simp))
          intro p hp
          rcases List.mem_append.mp hp with hp | hp
          · exact hbuf buf hb p hp
          · simp at hp; subst hp; exact tagOf_from E false _
    · exact AllOut.ok (hbuf buf hb)

theorem shipped_isState (T : Tables F) (h : PosData.Shipped T) (y : PState) (hy : IsState T y) : y ∈ PosData.states := by
  have hok := PosData.shipped_ok T h
  rw [← PosData.shipped_keys T h, PyDict.mem_keys_iff]
  rcases hy with hy | ⟨c, l, hc, hy⟩ | ⟨x, row, hx, hy⟩
  · exact hy
  · exact (hok.chars c l hc).1 y hy
  · exact Live.has (hok.next x y ⟨row, hx, hy⟩)

end Jieba.Pos
