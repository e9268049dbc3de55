import Verif.Model.Calls
import Verif.Spec.Calls
import Verif.Proofs.AddRace
import Verif.Proofs.UserLines
import Verif.Proofs.Render
/-!
# Lemmas about calls that are under way at the same time

Rely-guarantee: `Tame t` is what a call may expect of the others and what it guarantees itself.
-/

set_option linter.unusedSectionVars false

namespace Jieba.Lazy
open Co Jieba.Spec

variable {F : Type} [LinearOrder F] {α α' β γ σ : Type}

theorem NoRaise.stable {W : Type} {R : W → W → Prop} (htr : ∀ a b c, R a b → R b c → R a c) {Q : β → W → Prop}
    (hQ : ∀ b w w', Q b w → R w w' → Q b w') {c : Co W α β} {w w' : W} (h : NoRaise R Q c w) (hw : R w w') : NoRaise R Q c w' := by
  induction c generalizing w w' with
  | ret b => exact hQ b w w' h hw
  | raise e => exact h
  | yield a k ih => exact ih h hw
  | act f k ih => exact fun v hv => h v (htr _ _ _ hw hv)

/-- No file changes, and tokenizer `t` keeps its dictionary file. -/
def SameFiles (t : Nat) (w w' : World) : Prop :=
  w'.files = w.files ∧ (w'.tok t).dictionary = (w.tok t).dictionary ∧ w'.defaultDict = w.defaultDict

/-- Tokenizer `t` stays healthy and loses no key, and files stay the same. -/
def Tame (t : Nat) (w w' : World) : Prop :=
  Healthy t w → Healthy t w' ∧ (∀ k, PyDict.has (w.tok t).freq k = true → PyDict.has (w'.tok t).freq k = true) ∧ SameFiles t w w'

theorem SameFiles.refl (t : Nat) (w : World) : SameFiles t w w := ⟨rfl, rfl, rfl⟩

theorem SameFiles.trans {t : Nat} {a b c : World} (h1 : SameFiles t a b) (h2 : SameFiles t b c) : SameFiles t a c :=
  ⟨h2.1.trans h1.1, h2.2.1.trans h1.2.1, h2.2.2.trans h1.2.2⟩

theorem SameFiles.symm {t : Nat} {a b : World} (h : SameFiles t a b) : SameFiles t b a := ⟨h.1.symm, h.2.1.symm, h.2.2.symm⟩

theorem Tame.refl (t : Nat) (w : World) : Tame t w w := fun h => ⟨h, fun _ hk => hk, SameFiles.refl t w⟩

theorem Tame.trans (t : Nat) (a b c : World) (h1 : Tame t a b) (h2 : Tame t b c) : Tame t a c := fun h =>
  ⟨(h2 (h1 h).1).1, fun k hk => (h2 (h1 h).1).2.1 k ((h1 h).2.1 k hk), (h1 h).2.2.trans (h2 (h1 h).1).2.2⟩

theorem Tame.grows {t : Nat} {w w' : World} (h : Tame t w w') : Grows t w w' := fun hw => ⟨(h hw).1, (h hw).2.1⟩

/-- Is `p` a key? -/
abbrev Key (t : Nat) (w : World) (p : Str) : Prop := PyDict.has (w.tok t).freq p = true

/-- From state `w` on, whatever `Tame` changes happen between its accesses: `c` does not raise; its own accesses are `Tame`; `D`
are the prefixes that `c` has still to see to: for every key it adds, each prefix is a key or still to be seen to, and at the
end nothing is left; `Q` holds of the result and the state at the end. -/
def Good (t : Nat) (Q : β → World → Prop) : Co World α β → World → (Str → Prop) → Prop
  | .ret b, w, D => Q b w ∧ ∀ p, ¬ D p
  | .raise _, _, _ => False
  | .yield _ k, w, D => Good t Q k w D
  | .act f k, w, D => ∀ w', Tame t w w' → Healthy t w' → Tame t w' (f w') ∧ ∃ D', Good t Q (k w') (f w') D' ∧
      (∀ p, D p → Key t (f w') p ∨ D' p) ∧
      ∀ u, Key t (f w') u → ¬ Key t w' u → ∀ p, p ≠ [] → p <+: u → Key t (f w') p ∨ D' p

/-- Nothing is left to be done. -/
abbrev nil : Str → Prop := fun _ => False

theorem Good.weaken {t : Nat} {Q : β → World → Prop} {c : Co World α β} {w : World} {D D' : Str → Prop} (h : Good t Q c w D')
    (hD : ∀ p, D p → D' p) : Good t Q c w D := by
  induction c generalizing w with
  | ret b => exact ⟨h.1, fun p hp => h.2 p (hD p hp)⟩
  | raise e => exact h
  | yield a k ih => exact ih h
  | act f k ih =>
    intro w' h1 h2
    obtain ⟨g1, E, g2, g3, g4⟩ := h w' h1 h2
    exact ⟨g1, E, g2, fun p hp => g3 p (hD p hp), g4⟩

theorem Good.bind {t : Nat} {Q' : β → World → Prop} {Q : γ → World → Prop} {c : Co World α β} {g : β → Co World α γ} {w : World}
    {D : Str → Prop} (h : Good t Q' c w D) (hg : ∀ b w', Q' b w' → Good t Q (g b) w' nil) : Good t Q (c >>= g) w D := by
  rw [bind_def]
  induction c generalizing w D with
  | ret b => exact (hg b w h.1).weaken (fun p hp => h.2 p hp)
  | raise e => exact absurd h id
  | yield a k ih => exact ih h
  | act f k ih =>
    intro w' h1 h2
    obtain ⟨g1, E, g2, g3, g4⟩ := h w' h1 h2
    exact ⟨g1, E, ih w' g2, g3, g4⟩

theorem Good.mono {t : Nat} {Q' Q : β → World → Prop} {c : Co World α β} {w : World} {D : Str → Prop} (h : Good t Q' c w D)
    (hq : ∀ b w', Q' b w' → Q b w') : Good t Q c w D := by
  induction c generalizing w D with
  | ret b => exact ⟨hq b w h.1, h.2⟩
  | raise e => exact h
  | yield a k ih => exact ih h
  | act f k ih =>
    intro w' h1 h2
    obtain ⟨g1, E, g2, g3, g4⟩ := h w' h1 h2
    exact ⟨g1, E, ih w' g2, g3, g4⟩

/-- What others and the call itself do is `Tame` altogether. -/
theorem Good.rel {t : Nat} {Q : β → World → Prop} {c : Co World α β} {w0 w : World} {D : Str → Prop} (h : Good t Q c w D)
    (hw : Healthy t w) (h0 : Tame t w0 w) : Good t (fun b w' => Q b w' ∧ Tame t w0 w' ∧ Healthy t w') c w D := by
  induction c generalizing w D with
  | ret b => exact ⟨⟨h.1, h0, hw⟩, h.2⟩
  | raise e => exact h
  | yield a k ih => exact ih h hw h0
  | act f k ih =>
    intro w' h1 h2
    obtain ⟨g1, E, g2, g3, g4⟩ := h w' h1 h2
    exact ⟨g1, E, ih w' g2 (g1 h2).1 (Tame.trans t _ _ _ (Tame.trans t _ _ _ h0 h1) g1), g3, g4⟩

theorem Good.get_bind {t : Nat} {Q : γ → World → Prop} {f : World → β} {g : β → Co World α γ} {w : World} {D : Str → Prop}
    (h : ∀ w', Tame t w w' → Healthy t w' → Good t Q (g (f w')) w' D) : Good t Q (Co.get f >>= g) w D := by
  intro w' h1 h2
  exact ⟨Tame.refl t w', D, h w' h1 h2, fun p hp => Or.inr hp, fun u hu hn => absurd hu hn⟩

/-- A write that leaves the keys alone. -/
theorem Good.upd_bind {t : Nat} {Q : γ → World → Prop} {f : World → World} {g : Unit → Co World α γ} {w : World} {D : Str → Prop}
    (h : ∀ w', Tame t w w' → Healthy t w' → Tame t w' (f w') ∧ ((f w').tok t).freq = (w'.tok t).freq ∧ Good t Q (g ()) (f w') D) :
    Good t Q (upd f >>= g) w D := by
  intro w' h1 h2
  obtain ⟨g1, g2, g3⟩ := h w' h1 h2
  refine ⟨g1, D, g3, fun p hp => Or.inr hp, fun u hu hn => ?_⟩
  unfold Key at hu hn
  rw [g2] at hu
  exact absurd hu hn

/-- Calls that only read. -/
theorem Good.of_reads {t : Nat} {Q : β → World → Prop} {c : Co World α β} {w : World} (h : NoRaise (Grows t) Q c w)
    (hr : Reads t c) : Good t Q c w nil := by
  induction c generalizing w with
  | ret b => exact ⟨h, fun _ hp => hp⟩
  | raise e => exact h
  | yield a k ih => exact ih h hr
  | act f k ih =>
    intro w' h1 h2
    have hf := hr.1 w' h2
    refine ⟨hf.symm ▸ Tame.refl t w', nil, ih w' (h w' h1.grows) (hr.2 w'), fun p hp => hp.elim, fun u hu hn => ?_⟩
    rw [hf] at hu
    exact absurd hu hn

/-- A loop over a generator that only reads. -/
theorem Good.forIn {t : Nat} {I : σ → Prop} {body : α → σ → Co World α' σ} {c : Co World α Unit} {w : World} {s : σ}
    (hb : ∀ a s w, Healthy t w → I s → Good t (fun s' _ => I s') (body a s) w nil)
    (hc : NoRaise (Grows t) (fun _ w' => Healthy t w') c w) (hr : Reads t c) (hw : Healthy t w) (hs : I s) :
    Good t (fun s' w' => I s' ∧ Healthy t w') (Co.forIn c body s) w nil := by
  induction c generalizing w s with
  | ret b => exact ⟨⟨hs, hw⟩, fun _ hp => hp⟩
  | raise e => exact hc
  | yield a k ih =>
    have h1 := (hb a s w hw hs).rel hw (Tame.refl t w)
    refine Good.bind h1 (fun s' w' h2 => ?_)
    refine ih ?_ hr h2.2.2 h2.1
    exact NoRaise.stable (Grows.trans t) (fun _ a b ha hab => (hab ha).1) hc h2.2.1.grows
  | act f k ih =>
    intro w' h1 h2
    have hf := hr.1 w' h2
    have := hc w' h1.grows
    refine ⟨hf.symm ▸ Tame.refl t w', nil, ?_, fun p hp => hp.elim, fun u hu hn => ?_⟩
    · refine ih w' this (hr.2 w') ?_ hs
      rw [hf]; exact h2
    · rw [hf] at hu
      exact absurd hu hn

/-! ## The calls -/

theorem checkInitL_good (S : Sys F) (t : Nat) (io : Bool) (w : World) :
    Good t (fun _ w' => Healthy t w') (checkInitL S t io : Co World α Unit) w nil := by
  intro w' _ h2
  have : checkInit S w' t io = (w', .ok ()) := checkInit_of_init S w' t io h2.init
  simp only [this]
  exact ⟨Tame.refl t w', nil, ⟨h2, fun _ hp => hp⟩, fun p hp => hp.elim, fun u hu hn => absurd hu hn⟩

theorem get_nonneg {t : Nat} {w : World} (hw : Healthy t w) (k : Str) (d : Int) (hd : 0 ≤ d) :
    0 ≤ (PyDict.get? (w.tok t).freq k).getD d := by
  cases h : PyDict.get? (w.tok t).freq k with
  | none => exact hd
  | some v => exact hw.nonneg k v h

theorem expectL_good (A : Arith F) (hA : SignOk A) (t : Nat) (gen : Co World Str Unit) (hc : Calm t gen) (hr : Reads t gen) (w : World) :
    Good t (fun n w' => 0 ≤ n ∧ Healthy t w') (expectL A t gen : Co World α Int) w nil := by
  unfold expectL
  refine Good.get_bind (fun w1 _ hw1 => ?_)
  refine Good.bind (Good.forIn (I := fun o : Option F => ∀ x, o = some x → A.zero ≤ x) ?_ (hc w1 hw1) hr hw1 (by simp)) ?_
  · intro seg acc w2 hw2 hacc
    refine Good.get_bind (fun w3 _ hw3 => ?_)
    have h1 := hw1.total
    rw [if_neg (by omega)]
    refine ⟨?_, fun _ hp => hp⟩
    rintro x hx
    cases hx
    refine hA.mul _ _ ?_ (hA.div _ _ (hA.ofInt _ (get_nonneg hw3 seg 1 (by omega))) (hA.ofInt _ (by omega)))
    cases acc with
    | none => exact hA.ofInt 1 (by omega)
    | some y => exact hacc y rfl
  · rintro o w2 ⟨ho, hw2⟩
    refine Good.get_bind (fun w3 _ hw3 => ⟨⟨?_, hw3⟩, fun _ hp => hp⟩)
    cases o with
    | none => have := hw3.total; simp only []; omega
    | some x => exact hA.trunc _ (hA.mul _ _ (ho x rfl) (hA.ofInt _ (by have := hw3.total; omega)))

theorem suggestWordL_good (S : Sys F) (hA : SignOk S.A) (t : Nat) (word : Str) (io : Bool) (w : World) :
    Good t (fun n w' => 1 ≤ n ∧ Healthy t w') (suggestWordL S t word io : Co World α Int) w nil := by
  unfold suggestWordL
  refine Good.bind (checkInitL_good S t io w) (fun _ w1 hw1 => ?_)
  refine Good.bind (expectL_good S.A hA t _ (cutL_calm S t false false _ io) (cutL_reads S t false false _ io) w1) ?_
  rintro n w2 ⟨hn, -⟩
  refine Good.get_bind (fun w3 _ hw3 => ⟨⟨?_, hw3⟩, fun _ hp => hp⟩)
  exact le_trans (by omega) (le_max_left _ _)

theorem suggestSplitL_good (S : Sys F) (hA : SignOk S.A) (t : Nat) (segs : List Str) (io : Bool) (w : World) :
    Good t (fun n w' => 0 ≤ n ∧ Healthy t w') (suggestSplitL S t segs io : Co World α Int) w nil := by
  unfold suggestSplitL
  refine Good.bind (checkInitL_good S t io w) (fun _ w1 hw1 => ?_)
  refine Good.bind (expectL_good S.A hA t _ (Calm.yieldAll segs) (Reads.yieldAll segs) w1) ?_
  rintro n w2 ⟨hn, -⟩
  exact Good.get_bind (fun w3 _ hw3 => ⟨⟨le_min hn (get_nonneg hw3 _ 0 (le_refl _)), hw3⟩, fun _ hp => hp⟩)

/-- Storing an entry of the table. -/
theorem tame_set (t : Nat) (w : World) (word : Str) (f : Int) (hf : 0 ≤ f) :
    Tame t w (w.setTok t { w.tok t with freq := (w.tok t).freq.set word f }) := fun h =>
  ⟨(grows_setEntry t w word f hf h).1, (grows_setEntry t w word f hf h).2, rfl, by simp [World.setTok], rfl⟩

theorem key_set (t : Nat) (w : World) (word : Str) (f : Int) (u : Str) :
    Key t (w.setTok t { w.tok t with freq := (w.tok t).freq.set word f }) u ↔ word = u ∨ Key t w u := by
  unfold Key
  rw [show ((w.setTok t { w.tok t with freq := (w.tok t).freq.set word f }).tok t).freq = (w.tok t).freq.set word f by
    simp [World.setTok]]
  rw [PyDict.has_set, Bool.or_eq_true, decide_eq_true_eq]

/-- The prefixes of `word` longer than `k`. -/
def owed (word : Str) (k : Nat) (p : Str) : Prop := p ≠ [] ∧ p <+: word ∧ k < p.length

theorem addPrefixesL_good {Q : β → World → Prop} (t : Nat) (word : Str) (g : Unit → Co World α β)
    (hg : ∀ w, Healthy t w → Key t w word → Good t Q (g ()) w nil) (m k : Nat) (hk : k + m = word.length) (w : World)
    (hw : Healthy t w) (hword : Key t w word) (hp : ∀ p, p ≠ [] → p <+: word → p.length ≤ k → Key t w p) :
    Good t Q (addPrefixesL t word (List.range' k m) >>= g) w (owed word k) := by
  induction m generalizing k w with
  | zero =>
    refine (hg w hw hword).weaken (fun p hp => ?_)
    have := hp.2.1.length_le
    have := hp.2.2
    omega
  | succ m ih =>
    rw [List.range'_succ]
    unfold addPrefixesL
    have htake : ∀ p, p <+: word → p.length = k + 1 → p = word.take (k + 1) := by
      intro p h1 h2
      rw [List.prefix_iff_eq_take.mp h1, h2]
    have hdone : ∀ w', Healthy t w' → Key t w' word → (∀ p, p ≠ [] → p <+: word → p.length ≤ k + 1 → Key t w' p) →
        Good t Q (addPrefixesL t word (List.range' (k + 1) m) >>= g) w' (owed word (k + 1)) :=
      fun w' h1 h0 h2 => ih (k + 1) (by omega) w' h1 h0 h2
    intro w1 h1 hw1
    have hp1 : ∀ p, p ≠ [] → p <+: word → p.length ≤ k → Key t w1 p := fun p a b c => (h1 hw).2.1 p (hp p a b c)
    have hword1 : Key t w1 word := (h1 hw).2.1 word hword
    refine ⟨Tame.refl t w1, ?_⟩
    by_cases hh : PyDict.has (w1.tok t).freq (word.take (k + 1)) = true
    · refine ⟨owed word (k + 1), ?_, ?_, fun u hu hn => absurd hu hn⟩
      · simp only [hh]
        refine hdone w1 hw1 hword1 (fun p a b c => ?_)
        rcases Nat.lt_or_ge k p.length with hlt | hle
        · rw [htake p b (by omega)]; exact hh
        · exact hp1 p a b hle
      · rintro p ⟨a, b, c⟩
        by_cases hl : p.length = k + 1
        · left; rw [htake p b hl]; exact hh
        · right; exact ⟨a, b, by omega⟩
    · refine ⟨owed word k, ?_, fun p hp => Or.inr hp, fun u hu hn => absurd hu hn⟩
      simp only [hh]
      intro w2 h2 hw2
      have hp2 : ∀ p, p ≠ [] → p <+: word → p.length ≤ k → Key t w2 p := fun p a b c => (h2 hw1).2.1 p (hp1 p a b c)
      have hT := tame_set t w2 (word.take (k + 1)) 0 (le_refl _)
      have hall : ∀ p, p ≠ [] → p <+: word → p.length ≤ k + 1 →
          Key t (w2.setTok t { w2.tok t with freq := (w2.tok t).freq.set (word.take (k + 1)) 0 }) p := by
        intro p a b c
        rw [key_set]
        rcases Nat.lt_or_ge k p.length with hlt | hle
        · exact Or.inl (htake p b (by omega)).symm
        · exact Or.inr (hp2 p a b hle)
      refine ⟨hT, owed word (k + 1), hdone _ (hT hw2).1 ((hT hw2).2.1 word ((h2 hw1).2.1 word hword1)) hall, ?_, ?_⟩
      · rintro p ⟨a, b, c⟩
        by_cases hl : p.length = k + 1
        · left; exact hall p a b (by omega)
        · right; exact ⟨a, b, by omega⟩
      · intro u hu hn p a b
        rw [key_set] at hu
        have : word.take (k + 1) = u := hu.resolve_right hn
        subst this
        left
        refine hall p a (b.trans (List.take_prefix _ _)) ?_
        have := b.length_le
        rw [List.length_take] at this
        omega

theorem addFreqL_good (t : Nat) (word : Str) (f : Int) (hf : 0 ≤ f) (tag : Option Str) (w : World) :
    Good t (fun _ w' => Healthy t w' ∧ Key t w' word) (addFreqL t word f tag : Co World α Unit) w nil := by
  unfold addFreqL
  intro w1 h1 hw1
  have hT := tame_set t w1 word f hf
  refine ⟨hT, owed word 0, ?_, fun p hp => hp.elim, ?_⟩
  · have hk1 : Key t (w1.setTok t { w1.tok t with freq := (w1.tok t).freq.set word f }) word := (key_set t w1 word f word).mpr (Or.inl rfl)
    refine Good.get_bind (fun w2 g2 hw2 => Good.upd_bind (fun w3 g3 hw3 => ⟨?_, ?_, ?_⟩))
    · intro h
      refine ⟨⟨?_, ?_, ?_⟩, ?_, rfl, by simp [World.setTok], rfl⟩
      · simp [World.setTok, h.init]
      · simp only [World.setTok, if_true]; exact h.nonneg
      · simp only [World.setTok, if_true]; have := hw2.total; omega
      · intro k hk; simp only [World.setTok, if_true]; exact hk
    · simp [World.setTok]
    · have hk3 : Key t w3 word := (g3 hw2).2.1 word ((g2 (hT hw1).1).2.1 word hk1)
      have key : ∀ w, Healthy t w → Key t w word → Good t (fun _ w' => Healthy t w' ∧ Key t w' word)
          ((addPrefixesL t word (List.range word.length) : Co World α Unit) >>= fun _ => forceL word f) w (owed word 0) := by
        intro w hw hkw
        rw [List.range_eq_range']
        refine addPrefixesL_good t word _ ?_ word.length 0 (by omega) w hw hkw (fun p a b c => ?_)
        · intro w' hw' hk'
          unfold forceL
          split
          · intro w2 h2 hw2
            refine ⟨fun h => ⟨⟨h.init, h.nonneg, h.total⟩, fun _ hk => hk, rfl, rfl, rfl⟩, nil, ⟨⟨⟨hw2.init, hw2.nonneg, hw2.total⟩, (h2 hw').2.1 word hk'⟩, fun _ hp => hp⟩,
              fun p hp => hp.elim, fun u hu hn => absurd hu hn⟩
          · exact ⟨⟨hw', hk'⟩, fun _ hp => hp⟩
        · exact absurd (List.length_eq_zero_iff.mp (by omega)) a
      have hw4 : Healthy t (w3.setTok t { w3.tok t with total := (w2.tok t).total + f }) := by
        refine ⟨?_, ?_, ?_⟩
        · simp [World.setTok, hw3.init]
        · simp only [World.setTok, if_true]; exact hw3.nonneg
        · simp only [World.setTok, if_true]; have := hw2.total; omega
      have hk4 : Key t (w3.setTok t { w3.tok t with total := (w2.tok t).total + f }) word := by
        unfold Key; simp only [World.setTok, if_true]; exact hk3
      unfold setTagL
      split
      · refine Good.upd_bind (fun w5 g5 hw5 => ⟨?_, by simp [World.setTok], ?_⟩)
        · intro h
          refine ⟨⟨?_, ?_, ?_⟩, ?_, rfl, by simp [World.setTok], rfl⟩
          · simp [World.setTok, h.init]
          · simp only [World.setTok, if_true]; exact h.nonneg
          · simp only [World.setTok, if_true]; exact h.total
          · intro k hk; simp only [World.setTok, if_true]; exact hk
        · refine key _ ⟨?_, ?_, ?_⟩ (by unfold Key; simp only [World.setTok, if_true]; exact (g5 hw4).2.1 word hk4)
          · simp [World.setTok, hw5.init]
          · simp only [World.setTok, if_true]; exact hw5.nonneg
          · simp only [World.setTok, if_true]; exact hw5.total
      · exact key _ hw4 hk4
  · intro u hu hn p hp hpu
    rw [key_set] at hu
    have : word = u := hu.resolve_right hn
    subst this
    exact Or.inr ⟨hp, hpu, List.length_pos_iff.mpr hp⟩

theorem addWordL_good (S : Sys F) (hA : SignOk S.A) (t : Nat) (word : PyText) (freq : FreqArg) (hf : FreqOk freq) (tag : Option Str)
    (io : Bool) (w : World) :
    Good t (fun _ w' => Healthy t w' ∧ Key t w' (strdecode S.gbk word)) (addWordL S t word freq tag io : Co World α Unit) w nil := by
  unfold addWordL
  refine Good.bind (checkInitL_good S t io w) (fun _ w1 hw1 => ?_)
  refine Good.bind (Q' := fun n w' => 0 ≤ n ∧ Healthy t w') ?_ (fun n w2 h => addFreqL_good t _ n h.1 tag w2)
  cases freq with
  | none => exact (suggestWordL_good S hA t _ io w1).mono (fun n w' h => ⟨by omega, h.2⟩)
  | int n => exact ⟨⟨hf, hw1⟩, fun _ hp => hp⟩
  | str s =>
    obtain ⟨n, h1, h2⟩ := hf
    simp only [freqArgL, h1]
    exact ⟨⟨h2, hw1⟩, fun _ hp => hp⟩

theorem suggestFreqL_good (S : Sys F) (hA : SignOk S.A) (t : Nat) (seg : Segment) (hs : SegOk seg) (tune io : Bool) (w : World) :
    Good t (fun n w' => (0 ≤ n ∧ ∀ x, seg = .text x → 1 ≤ n) ∧ Healthy t w' ∧ (tune = true → Key t w' (segWord S.gbk seg))) (suggestFreqL S t seg tune io : Co World α Int) w nil := by
  unfold suggestFreqL
  refine Good.bind (Q' := fun r w' => ((0 ≤ r.2 ∧ ∀ x, seg = .text x → 1 ≤ r.2) ∧ Healthy t w') ∧ r.1 = segWord S.gbk seg) ?_ ?_
  · cases seg with
    | text x =>
      cases x with
      | str word => exact Good.bind (suggestWordL_good S hA t word io w) (fun n w' h => ⟨⟨⟨⟨by have := h.1; simp only []; omega, fun _ _ => h.1⟩, h.2⟩, rfl⟩, fun _ hp => hp⟩)
      | bytes b => exact absurd hs id
    | tuple l => exact Good.bind (suggestSplitL_good S hA t _ io w) (fun n w' h => ⟨⟨⟨⟨h.1, fun x hx => by cases hx⟩, h.2⟩, rfl⟩, fun _ hp => hp⟩)
  · rintro r w1 ⟨⟨h1, hw1⟩, hr⟩
    refine Good.bind (Q' := fun _ w' => Healthy t w' ∧ (tune = true → Key t w' (segWord S.gbk seg))) ?_ (fun _ w2 hw2 => ⟨⟨h1, hw2⟩, fun _ hp => hp⟩)
    unfold tuneL
    split
    · exact (addWordL_good S hA t _ (.int r.2) (show 0 ≤ r.2 from h1.1) none io w1).mono (fun _ w' h => ⟨h.1, fun _ => hr ▸ h.2⟩)
    · next ht => exact ⟨⟨hw1, fun h => absurd h ht⟩, fun _ hp => hp⟩

theorem digitsValue_some (s : Str) (h : s ≠ []) (hd : ∀ c ∈ s, isDigit c = true) : ∃ n, digitsValue s = some n := by
  have one : ∀ c : Ch, isDigit c = true → ∃ d, digitValue c = some d ∧ c ≠ 0x5F := by
    intro c hc
    unfold isDigit at hc
    simp only [Bool.and_eq_true, decide_eq_true_eq] at hc
    have := digitValue_ascii (c - 0x30) (by unfold Ch at *; omega)
    rw [show 0x30 + (c - 0x30) = c by unfold Ch at *; omega] at this
    exact ⟨_, this, by unfold Ch at *; omega⟩
  have go : ∀ (s : Str) (acc : Nat), (∀ c ∈ s, isDigit c = true) → ∃ n, digitsGo acc false s = some n := by
    intro s
    induction s with
    | nil => intro acc _; exact ⟨acc, rfl⟩
    | cons c s ih =>
      intro acc hs
      obtain ⟨d, h1, h2⟩ := one c (hs c (by simp))
      unfold digitsGo
      rw [if_neg h2, h1]
      exact ih _ (fun x hx => hs x (List.mem_cons_of_mem _ hx))
  cases s with
  | nil => exact absurd rfl h
  | cons c s =>
    obtain ⟨d, h1, -⟩ := one c (hd c (by simp))
    simp only [digitsValue, h1]
    exact go s d (fun x hx => hd x (List.mem_cons_of_mem _ hx))

theorem fieldArg_ok (line word : Str) (freq tag : Option Str) (hl : line ≠ []) (hn : 0x0A ∉ line)
    (h : userFields line = some (word, freq, tag)) : FreqOk (fieldArg freq) := by
  obtain ⟨-, ⟨-, h1, -⟩, -⟩ := (userFields_iff line word freq tag hl hn).mp h
  cases freq with
  | none => trivial
  | some f =>
    obtain ⟨h2, h3⟩ := h1 f rfl
    obtain ⟨n, hn⟩ := digitsValue_some f h2 h3
    exact ⟨n, by rw [pyInt_digits f h3, hn]; rfl, by omega⟩

/-- The word of a line of a user dictionary is in the table. -/
def LineIn (t : Nat) (w : World) (ln : PyText) : Prop :=
  ∀ line word a b, UserLine ln line → line ≠ [] → UserEntry line word a b → Key t w word

theorem userdictLoopL_good (S : Sys F) (hA : SignOk S.A) (t : Nat) (io : Bool) (lns : List PyText) (hl : ∀ ln ∈ lns, LineOk ln)
    (w : World) (hw : Healthy t w) :
    Good t (fun _ w' => Healthy t w' ∧ ∀ ln ∈ lns, LineIn t w' ln) (userdictLoopL S t io lns : Co World α Unit) w nil := by
  induction lns generalizing w with
  | nil => exact ⟨⟨hw, fun _ h => by simp at h⟩, fun _ hp => hp⟩
  | cons ln lns ih =>
    obtain ⟨line, h0, h2⟩ := hl ln (by simp)
    have h1 := (userLine_iff ln line).mpr h0
    have huniq : ∀ l, UserLine ln l → l = line := fun l h => by
      have := (userLine_iff ln l).mpr h
      rw [h1] at this
      exact (Option.some.inj this).symm
    unfold userdictLoopL userdictLineL
    simp only [h1]
    refine Good.bind (Q' := fun _ w' => Healthy t w' ∧ LineIn t w' ln) ?_ (fun _ w' h => ?_)
    · split
      · next he => exact ⟨⟨hw, fun l word a b hu hne => absurd ((huniq l hu).trans he) hne⟩, fun _ hp => hp⟩
      · next hne =>
        cases hu : userFields line with
        | none => exact absurd ((userFields_none_iff ln line h0 hne).mp hu) h2
        | some r =>
          refine (addWordL_good S hA t _ _ (fieldArg_ok line r.1 r.2.1 r.2.2 hne h2 hu) _ io w).mono (fun _ w' h => ⟨h.1, ?_⟩)
          intro l word a b hl' hne' he
          rw [huniq l hl'] at he
          have := (userFields_iff line word a b hne h2).mpr he
          rw [hu] at this
          have hr : r.1 = word := by rw [Option.some.inj this]
          rw [← hr]
          exact h.2
    · refine ((ih (fun x hx => hl x (List.mem_cons_of_mem _ hx)) w' h.1).rel h.1 (Tame.refl t w')).mono (fun _ w2 g => ⟨g.2.2, ?_⟩)
      intro x hx
      rcases List.mem_cons.mp hx with rfl | hx
      · exact fun l word a b h3 h4 h5 => (g.2.1 h.1).2.1 word (h.2 l word a b h3 h4 h5)
      · exact g.1.2 x hx

theorem loadUserdictL_good (S : Sys F) (hA : SignOk S.A) (t : Nat) (f : UserDict) (io : Bool) (w : World) (hw : Healthy t w)
    (l : List PyText) (hl : dictLines w f = some l) (hf : ∀ ln ∈ l, LineOk ln) :
    Good t (fun _ w' => Healthy t w' ∧ ∀ ln ∈ l, LineIn t w' ln) (loadUserdictL S t f io : Co World α Unit) w nil := by
  unfold loadUserdictL
  refine Good.bind ((checkInitL_good S t io w).rel hw (Tame.refl t w)) (fun _ w1 h1 => ?_)
  refine Good.bind (Q' := fun l' w' => l' = l ∧ Healthy t w') ?_ (fun l' w2 h => ?_)
  · cases f with
    | path p =>
      simp only [dictLines, Option.map_eq_some_iff] at hl
      obtain ⟨f, h2, h3⟩ := hl
      unfold userLinesL
      refine Good.get_bind (fun w2 h4 hw2 => ?_)
      rw [(h4 h1.1).2.2.1, (h1.2.1 hw).2.2.1, h2]
      exact ⟨⟨h3, hw2⟩, fun _ hp => hp⟩
    | file data => exact ⟨⟨Option.some.inj hl, h1.1⟩, fun _ hp => hp⟩
    | lines l' => exact ⟨⟨Option.some.inj hl, h1.1⟩, fun _ hp => hp⟩
  · rw [h.1]; exact userdictLoopL_good S hA t io l hf w2 h.2

theorem gramsL_good (t n : Nat) (x : Str) (f : Nat → Str → α) (is : List Nat) (w : World) (hw : Healthy t w) :
    Good t (fun _ w' => Healthy t w') (gramsL t n x f is) w nil := by
  induction is generalizing w with
  | nil => exact ⟨hw, fun _ hp => hp⟩
  | cons i is ih =>
    unfold gramsL
    refine Good.get_bind (fun w1 _ hw1 => ?_)
    split
    · exact Good.bind (Q' := fun _ w' => Healthy t w') ⟨hw1, fun _ hp => hp⟩ (fun _ w' hw' => ih w' hw')
    · exact ih w1 hw1

theorem yieldAll_good (t : Nat) (l : List α) (w : World) (hw : Healthy t w) :
    Good t (fun _ w' => Healthy t w') (Co.yieldAll l : Co World α Unit) w nil :=
  Good.of_reads (NoRaise.yieldAll l hw) (Reads.yieldAll l)

theorem cutForSearchL_good (S : Sys F) (t : Nat) (hm : Bool) (s : PyText) (io : Bool) (w : World) (hw : Healthy t w) :
    Good t (fun _ w' => Healthy t w') (cutForSearchL S t hm s io) w nil := by
  unfold cutForSearchL
  refine (Good.forIn (I := fun _ => True) ?_ (cutL_calm S t false hm s io w hw) (cutL_reads S t false hm s io) hw trivial).mono
    (fun _ _ h => h.2)
  intro x _ w1 hw1 _
  refine Good.mono (Q' := fun _ w' => Healthy t w') ?_ (fun _ _ _ => trivial)
  have hlast : ∀ w, Healthy t w → Good t (fun _ w' => Healthy t w') (Co.yieldAll [x] : Co World Str Unit) w nil :=
    fun w hw => yieldAll_good t [x] w hw
  have h3 : ∀ w, Healthy t w → Good t (fun _ w' => Healthy t w')
      ((if 3 < x.length then gramsL t 3 x (fun _ g => g) (List.range (x.length - 2)) else pure ()) >>= fun _ => Co.yieldAll [x]) w nil := by
    intro w hw
    split
    · exact Good.bind (gramsL_good t 3 x _ _ w hw) (fun _ w' hw' => hlast w' hw')
    · exact hlast w hw
  by_cases h2 : 2 < x.length
  · by_cases h4 : 3 < x.length
    · simp only [h2, h4, if_true] at h3 ⊢
      exact Good.bind (gramsL_good t 2 x _ _ w1 hw1) (fun _ w' hw' => h3 w' hw')
    · simp only [h2, h4, if_true, if_false] at h3 ⊢
      exact Good.bind (gramsL_good t 2 x _ _ w1 hw1) (fun _ w' hw' => h3 w' hw')
  · have h4 : ¬ 3 < x.length := by omega
    simp only [h2, h4, if_false]
    exact hlast w1 hw1

/-- What holds when call `c`, begun in state `w0`, has returned `r`. -/
def Post (gbk : Bytes → Str) (t : Nat) (w0 : World) (c : Call) (r : Option Int) (w : World) : Prop :=
  ResultOk c r ∧ Registered gbk w0 (w.tok t).freq c

theorem Post.stable {gbk : Bytes → Str} {t : Nat} {w0 : World} {c : Call} {r : Option Int} {w w' : World} (h : Post gbk t w0 c r w)
    (hk : ∀ k, Key t w k → Key t w' k) : Post gbk t w0 c r w' := by
  refine ⟨h.1, ?_⟩
  have := h.2
  cases c with
  | addWord word freq tag => exact hk _ this
  | delWord word => exact hk _ this
  | suggestFreq seg tune => exact fun ht => hk _ (this ht)
  | loadUserdict f => exact fun l h1 ln h2 line word a b h3 h4 h5 => hk _ (this l h1 ln h2 line word a b h3 h4 h5)
  | cut ca hm s => trivial
  | cutForSearch hm s => trivial

theorem prog_good (S : Sys F) (hA : SignOk S.A) (t : Nat) (io : Bool) (c : Call) (w : World) (hw : Healthy t w) (hc : CallOk w c) :
    Good t (Post S.gbk t w c) (c.prog S t io) w nil := by
  cases c with
  | addWord word freq tag => exact Good.bind (addWordL_good S hA t word freq hc tag io w) (fun _ _ h => ⟨⟨rfl, h.2⟩, fun _ hp => hp⟩)
  | delWord word =>
    exact Good.bind (addWordL_good S hA t word (.int 0) (show (0 : Int) ≤ 0 from le_refl _) none io w) (fun _ _ h => ⟨⟨rfl, h.2⟩, fun _ hp => hp⟩)
  | suggestFreq seg tune =>
    exact Good.bind (suggestFreqL_good S hA t seg hc tune io w) (fun n _ h => ⟨⟨⟨n, rfl, h.1.1, h.1.2⟩, h.2.2⟩, fun _ hp => hp⟩)
  | loadUserdict f =>
    obtain ⟨l, h1, h2⟩ := hc
    refine Good.bind (loadUserdictL_good S hA t f io w hw l h1 h2) (fun _ _ h => ⟨⟨rfl, ?_⟩, fun _ hp => hp⟩)
    intro l' hl' ln hln line word a b h3 h4 h5
    rw [h1] at hl'
    cases hl'
    exact h.2 ln hln line word a b h3 h4 h5
  | cut ca hm s =>
    exact Good.bind (Good.of_reads (cutL_calm S t ca hm s io w hw) (cutL_reads S t ca hm s io)) (fun _ _ _ => ⟨⟨rfl, trivial⟩, fun _ hp => hp⟩)
  | cutForSearch hm s => exact Good.bind (cutForSearchL_good S t hm s io w hw) (fun _ _ _ => ⟨⟨rfl, trivial⟩, fun _ hp => hp⟩)

/-! ## All calls together -/

/-- Each call is `Good` from the state after its last access, and every prefix of a key is a key or some call has still to see to
it (if this held at the beginning, `B`). -/
structure PoolInv (t : Nat) (B : Prop) (Q : Nat → Option Int → World → Prop) (p : Pool) : Prop where
  healthy : Healthy t p.w
  calls : ∃ (v : Nat → World) (D : Nat → Str → Prop), (∀ i, Good t (Q i) (p.th i) (v i) (D i) ∧ Tame t (v i) p.w ∧ Healthy t (v i)) ∧
    (B → ∀ u, Key t p.w u → ∀ q, q ≠ [] → q <+: u → Key t p.w q ∨ ∃ i, D i q)

theorem poolInv_step (t : Nat) (B : Prop) (Q : Nat → Option Int → World → Prop) (p : Pool) (i : Nat) (h : PoolInv t B Q p) : PoolInv t B Q (p.step i) := by
  obtain ⟨hw, v, D, h1, h2⟩ := h
  unfold Pool.step
  split
  · exact ⟨hw, v, D, h1, h2⟩
  · exact ⟨hw, v, D, h1, h2⟩
  · next a k hk =>
    refine ⟨hw, v, D, fun j => ⟨?_, (h1 j).2⟩, h2⟩
    dsimp only
    split
    · next hj =>
      subst hj
      have := (h1 j).1
      rw [hk] at this
      exact this
    · exact (h1 j).1
  · next f k hk =>
    have hi := (h1 i).1
    rw [hk] at hi
    obtain ⟨g1, E, g2, g3, g4⟩ := hi p.w (h1 i).2.1 hw
    refine ⟨(g1 hw).1, fun j => if j = i then f p.w else v j, fun j => if j = i then E else D j, fun j => ?_, ?_⟩
    · dsimp only
      by_cases hj : j = i
      · simp only [if_pos hj]
        subst hj
        exact ⟨g2, Tame.refl t _, (g1 hw).1⟩
      · simp only [if_neg hj]
        exact ⟨(h1 j).1, Tame.trans t _ _ _ (h1 j).2.1 g1, (h1 j).2.2⟩
    · intro hB u hu q hq hqu
      have keep : ∀ j, D j q → Key t (f p.w) q ∨ ∃ m, (if m = i then E else D m) q := by
        intro j hj
        by_cases hji : j = i
        · subst hji
          rcases g3 q hj with h | h
          · exact Or.inl h
          · exact Or.inr ⟨j, by simpa using h⟩
        · exact Or.inr ⟨j, by simpa [hji] using hj⟩
      by_cases hold : Key t p.w u
      · rcases h2 hB u hold q hq hqu with h | ⟨j, hj⟩
        · exact Or.inl ((g1 hw).2.1 q h)
        · exact keep j hj
      · rcases g4 u hu hold q hq hqu with h | h
        · exact Or.inl h
        · exact Or.inr ⟨i, by simpa using h⟩

theorem poolInv_run (t : Nat) (B : Prop) (Q : Nat → Option Int → World → Prop) (p : Pool) (sched : List Nat) (h : PoolInv t B Q p) : PoolInv t B Q (p.run sched) := by
  unfold Pool.run
  induction sched generalizing p with
  | nil => exact h
  | cons i l ih => exact ih _ (poolInv_step t B Q p i h)

theorem step_runs (p : Pool) (j i : Nat) (l : List Str) (r : Except PyErr (Option Int)) (h : Runs ((p.step j).th i) l r) :
    ∃ m, (p.step j).out i = p.out i ++ m ∧ Runs (p.th i) (m ++ l) r := by
  unfold Pool.step at *
  cases hj : p.th j with
  | ret b => simp only [hj] at h ⊢; exact ⟨[], by simp, h⟩
  | raise e => simp only [hj] at h ⊢; exact ⟨[], by simp, h⟩
  | yield a k =>
    simp only [hj] at h ⊢
    by_cases hij : i = j
    · subst hij
      simp only [if_true] at h ⊢
      exact ⟨[a], rfl, by rw [hj]; exact .yield _ _ _ _ h⟩
    · simp only [if_neg hij] at h ⊢
      exact ⟨[], by simp, h⟩
  | act f k =>
    simp only [hj] at h ⊢
    refine ⟨[], by simp, ?_⟩
    by_cases hij : i = j
    · subst hij
      simp only [if_true] at h
      rw [hj]; exact .act _ _ _ _ _ h
    · simp only [if_neg hij] at h
      exact h

/-- What a call has yielded so far, and any run of what remains, make up a run of the whole call. -/
theorem pool_runs (p : Pool) (sched : List Nat) (i : Nat) (l : List Str) (r : Except PyErr (Option Int))
    (h : Runs ((p.run sched).th i) l r) : ∃ m, (p.run sched).out i = p.out i ++ m ∧ Runs (p.th i) (m ++ l) r := by
  unfold Pool.run at *
  induction sched generalizing p with
  | nil => exact ⟨[], by simp, h⟩
  | cons j sched ih =>
    simp only [List.foldl_cons] at h ⊢
    obtain ⟨m, h1, h2⟩ := ih (p.step j) h
    obtain ⟨m', h3, h4⟩ := step_runs p j i _ r h2
    exact ⟨m' ++ m, by rw [h1, h3, List.append_assoc], by rw [List.append_assoc]; exact h4⟩

/-- A call that moves again and again comes to its end. -/
theorem ends (p : Nat → Pool) (σ : Nat → Nat) (hp : ∀ n, p (n + 1) = (p n).step (σ n)) (i : Nat) (hi : ∀ n, ∃ m, n ≤ m ∧ σ m = i)
    (n : Nat) : ∃ m, n ≤ m ∧ ((∃ b, (p m).th i = .ret b) ∨ ∃ e, (p m).th i = .raise e) := by
  have same : ∀ n m, n ≤ m → (∀ k, n ≤ k → k < m → σ k ≠ i) → (p m).th i = (p n).th i := by
    intro n m hnm h
    induction m, hnm using Nat.le_induction with
    | base => rfl
    | succ m hm ih =>
      rw [hp, ← ih (fun k a b => h k a (by omega))]
      have := h m hm (by omega)
      unfold Pool.step
      split <;> simp [Ne.symm this]
  have key : ∀ (c : Co World Str (Option Int)) (n : Nat), (p n).th i = c →
      ∃ m, n ≤ m ∧ ((∃ b, (p m).th i = .ret b) ∨ ∃ e, (p m).th i = .raise e) := by
    have next : ∀ n, ∃ m, n ≤ m ∧ σ m = i ∧ (p m).th i = (p n).th i := by
      intro n
      classical
      have hex := hi n
      have hm := Nat.find_spec hex
      refine ⟨Nat.find hex, hm.1, hm.2, same n _ hm.1 (fun k h1 h2 h3 => Nat.find_min hex h2 ⟨h1, h3⟩)⟩
    intro c
    induction c with
    | ret b => intro n hn; exact ⟨n, le_refl _, Or.inl ⟨b, hn⟩⟩
    | raise e => intro n hn; exact ⟨n, le_refl _, Or.inr ⟨e, hn⟩⟩
    | yield a k ih =>
      intro n hn
      obtain ⟨m, h1, h2, h3⟩ := next n
      obtain ⟨m', h4, h5⟩ := ih (m + 1) (by
        rw [hp, h2]; unfold Pool.step; rw [h3, hn]; simp)
      exact ⟨m', by omega, h5⟩
    | act f k ih =>
      intro n hn
      obtain ⟨m, h1, h2, h3⟩ := next n
      obtain ⟨m', h4, h5⟩ := ih (p m).w (m + 1) (by
        rw [hp, h2]; unfold Pool.step; rw [h3, hn]; simp)
      exact ⟨m', by omega, h5⟩
  exact key _ n rfl

end Jieba.Lazy
