import Verif.Proofs.PosCost
import Verif.Props.Cost
import Verif.Props.PosLazy
/-!
# C81 for the part-of-speech tokenizer

An access is one of those of C81, a look-up in `word_tag_tab`, or one of the accesses of `makesure_userdict_loaded()`.
-/

namespace Jieba.Props
open Jieba Jieba.Spec Jieba.Co Jieba.Pos

variable {F : Type} [LinearOrder F]

/-- C81: if no entry of the dictionary has more than `L` characters, `POSTokenizer.cut` of a text of `n` characters makes at
most `n * (3 L + 8) + 3` accesses, whatever is done to the dictionary meanwhile. -/
theorem C81_posseg_linear (P : PSys F) (k t L : Nat) (hmm : Bool) (s : Str) (io : Bool) (n : Nat) (l : List Pair) (r : Except PyErr Unit)
    (h : RunsIn (fun p => (p.pos k).tok = t ∧ ∀ v, PyDict.has (p.w.tok t).freq v = true → v.length ≤ L)
      (Steps.cutL P k hmm (.str s) io) n l r) :
    n ≤ s.length * (3 * L + 8) + 3 := by
  have := (Steps.cutL_cost (k := k) (t := t) (L := L) P hmm (.str s) io).run h
  have h2 : (strdecode P.sys.gbk (.str s)) = s := rfl
  rw [h2] at this
  omega

theorem keeps_runsIn {W α β : Type} {P : W → Prop} {c : Co W α β} (h : Keeps P c) (n : Nat) (w : W) (hw : P w) :
    RunsIn P c (accesses c w) (drive (fun _ w => w) c n w).2.1 (drive (fun _ w => w) c n w).2.2 := by
  induction c generalizing n w with
  | ret b => exact .ret b
  | raise e => exact .raise e
  | yield a k ih => exact .yield _ _ _ _ _ (ih h (n + 1) w hw)
  | act f k ih => exact .act f k w _ _ _ hw (ih w (h w hw).2 n (f w) (h w hw).1)

/-- C81 for a process with one thread. -/
theorem C81_posseg_alone (P : PSys F) (k L : Nat) (hmm : Bool) (s : Str) (io : Bool) (p : PWorld)
    (hi : (p.w.tok (p.pos k).tok).initialized = true)
    (hL : ∀ v, PyDict.has (p.w.tok (p.pos k).tok).freq v = true → v.length ≤ L) :
    accesses (Steps.cutL P k hmm (.str s) io) p ≤ s.length * (3 * L + 8) + 3 :=
  C81_posseg_linear P k (p.pos k).tok L hmm s io _ _ _
    (runsIn_mono (fun _ h => h.1) (keeps_runsIn (Steps.cutL_loaded (t := (p.pos k).tok) (L := L) P hmm (.str s) io) 0 p ⟨⟨rfl, hL⟩, hi⟩))

/-- The hypotheses hold of the sample process, whose longest entries have two characters; the accesses of two calls. -/
example : (samplePWorld.w.tok (samplePWorld.pos 0).tok).initialized = true ∧
    (∀ e ∈ (samplePWorld.w.tok (samplePWorld.pos 0).tok).freq, e.1.length ≤ 2) ∧
    accesses (Steps.cutL samplePSys 0 false (.str (lit ['北', '京', '大', '学'])) true) samplePWorld = 22 ∧
    accesses (Steps.cutL samplePSys 0 true (.str (lit ['北', '京', '大', '学', '城'])) true) samplePWorld = 26 := by
  decide +kernel

end Jieba.Props
