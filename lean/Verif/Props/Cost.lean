import Verif.Proofs.LazyCost
import Verif.Props.Lazy
/-!
# C81: how often the dictionary is looked at

`RunsIn P c n l r` says that the generator `c` can yield `l` and end with `r` making `n` accesses to the state of the process,
which has the property `P` at each of them but may otherwise be changed by others.  An access is one of `frag in self.FREQ`,
`self.FREQ[frag]`, `self.FREQ.get(...)`, `self.total`, `w in Force_Split_Words`, or the call of `check_initialized()`.
-/

namespace Jieba.Props
open Jieba Jieba.Spec Jieba.Co Jieba.Lazy

variable {F : Type} [LinearOrder F]

/-- C81: if no entry of the dictionary has more than `L` characters, `cut` of a text of `n` characters makes at most
`n * (3 L + 6)` accesses, in each mode and whatever is done to the dictionary meanwhile. -/
theorem C81_cut_linear (S : Sys F) (t L : Nat) (cutAllFlag hmm : Bool) (s : Str) (io : Bool) (n : Nat) (l : List Str)
    (r : Except PyErr Unit)
    (h : RunsIn (fun w => ∀ k, PyDict.has (w.tok t).freq k = true → k.length ≤ L) (cutL S t cutAllFlag hmm (.str s) io) n l r) :
    n ≤ s.length * (3 * L + 6) := by
  have := (cutL_cost S t L 0 cutAllFlag hmm (.str s) io (fun _ => rfl)).run h
  have h2 : (strdecode S.gbk (.str s)) = s := rfl
  rw [h2, Nat.add_zero] at this
  omega

/-- C81 for `cut_for_search`. -/
theorem C81_search_linear (S : Sys F) (t L : Nat) (hmm : Bool) (s : Str) (io : Bool) (n : Nat) (l : List Str)
    (r : Except PyErr Unit)
    (h : RunsIn (fun w => ∀ k, PyDict.has (w.tok t).freq k = true → k.length ≤ L) (cutForSearchL S t hmm (.str s) io) n l r) :
    n ≤ s.length * (3 * L + 8) := by
  have := (cutForSearchL_cost S t L hmm (.str s) io).run h
  have h2 : (strdecode S.gbk (.str s)) = s := rfl
  rw [h2] at this
  omega

/-- C81 for `tokenize`. -/
theorem C81_tokenize_linear (S : Sys F) (t L : Nat) (search hmm : Bool) (s : Str) (io : Bool) (n : Nat)
    (l : List (Str × Nat × Nat)) (r : Except PyErr Unit)
    (h : RunsIn (fun w => ∀ k, PyDict.has (w.tok t).freq k = true → k.length ≤ L) (tokenizeL S t search hmm (.str s) io) n l r) :
    n ≤ s.length * (3 * L + 8) := by
  have := (tokenizeL_cost S t L search hmm (.str s) io).run h
  have h2 : (strdecode S.gbk (.str s)) = s := rfl
  rw [h2] at this
  omega

/-- The number of accesses if nobody interferes. -/
def accesses {W α β : Type} : Co W α β → W → Nat
  | .ret _, _ => 0
  | .raise _, _ => 0
  | .yield _ k, w => accesses k w
  | .act f k, w => accesses (k w) (f w) + 1

theorem quiet_runsIn {W α β : Type} {P : W → Prop} {c : Co W α β} (h : Quiet P c) (n : Nat) (w : W) (hw : P w) :
    RunsIn (fun v => v = w) c (accesses c w) (drive (fun _ w => w) c n w).2.1 (drive (fun _ w => w) c n w).2.2 := by
  induction c generalizing n with
  | ret b => exact .ret b
  | raise e => exact .raise e
  | yield a k ih => exact .yield _ _ _ _ _ (ih h (n + 1))
  | act f k ih =>
    have := ih w (h w hw).2 n
    simp only [accesses, drive, (h w hw).1]
    exact .act f k w _ _ _ rfl this

theorem runsIn_mono {W α β : Type} {P Q : W → Prop} (hpq : ∀ w, P w → Q w) {c : Co W α β} {n : Nat} {l : List α}
    {r : Except PyErr β} (h : RunsIn P c n l r) : RunsIn Q c n l r := by
  induction h with
  | ret b => exact .ret b
  | raise e => exact .raise e
  | yield a k n l r _ ih => exact .yield _ _ _ _ _ ih
  | act f k w n l r hw _ ih => exact .act _ _ w _ _ _ (hpq w hw) ih

/-- C81 for a process with one thread: the tokens of `cut` are computed with at most that many accesses. -/
theorem C81_cut_alone (S : Sys F) (t L : Nat) (cutAllFlag hmm : Bool) (s : Str) (io : Bool) (w : World)
    (hw : (w.tok t).initialized = true) (hL : ∀ k, PyDict.has (w.tok t).freq k = true → k.length ≤ L) :
    accesses (cutL S t cutAllFlag hmm (.str s) io) w ≤ s.length * (3 * L + 6) :=
  C81_cut_linear S t L cutAllFlag hmm s io _ _ _
    (runsIn_mono (by rintro v rfl; exact hL) (quiet_runsIn (quiet_cutL S t cutAllFlag hmm (.str s) io) 0 w hw))

/-- The hypotheses hold of the sample process, whose longest entries have two characters; the accesses of two calls. -/
example : (loadedWorld.tok 0).initialized = true ∧ (∀ p ∈ (loadedWorld.tok 0).freq, p.1.length ≤ 2) ∧
    accesses (cutL sampleSys 0 false true (.str (lit ['北', '京', '大', '学'])) true) loadedWorld = 17 ∧
    accesses (cutL sampleSys 0 true true (.str (lit ['北', '京', '大', '学', '北', '京', '大', '学'])) true) loadedWorld = 24 := by
  decide +kernel

end Jieba.Props
