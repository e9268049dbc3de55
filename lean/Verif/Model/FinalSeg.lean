import Verif.Model.Regex
import Verif.Model.Arith
/-!
# jieba/finalseg/__init__.py — the HMM segmenter for unknown words
-/

namespace Jieba.FinalSeg

/-- Tags 'B', 'M', 'E', 'S'. jieba/finalseg/__init__.py:15-20, 61. -/
inductive St where
  | B | M | E | S
  deriving DecidableEq, Repr

/-- Position in the string order 'B' < 'E' < 'M' < 'S' (used when `max` compares tuples). Python itself, used at jieba/finalseg/__init__.py:48, 54. -/
def St.rank : St → Nat
  | .B => 0 | .E => 1 | .M => 2 | .S => 3

/-- `PrevStatus`, jieba/finalseg/__init__.py:15-20, in string order of each entry. -/
def prevStatus : St → St × St
  | .B => (.E, .S)
  | .M => (.M, .B)
  | .S => (.S, .E)
  | .E => (.B, .M)

/-- The tables `start_P`, `trans_P`, `emit_P` and the constant `MIN_FLOAT` (jieba/finalseg/__init__.py:8, 29-34),
left arbitrary.  `start_p[y]`, `emit_p[y]`, `trans_p[y]` exist for all four tags in the shipped tables; the inner
`.get(.., MIN_FLOAT)` look-ups are partial. -/
structure Tables (F : Type _) where
  start : St → F
  trans : St → St → Option F
  emit : St → Ch → Option F
  minFloat : F

/-- One value per tag (a dict keyed by the four tags, e.g. `V[t]` or `path`). jieba/finalseg/__init__.py:38-52. -/
structure Four (α : Type _) where
  b : α
  m : α
  e : α
  s : α

/-- `d[y]` (jieba/finalseg/__init__.py:41, 49, 51). -/
def Four.get {α : Type _} (f : Four α) : St → α
  | .B => f.b | .M => f.m | .E => f.e | .S => f.s

/-- A dict with one entry per tag (jieba/finalseg/__init__.py:40-42, 46-51). -/
def Four.mk' {α : Type _} (f : St → α) : Four α := ⟨f .B, f .M, f .E, f .S⟩

variable {F : Type _} [LinearOrder F]

/-- Python's `max` on `(prob, state)` tuples. -/
def maxSt (x : F × St) (xs : List (F × St)) : F × St :=
  pyMax (tupLt (fun a b => decide (a.rank < b.rank))) x xs

/-- jieba/finalseg/__init__.py:40-42: `V[0]` and `path` after the initialisation loop. -/
def viterbiInit (A : Arith F) (T : Tables F) (c : Ch) : Four (F × List St) :=
  Four.mk' (fun y => (A.add (T.start y) ((T.emit y c).getD T.minFloat), [y]))

/-- jieba/finalseg/__init__.py:44-52: one iteration of the loop over `t` (only `V[t-1]` is ever read). -/
def viterbiStep (A : Arith F) (T : Tables F) (V : Four (F × List St)) (c : Ch) : Four (F × List St) :=
  Four.mk' (fun y =>
    let em := (T.emit y c).getD T.minFloat
    let cand := fun y0 => (A.add (A.add (V.get y0).1 ((T.trans y0 y).getD T.minFloat)) em, y0)
    let best := maxSt (cand (prevStatus y).1) [cand (prevStatus y).2]
    (best.1, (V.get best.2).2 ++ [y]))

/-- jieba/finalseg/__init__.py:37-56 `viterbi(obs, 'BMES', ...)`; an empty `obs` raises IndexError at `obs[0]`. -/
def viterbi (A : Arith F) (T : Tables F) : Str → Except PyErr (F × List St)
  | [] => .error .indexError
  | c :: cs =>
    let V := cs.foldl (viterbiStep A T) (viterbiInit A T c)
    let best := maxSt ((V.get .E).1, .E) [((V.get .S).1, .S)]
    .ok (best.1, (V.get best.2).2)

/-- jieba/finalseg/__init__.py:62-75: the loop of `__cut` over `enumerate(sentence)`; the list argument pairs the
remaining characters with their tags, `i` is the index. -/
def cutLoop (sent : Str) : List (Ch × St) → Nat → Nat → Nat → List Str
  | [], _, _, nexti => if nexti < sent.length then [sent.drop nexti] else []
  | (c, pos) :: rest, i, begin, nexti =>
    match pos with
    | .B => cutLoop sent rest (i + 1) i nexti
    | .E => slice sent begin (i + 1) :: cutLoop sent rest (i + 1) begin (i + 1)
    | .S => [c] :: cutLoop sent rest (i + 1) begin (i + 1)
    | .M => cutLoop sent rest (i + 1) begin nexti

/-- jieba/finalseg/__init__.py:59-75 `__cut` (`pos_list[i]` always exists, the tag list is as long as the sentence,
see `viterbi_length`). -/
def hmmCut (A : Arith F) (T : Tables F) (sent : Str) : Gen Str :=
  Gen.ofExcept (viterbi A T sent) (fun r => Gen.ok (cutLoop sent (sent.zip r.2) 0 0 0))

/-- jieba/finalseg/__init__.py:85-100 `cut` on already decoded text; `force` is `Force_Split_Words`. -/
def cut (A : Arith F) (T : Tables F) (force : List Str) (sentence : Str) : Gen Str :=
  Gen.forEach (reHan.split sentence) (fun blk =>
    if reHan.isMatch blk then
      (hmmCut A T blk).mapOut (fun word => if word ∉ force then [word] else word.map (fun c => [c]))
    else
      Gen.ok ((reSkipFinal.split blk).filter (fun x => x ≠ [])))

end Jieba.FinalSeg
