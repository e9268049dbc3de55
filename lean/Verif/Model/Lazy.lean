import Verif.Model.World
/-!
# Generators that run while the state they read is being changed

`cut` and friends are generators: between two `next()` calls the caller may change the dictionary, re-initialise the tokenizer
and so on, and with threads this can even happen between two accesses.  Here the generators of jieba/__init__.py are written as
programs with explicit accesses to the state of the process (`World`).  Two semantics are given: `drive` runs a generator
alone except that the caller changes the state arbitrarily after each yielded value; `Runs` lets the state be arbitrary at each
single access.

The functions mirror those of `Model/Tokenizer`; `Proofs/Lazy` shows that without interference they do the same.
-/

namespace Jieba

/-- A suspended Python function: it returns `b`, raises, yields `a` and goes on, or accesses the state `w`, which becomes `f w`,
and goes on as `k w`. -/
inductive Co (W α β : Type) where
  | ret (b : β)
  | raise (e : PyErr)
  | yield (a : α) (k : Co W α β)
  | act (f : W → W) (k : W → Co W α β)

namespace Co
variable {W α α' β γ σ : Type}

/-- One statement after another (Python itself, e.g. jieba/__init__.py:250-252). -/
def bind : Co W α β → (β → Co W α γ) → Co W α γ
  | .ret b, g => g b
  | .raise e, _ => .raise e
  | .yield a k, g => .yield a (bind k g)
  | .act f k, g => .act f (fun w => bind (k w) g)

instance : Monad (Co W α) where
  pure := .ret
  bind := bind

/-- One read access. E.g. jieba/__init__.py:177, 188, 189, 267. -/
def get (f : W → β) : Co W α β := .act id (fun w => .ret (f w))

/-- An expression that raises or has a value. E.g. jieba/__init__.py:175. -/
def lift : Except PyErr β → Co W α β
  | .error e => .raise e
  | .ok b => .ret b

/-- `for x in l: yield x`; E.g. jieba/__init__.py:269-270. -/
def yieldAll : List α → Co W α Unit
  | [] => .ret ()
  | a :: l => .yield a (yieldAll l)

/-- A generator that does not access the state. E.g. `finalseg.cut` of a list of characters, jieba/finalseg/__init__.py:85-100. -/
def ofGen (g : Gen α) : Co W α Unit := do
  yieldAll g.out
  match g.err with
  | some e => .raise e
  | none => .ret ()

/-- `for a in <generator>: body`, where `body` updates the local variables `s`. Python itself, used at jieba/__init__.py:343-354, 489-507. -/
def forIn : Co W α Unit → (α → σ → Co W α' σ) → σ → Co W α' σ
  | .ret _, _, s => .ret s
  | .raise e, _, _ => .raise e
  | .yield a k, body, s => bind (body a s) (fun s' => forIn k body s')
  | .act f k, body, s => .act f (fun w => forIn (k w) body s)

/-- Run to the end; after the `n`-th value has been yielded the caller changes the state with `μ n` (before calling `next()`
again).  The result: final state, values yielded, exception or returned value. The caller of jieba/__init__.py:289-354, 476-507; not part of the code. -/
def drive (μ : Nat → W → W) : Co W α β → Nat → W → W × List α × Except PyErr β
  | .ret b, _, w => (w, [], .ok b)
  | .raise e, _, w => (w, [], .error e)
  | .yield a k, n, w => let r := drive μ k (n + 1) (μ n w); (r.1, a :: r.2.1, r.2.2)
  | .act f k, n, w => drive μ (k w) n (f w)

/-- The possible runs if the state is arbitrary at each access (other threads may have done anything).
The caller of jieba/__init__.py:289-354, 476-507; not part of the code. -/
inductive Runs : Co W α β → List α → Except PyErr β → Prop
  | ret (b) : Runs (.ret b) [] (.ok b)
  | raise (e) : Runs (.raise e) [] (.error e)
  | yield (a k l r) : Runs k l r → Runs (.yield a k) (a :: l) r
  | act (f k w l r) : Runs (k w) l r → Runs (.act f k) l r

end Co

namespace Lazy
open Co

variable {F : Type} [LinearOrder F] {α : Type}

/-- jieba/__init__.py:188-192, each of `frag in self.FREQ` and `self.FREQ[frag]` being an access of its own. -/
def dagLoopL (t : Nat) (s : Str) (k : Nat) : Nat → Nat → Str → List Nat → Co World α (List Nat)
  | 0, _, _, acc => .ret acc
  | fuel + 1, i, frag, acc =>
    if i < s.length then do
      if ← get (fun w => PyDict.has (w.tok t).freq frag) then
        match ← get (fun w => PyDict.get? (w.tok t).freq frag) with
        | none => .raise .keyError
        | some v => dagLoopL t s k fuel (i + 1) (slice s k (i + 2)) (if v ≠ 0 then acc ++ [i] else acc)
      else .ret acc
    else .ret acc

/-- jieba/__init__.py:184-195 -/
def dagRowL (t : Nat) (s : Str) (k : Nat) : Co World α (List Nat) := do
  let tmplist ← dagLoopL t s k (s.length + 1) k (slice s k (k + 1)) []
  .ret (if tmplist = [] then [k] else tmplist)

/-- jieba/__init__.py:184-195: the loop over `k`. -/
def dagRowsL (t : Nat) (s : Str) : List Nat → Co World α (List (List Nat))
  | [] => .ret []
  | k :: ks => do
    let L ← dagRowL t s k
    let Ls ← dagRowsL t s ks
    .ret (L :: Ls)

/-- jieba/__init__.py:180-196 `get_DAG`; the initialisation by `check_initialized()`, which holds the lock, is one access. -/
def getDAGL (S : Sys F) (t : Nat) (io : Bool) (s : Str) : Co World α (List (List Nat)) :=
  .act (fun w => (checkInit S w t io).1) (fun w =>
    match (checkInit S w t io).2 with
    | .error e => .raise e
    | .ok () => dagRowsL t s (List.range s.length))

/-- jieba/__init__.py:177-178: the scores of the edges from `idx`. -/
def edgesL (S : Sys F) (t : Nat) (logtotal : F) (s : Str) (tail : List (F × Nat)) (idx : Nat) : List Nat → Co World α (List (F × Nat))
  | [] => .ret []
  | x :: xs => do
    let freq ← get (fun w => (w.tok t).freq)
    let c ← lift (edgeScore S.A freq logtotal s tail idx x)
    let cs ← edgesL S t logtotal s tail idx xs
    .ret (c :: cs)

/-- jieba/__init__.py:176-178 -/
def calcLoopL (S : Sys F) (t : Nat) (logtotal : F) (s : Str) (dag : List (List Nat)) : Nat → List (F × Nat) → Co World α (List (F × Nat))
  | 0, tail => .ret tail
  | idx + 1, tail =>
    match dag[idx]? with
    | none => .raise .keyError
    | some L => do
      let cands ← edgesL S t logtotal s tail idx L
      let best ← lift (maxTup cands)
      calcLoopL S t logtotal s dag idx (best :: tail)

/-- jieba/__init__.py:172-178 `calc` -/
def calcRouteL (S : Sys F) (t : Nat) (s : Str) (dag : List (List Nat)) : Co World α (List (F × Nat)) := do
  let total ← get (fun w => (w.tok t).total)
  let logtotal ← lift (S.A.pylog total)
  calcLoopL S t logtotal s dag s.length [(S.A.zero, 0)]

/-- jieba/__init__.py:198-224 `__cut_all`; the state is only accessed by `get_DAG`. -/
def cutAllL (S : Sys F) (t : Nat) (io : Bool) (s : Str) : Co World Str Unit := do
  let dag ← getDAGL S t io s
  yieldAll (cutAllLoop s ⟨-1, false, []⟩ 0 dag)

/-- jieba/__init__.py:226-247 `__cut_DAG_NO_HMM`; the loop does not access the state. -/
def cutDAGNoHMML (S : Sys F) (t : Nat) (io : Bool) (s : Str) : Co World Str Unit := do
  let dag ← getDAGL S t io s
  let route ← calcRouteL S t s dag
  ofGen (noHmmLoop s route s.length 0 [])

/-- jieba/finalseg/__init__.py:90-95: the words of one block of Han characters, with a look at `Force_Split_Words` for each. -/
def forceLoopL : List Str → Co World Str Unit
  | [] => .ret ()
  | word :: ws => do
    let force ← get (fun w => w.force)
    if word ∉ force then yieldAll [word] else yieldAll (word.map (fun c => [c]))
    forceLoopL ws

/-- jieba/finalseg/__init__.py:87-100 -/
def finalsegBlocksL (S : Sys F) : List Str → Co World Str Unit
  | [] => .ret ()
  | blk :: blks => do
    if reHan.isMatch blk then do
      let g := FinalSeg.hmmCut S.A S.tables blk
      forceLoopL g.out
      match g.err with
      | some e => .raise e
      | none => .ret ()
    else yieldAll ((reSkipFinal.split blk).filter (fun x => x ≠ []))
    finalsegBlocksL S blks

/-- jieba/finalseg/__init__.py:85-100 `cut` -/
def finalsegL (S : Sys F) (s : Str) : Co World Str Unit := finalsegBlocksL S (reHan.split s)

/-- jieba/__init__.py:262-274 and 278-287 -/
def flushBufL (S : Sys F) (t : Nat) (buf : Str) : Co World Str Unit :=
  if buf = [] then .ret ()
  else if buf.length = 1 then yieldAll [buf]
  else do
    let freq ← get (fun w => (w.tok t).freq)
    if !Freq.truthy freq buf then finalsegL S buf else yieldAll (buf.map (fun c => [c]))

/-- jieba/__init__.py:256-287 -/
def dagCutLoopL (S : Sys F) (t : Nat) (s : Str) (route : List (F × Nat)) : Nat → Nat → Str → Co World Str Unit
  | 0, _, buf => flushBufL S t buf
  | fuel + 1, x, buf =>
    if x < s.length then
      match route[x]? with
      | none => .raise .keyError
      | some r =>
        let y := r.2 + 1
        let lWord := slice s x y
        if y - x = 1 then dagCutLoopL S t s route fuel y (buf ++ lWord)
        else do
          flushBufL S t buf
          yieldAll [lWord]
          dagCutLoopL S t s route fuel y []
    else flushBufL S t buf

/-- jieba/__init__.py:249-287 `__cut_DAG` -/
def cutDAGL (S : Sys F) (t : Nat) (io : Bool) (s : Str) : Co World Str Unit := do
  let dag ← getDAGL S t io s
  let route ← calcRouteL S t s dag
  dagCutLoopL S t s route s.length 0 []

/-- jieba/__init__.py:314-319 -/
def cutBlockL (S : Sys F) (t : Nat) (cutAllFlag hmmFlag io : Bool) (blk : Str) : Co World Str Unit :=
  if cutAllFlag then cutAllL S t io blk
  else if hmmFlag then cutDAGL S t io blk
  else cutDAGNoHMML S t io blk

/-- jieba/__init__.py:321-336 -/
def cutBlocksL (S : Sys F) (t : Nat) (cutAllFlag hmmFlag io : Bool) : List Str → Co World Str Unit
  | [] => .ret ()
  | blk :: blks =>
    if blk = [] then cutBlocksL S t cutAllFlag hmmFlag io blks
    else do
      if reHanDefault.isMatch blk then cutBlockL S t cutAllFlag hmmFlag io blk
      else yieldAll (cutSkip cutAllFlag blk)
      cutBlocksL S t cutAllFlag hmmFlag io blks

/-- jieba/__init__.py:289-336 `cut` -/
def cutL (S : Sys F) (t : Nat) (cutAllFlag hmmFlag : Bool) (sentence : PyText) (io : Bool) : Co World Str Unit :=
  cutBlocksL S t cutAllFlag hmmFlag io (reHanDefault.split (strdecode S.gbk sentence))

/-- jieba/__init__.py:344-353: one of the loops over the `n`-grams of `w`; `f` makes the value to be yielded from position and
gram. -/
def gramsL (t : Nat) (n : Nat) (w : Str) (f : Nat → Str → α) : List Nat → Co World α Unit
  | [] => .ret ()
  | i :: is => do
    let freq ← get (fun w => (w.tok t).freq)
    if Freq.truthy freq (slice w i (i + n)) then yieldAll [f i (slice w i (i + n))]
    gramsL t n w f is

/-- jieba/__init__.py:338-354 `cut_for_search` -/
def cutForSearchL (S : Sys F) (t : Nat) (hmmFlag : Bool) (sentence : PyText) (io : Bool) : Co World Str Unit :=
  forIn (cutL S t false hmmFlag sentence io) (fun w (_ : Unit) => do
    if 2 < w.length then gramsL t 2 w (fun _ g => g) (List.range (w.length - 1))
    if 3 < w.length then gramsL t 3 w (fun _ g => g) (List.range (w.length - 2))
    yieldAll [w]) ()

/-- jieba/__init__.py:476-507 `tokenize`; any `mode` other than 'default' is search mode. -/
def tokenizeL (S : Sys F) (t : Nat) (search hmmFlag : Bool) (sentence : PyText) (io : Bool) : Co World (Str × Nat × Nat) Unit :=
  match sentence with
  | .bytes _ => .raise .valueError
  | .str s => do
    let _ ← forIn (cutL S t false hmmFlag (.str s) io) (fun w start => do
      if search then do
        if 2 < w.length then gramsL t 2 w (fun i g => (g, start + i, start + i + 2)) (List.range (w.length - 1))
        if 3 < w.length then gramsL t 3 w (fun i g => (g, start + i, start + i + 3)) (List.range (w.length - 2))
      yieldAll [(w, start, start + w.length)]
      return start + w.length) 0
    .ret ()

end Lazy
end Jieba
