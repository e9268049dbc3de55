import Verif.Model.FinalSeg
/-!
# jieba/__init__.py — segmentation with an initialised dictionary
-/

namespace Jieba

/-- `Tokenizer.FREQ`; jieba/__init__.py:61. -/
abbrev Freq := PyDict Str Int

/-- `FREQ.get(w)` is truthy (present and not 0). jieba/__init__.py:189, 267, 281, 347, 352, 499, 504. -/
def Freq.truthy (f : Freq) (w : Str) : Bool :=
  match f.get? w with
  | some v => v != 0
  | none => false

/-! ## get_DAG -/

/-- jieba/__init__.py:188-192: the `while` loop for one start `k` (`fuel` bounds the iterations; `N+1` suffices). -/
def dagLoop (freq : Freq) (s : Str) (k : Nat) : Nat → Nat → Str → List Nat → List Nat
  | 0, _, _, acc => acc
  | fuel + 1, i, frag, acc =>
    if i < s.length ∧ freq.has frag = true then
      dagLoop freq s k fuel (i + 1) (slice s k (i + 2)) (if freq.truthy frag then acc ++ [i] else acc)
    else acc

/-- jieba/__init__.py:184-195: the entry `DAG[k]`. -/
def dagRow (freq : Freq) (s : Str) (k : Nat) : List Nat :=
  let tmplist := dagLoop freq s k (s.length + 1) k (slice s k (k + 1)) []
  if tmplist = [] then [k] else tmplist

/-- jieba/__init__.py:180-196 `get_DAG` after `check_initialized()`; the dict with keys `0..N-1` (inserted in that
order) is a list. -/
def getDAG (freq : Freq) (s : Str) : List (List Nat) := (List.range s.length).map (dagRow freq s)

/-! ## calc -/

variable {F : Type _} [LinearOrder F]

/-- `FREQ.get(w) or 1`, jieba/__init__.py:177. -/
def freqOr1 (freq : Freq) (w : Str) : Int :=
  match freq.get? w with
  | some v => if v = 0 then 1 else v
  | none => 1

/-- jieba/__init__.py:177-178: the score of the edge from `idx` to `x`.  `tail` holds `route[idx+1..N]`. -/
def edgeScore (A : Arith F) (freq : Freq) (logtotal : F) (s : Str) (tail : List (F × Nat)) (idx x : Nat) :
    Except PyErr (F × Nat) := do
  let w := slice s idx (x + 1)
  let lf ← A.pylog (freqOr1 freq w)
  if x < idx then .error .keyError
  else match tail[x - idx]? with
    | none => .error .keyError
    | some r => .ok (A.add (A.sub lf logtotal) r.1, x)

/-- `max(<generator>)` on tuples `(float, int)`; ValueError on an empty sequence. Python itself, used at jieba/__init__.py:177. -/
def maxTup : List (F × Nat) → Except PyErr (F × Nat)
  | [] => .error .valueError
  | x :: xs => .ok (pyMax (tupLt (fun a b => decide (a < b))) x xs)

/-- jieba/__init__.py:176-178: the loop `for idx in xrange(N-1, -1, -1)`; argument `n` is the number of positions still
to do, so `idx = n-1`; `tail` holds `route[n..N]`. -/
def calcLoop (A : Arith F) (freq : Freq) (logtotal : F) (s : Str) (dag : List (List Nat)) :
    Nat → List (F × Nat) → Except PyErr (List (F × Nat))
  | 0, tail => .ok tail
  | idx + 1, tail =>
    match dag[idx]? with
    | none => .error .keyError
    | some L => do
      let cands ← L.mapM (edgeScore A freq logtotal s tail idx)
      let best ← maxTup cands
      calcLoop A freq logtotal s dag idx (best :: tail)

/-- jieba/__init__.py:172-178 `calc`: the filled `route`, index = position, `route[N] = (0, 0)`. -/
def calcRoute (A : Arith F) (freq : Freq) (total : Int) (s : Str) (dag : List (List Nat)) :
    Except PyErr (List (F × Nat)) := do
  let logtotal ← A.pylog total
  calcLoop A freq logtotal s dag s.length [(A.zero, 0)]

/-! ## The block cutters -/

/-- State of the loop in `__cut_all`. jieba/__init__.py:200-202. -/
structure AllState where
  oldJ : Int
  engScan : Bool
  engBuf : Str
  deriving DecidableEq

/-- jieba/__init__.py:203-222: one iteration of the loop of `__cut_all`; yields and new state.
`sentence[k]` is the one-character string `slice s k (k+1)`. -/
def cutAllStep (s : Str) (st : AllState) (k : Nat) (L : List Nat) : List Str × AllState :=
  let flush := st.engScan && !(reEng.isMatch (slice s k (k + 1)))
  let out1 := if flush then [st.engBuf] else []
  let st := if flush then { st with engScan := false } else st
  match L with
  | [j] =>
    if st.oldJ < (k : Int) then
      let word := slice s k (j + 1)
      let st := if reEng.isMatch word then
          (if st.engScan then { st with engBuf := st.engBuf ++ word }
           else { st with engScan := true, engBuf := word })
        else st
      (out1 ++ (if st.engScan then [] else [word]), { st with oldJ := j })
    else
      (out1 ++ (if k < j then [slice s k (j + 1)] else []), if k < j then { st with oldJ := j } else st)
  | L =>
    (out1 ++ (L.filter (fun j => k < j)).map (fun j => slice s k (j + 1)),
     (L.filter (fun j => k < j)).foldl (fun st (j : Nat) => { st with oldJ := (j : Int) }) st)

/-- jieba/__init__.py:203-224: the loop of `__cut_all` over `iteritems(dag)` starting at key `k`. -/
def cutAllLoop (s : Str) : AllState → Nat → List (List Nat) → List Str
  | st, _, [] => if st.engScan then [st.engBuf] else []
  | st, k, L :: dag => (cutAllStep s st k L).1 ++ cutAllLoop s (cutAllStep s st k L).2 (k + 1) dag

/-- jieba/__init__.py:198-224 `__cut_all`. -/
def cutAll (freq : Freq) (s : Str) : Gen Str :=
  Gen.ok (cutAllLoop s ⟨-1, false, []⟩ 0 (getDAG freq s))

/-- jieba/__init__.py:233-247: the loop of `__cut_DAG_NO_HMM`; `fuel` bounds the iterations (`N` suffice since `x`
increases). -/
def noHmmLoop (s : Str) (route : List (F × Nat)) : Nat → Nat → Str → Gen Str
  | 0, _, buf => Gen.ok (if buf = [] then [] else [buf])
  | fuel + 1, x, buf =>
    if x < s.length then
      match route[x]? with
      | none => Gen.raise .keyError
      | some r =>
        let y := r.2 + 1
        let lWord := slice s x y
        if reEng.isMatch lWord && lWord.length == 1 then
          noHmmLoop s route fuel y (buf ++ lWord)
        else
          Gen.andThen (Gen.ok ((if buf = [] then [] else [buf]) ++ [lWord])) (noHmmLoop s route fuel y [])
    else Gen.ok (if buf = [] then [] else [buf])

/-- jieba/__init__.py:226-247 `__cut_DAG_NO_HMM`. -/
def cutDAGNoHMM (A : Arith F) (freq : Freq) (total : Int) (s : Str) : Gen Str :=
  Gen.ofExcept (calcRoute A freq total s (getDAG freq s)) (fun route => noHmmLoop s route s.length 0 [])

/-- jieba/__init__.py:262-274 and 278-287: what is yielded for a pending `buf`.  `hmm` is `finalseg.cut`. -/
def flushBuf (freq : Freq) (hmm : Str → Gen Str) (buf : Str) : Gen Str :=
  if buf = [] then Gen.ok []
  else if buf.length = 1 then Gen.ok [buf]
  else if !freq.truthy buf then hmm buf
  else Gen.ok (buf.map (fun c => [c]))

/-- jieba/__init__.py:256-287: the loop of `__cut_DAG`. -/
def dagCutLoop (freq : Freq) (hmm : Str → Gen Str) (s : Str) (route : List (F × Nat)) : Nat → Nat → Str → Gen Str
  | 0, _, buf => flushBuf freq hmm buf
  | fuel + 1, x, buf =>
    if x < s.length then
      match route[x]? with
      | none => Gen.raise .keyError
      | some r =>
        let y := r.2 + 1
        let lWord := slice s x y
        if y - x = 1 then
          dagCutLoop freq hmm s route fuel y (buf ++ lWord)
        else
          Gen.andThen (flushBuf freq hmm buf)
            (Gen.andThen (Gen.ok [lWord]) (dagCutLoop freq hmm s route fuel y []))
    else flushBuf freq hmm buf

/-- jieba/__init__.py:249-287 `__cut_DAG`. -/
def cutDAG (A : Arith F) (freq : Freq) (total : Int) (hmm : Str → Gen Str) (s : Str) : Gen Str :=
  Gen.ofExcept (calcRoute A freq total s (getDAG freq s)) (fun route => dagCutLoop freq hmm s route s.length 0 [])

/-! ## cut, cut_for_search, tokenize -/

/-- Everything a call of `cut` reads: the dictionary, the HMM tables and the force-split set. jieba/__init__.py:172-336. -/
structure Env (F : Type _) where
  A : Arith F
  freq : Freq
  total : Int
  tables : FinalSeg.Tables F
  force : List Str

/-- `finalseg.cut` as seen by `__cut_DAG`. jieba/__init__.py:268, 282. -/
def Env.hmm (E : Env F) (s : Str) : Gen Str := FinalSeg.cut E.A E.tables E.force s

/-- jieba/__init__.py:314-319: choice of `cut_block`. -/
def cutBlock (E : Env F) (cutAllFlag hmmFlag : Bool) (blk : Str) : Gen Str :=
  if cutAllFlag then cutAll E.freq blk
  else if hmmFlag then cutDAG E.A E.freq E.total E.hmm blk
  else cutDAGNoHMM E.A E.freq E.total blk

/-- jieba/__init__.py:328-336: a block without word characters. -/
def cutSkip (cutAllFlag : Bool) (blk : Str) : List Str :=
  (reSkipDefault.split blk).flatMap (fun x =>
    if reSkipDefault.isMatch x then [x]
    else if !cutAllFlag then x.map (fun c => [c])
    else [x])

/-- jieba/__init__.py:289-336 `cut` on decoded text, without paddle (lines 301-311 are modelled in `Model/Paddle`). -/
def cut (E : Env F) (cutAllFlag hmmFlag : Bool) (sentence : Str) : Gen Str :=
  Gen.forEach (reHanDefault.split sentence) (fun blk =>
    if blk = [] then Gen.ok []
    else if reHanDefault.isMatch blk then cutBlock E cutAllFlag hmmFlag blk
    else Gen.ok (cutSkip cutAllFlag blk))

/-- `w[i:i+n] for i in xrange(len(w)-(n-1)) if FREQ.get(w[i:i+n])`, jieba/__init__.py:344-353. -/
def grams (freq : Freq) (n : Nat) (w : Str) : List Str :=
  if n < w.length then
    ((List.range (w.length - (n - 1))).map (fun i => slice w i (i + n))).filter (fun g => freq.truthy g)
  else []

/-- jieba/__init__.py:338-354 `cut_for_search`. -/
def cutForSearch (E : Env F) (hmmFlag : Bool) (sentence : Str) : Gen Str :=
  (cut E false hmmFlag sentence).mapOut (fun w => grams E.freq 2 w ++ grams E.freq 3 w ++ [w])

/-- The inner loops of `tokenize` in search mode, jieba/__init__.py:496-505. -/
def gramSpans (freq : Freq) (n : Nat) (w : Str) (start : Nat) : List (Str × Nat × Nat) :=
  if n < w.length then
    ((List.range (w.length - (n - 1))).filter (fun i => freq.truthy (slice w i (i + n)))).map
      (fun i => (slice w i (i + n), start + i, start + i + n))
  else []

/-- jieba/__init__.py:487-507: the loops of `tokenize` with the running `start`. -/
def tokenizeLoop (freq : Freq) (search : Bool) : List Str → Nat → List (Str × Nat × Nat)
  | [], _ => []
  | w :: ws, start =>
    (if search then gramSpans freq 2 w start ++ gramSpans freq 3 w start else []) ++
      (w, start, start + w.length) :: tokenizeLoop freq search ws (start + w.length)

/-- jieba/__init__.py:476-507 `tokenize` (for `str` input; any `mode` other than 'default' is search mode). -/
def tokenize (E : Env F) (search hmmFlag : Bool) (sentence : Str) : Gen (Str × Nat × Nat) :=
  let g := cut E false hmmFlag sentence
  ⟨tokenizeLoop E.freq search g.out 0, g.err⟩

end Jieba
