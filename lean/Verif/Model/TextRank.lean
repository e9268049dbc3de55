import Verif.Model.Keywords
/-!
# jieba/analyse/textrank.py — keyword extraction with TextRank

`graph`, `ws` and `outSum` are `defaultdict`s in the code.  Reading a missing key of `ws` or `outSum` raises KeyError here; that
this never happens is proved (`Proofs/TextRank`), so the difference cannot be observed.
-/

namespace Jieba.Analyse
open Jieba Jieba.Pos

/-- Everything fixed: in addition to that of TF-IDF, the constant `d` (textrank.py:14) and `sys.float_info.max`/`.min`. -/
structure RSys (F : Type _) where
  k : KSys F
  d : F
  fmax : F
  fmin : F

/-- A `TextRank` object, textrank.py:59-63 (`pos_filt` is set anew by every call; in `Model/KeyCalls`, where calls overlap, it is an
attribute). -/
structure TextRank where
  pos : Nat
  stop : List Str
  span : Nat

/-- `UndirectWeightedGraph.graph`: the edges `(start, end, weight)` without `start`, which is the key. jieba/analyse/textrank.py:17. -/
abbrev Graph := PyDict Key (List (Key × Nat))

/-- `self.graph[start].append((start, end, weight))`; jieba/analyse/textrank.py:21, 22. -/
def addTo (g : Graph) (a b : Key) (w : Nat) : Graph := g.set a ((g.get? a).getD [] ++ [(b, w)])

/-- textrank.py:19-22 `addEdge` -/
def addEdge (g : Graph) (a b : Key) (w : Nat) : Graph := addTo (addTo g a b w) b a w

variable {F : Type _} [LinearOrder F]

/-- textrank.py:65-67 `pairfilter` -/
def pairfilter (K : KSys F) (allow stop : List Str) (wp : Pair) : Bool :=
  decide (wp.2 ∈ allow) && decide (2 ≤ (stripBy isSpace wp.1).length) && !decide (K.lower wp.1 ∈ stop)

/-- `cm[k] += 1`; jieba/analyse/textrank.py:93, 95. -/
def bump (cm : PyDict (Key × Key) Nat) (k : Key × Key) : PyDict (Key × Key) Nat := cm.set k ((cm.get? k).getD 0 + 1)

/-- textrank.py:85-95: the counts of pairs of accepted words fewer than `span` positions apart; `mk` is what is counted. -/
def cooccur (f : Pair → Bool) (mk : Pair → Key) (span : Nat) : List Pair → PyDict (Key × Key) Nat → PyDict (Key × Key) Nat
  | [], cm => cm
  | wp :: rest, cm =>
    cooccur f mk span rest
      (if f wp then (rest.take (span - 1)).foldl (fun cm wj => if f wj then bump cm (mk wp, mk wj) else cm) cm else cm)

/-- textrank.py:97-98 -/
def buildGraph (cm : PyDict (Key × Key) Nat) : Graph := cm.foldl (fun g e => addEdge g e.1.1 e.1.2 e.2) []

/-- textrank.py:31 `sum((e[2] for e in out), 0.0)` -/
def sumOut (A : Arith F) (es : List (Key × Nat)) : F := es.foldl (fun s e => A.add s (A.ofInt e.2)) A.zero

/-- textrank.py:37-39 -/
def edgeSum (A : Arith F) (outSum ws : PyDict Key F) : List (Key × Nat) → F → Except PyErr F
  | [], s => .ok s
  | (b, w) :: es, s => match getItem outSum b with
    | .error e => .error e
    | .ok o => match pyDiv A (A.ofInt w) o with
      | .error e => .error e
      | .ok q => match getItem ws b with
        | .error e => .error e
        | .ok x => edgeSum A outSum ws es (A.add s (A.mul q x))

/-- textrank.py:36-40: one iteration -/
def sweep (R : RSys F) (g : Graph) (outSum : PyDict Key F) : List Key → PyDict Key F → Except PyErr (PyDict Key F)
  | [], ws => .ok ws
  | n :: ns, ws => match getItem g n with
    | .error e => .error e
    | .ok es => match edgeSum R.k.pos.sys.A outSum ws es R.k.pos.sys.A.zero with
      | .error e => .error e
      | .ok s => sweep R g outSum ns
          (ws.set n (R.k.pos.sys.A.add (R.k.pos.sys.A.sub (R.k.pos.sys.A.ofInt 1) R.d) (R.k.pos.sys.A.mul R.d s)))

/-- textrank.py:35-40: `k` iterations -/
def sweeps (R : RSys F) (g : Graph) (outSum : PyDict Key F) (keys : List Key) : Nat → PyDict Key F → Except PyErr (PyDict Key F)
  | 0, ws => .ok ws
  | k + 1, ws => match sweep R g outSum keys ws with
    | .error e => .error e
    | .ok ws => sweeps R g outSum keys k ws

/-- textrank.py:42-48 -/
def minMax (R : RSys F) (vs : List F) : F × F :=
  vs.foldl (fun m w => (if w < m.1 then w else m.1, if m.2 < w then w else m.2)) (R.fmax, R.fmin)

/-- textrank.py:50-52 -/
def normalise (A : Arith F) (mn mx : F) : PyDict Key F → Except PyErr (PyDict Key F)
  | [] => .ok []
  | (n, w) :: ws => match pyDiv A mn (A.ofInt 10) with
    | .error e => .error e
    | .ok m => match pyDiv A (A.sub w m) (A.sub mx m) with
      | .error e => .error e
      | .ok q => match normalise A mn mx ws with
        | .error e => .error e
        | .ok ws => .ok ((n, q) :: ws)

/-- textrank.py:34: `sorted` compares words, or pairs by their words (jieba/posseg/__init__.py:65-66). -/
def sortedKeys (g : Graph) : List Key := sortBy (fun a b => !strLt b.text a.text) g.keys

/-- textrank.py:24-54 `rank` -/
def rank (R : RSys F) (g : Graph) : Except PyErr (PyDict Key F) :=
  let A := R.k.pos.sys.A
  match pyDiv A (A.ofInt 1) (if g.length = 0 then A.ofInt 1 else A.ofInt g.length) with
  | .error e => .error e
  | .ok wsdef =>
    match sweeps R g (g.map (fun e => (e.1, sumOut A e.2))) (sortedKeys g) 10 (g.map (fun e => (e.1, wsdef))) with
    | .error e => .error e
    | .ok ws =>
      let m := minMax R ws.values
      normalise A m.1 m.2 ws

/-- What textrank.py:92-95 counts. -/
def nodeOf (allow : List Str) (withFlag : Bool) (wp : Pair) : Key :=
  if allow ≠ [] ∧ withFlag = true then .pair wp.1 wp.2 else .word wp.1

/-- textrank.py:69-108 `textrank` -/
def textrank (R : RSys F) (p : PWorld) (x : TextRank) (sentence : PyText) (topK : Option Int) (withWeight : Bool)
    (allow : List Str) (withFlag io : Bool) : PWorld × Except PyErr (List (Key × Option F)) :=
  let r := cutPW R.k.pos p x.pos true sentence io
  (r.1, match r.2.err with
    | some e => .error e
    | none =>
      match rank R (buildGraph (cooccur (pairfilter R.k allow x.stop) (nodeOf allow withFlag) x.span r.2.out [])) with
      | .error e => .error e
      | .ok ws => (rankTags ws withWeight).map (topOf topK))

end Jieba.Analyse
