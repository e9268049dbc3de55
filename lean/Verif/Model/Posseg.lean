import Verif.Model.Parallel
import Verif.Model.PosViterbi
/-!
# jieba/posseg/__init__.py — segmentation with part-of-speech tags

With an initialised tokenizer; the state of `POSTokenizer` objects is in `Model/PosWorld`.
-/

namespace Jieba.Pos

/-- `pair(word, flag)`; jieba/posseg/__init__.py:44-48. -/
abbrev Pair := Str × Str

/-- The letters 'B', 'E', 'S'. jieba/posseg/__init__.py:124, 126, 129. -/
def chB : Ch := 0x42
/-- 'E' (jieba/posseg/__init__.py:126). -/
def chE : Ch := 0x45
/-- 'S' (jieba/posseg/__init__.py:129). -/
def chS : Ch := 0x53
/-- 'M' (the tables of jieba/posseg/__init__.py:38-41). -/
def chM : Ch := 0x4D

/-- The flags 'x', 'm', 'eng'. jieba/posseg/__init__.py:145-150, 232-240. -/
def flagX : Str := [0x78]
/-- 'm' (jieba/posseg/__init__.py:146, 236). -/
def flagM : Str := [0x6D]
/-- 'eng' (jieba/posseg/__init__.py:148, 167, 172, 238). -/
def flagEng : Str := [0x65, 0x6E, 0x67]

variable {F : Type _} [LinearOrder F]

/-- What a call of `posseg.cut` reads: the dictionary of the tokenizer, the tags of words, the tables of the HMM and the
iteration order of sets (in the Viterbi run for a given text, at a given time). jieba/posseg/__init__.py:117-240. -/
structure PEnv (F : Type _) where
  A : Arith F
  freq : Freq
  total : Int
  tables : Tables F
  /-- `word_tag_tab` -/
  tab : PyDict Str Str
  σ : Str → Nat → List PState → List PState

/-- jieba/posseg/__init__.py:120-133: the loop of `__cut`; `pos` is `pos_list`, the list argument pairs the remaining
characters with their states. -/
def cutLoop (sent : Str) (pos : List PState) : List (Ch × PState) → Nat → Nat → Nat → Gen Pair
  | [], _, _, nexti =>
    if nexti < sent.length then
      match pos[nexti]? with
      | none => Gen.raise .indexError
      | some p => Gen.ok [(sent.drop nexti, p.2)]
    else Gen.ok []
  | (c, p) :: rest, i, begin, nexti =>
    if p.1 = chB then cutLoop sent pos rest (i + 1) i nexti
    else if p.1 = chE then
      Gen.andThen (Gen.ok [(slice sent begin (i + 1), p.2)]) (cutLoop sent pos rest (i + 1) begin (i + 1))
    else if p.1 = chS then
      Gen.andThen (Gen.ok [([c], p.2)]) (cutLoop sent pos rest (i + 1) begin (i + 1))
    else cutLoop sent pos rest (i + 1) begin nexti

/-- jieba/posseg/__init__.py:117-133 `__cut` -/
def hmmCut (E : PEnv F) (sent : Str) : Gen Pair :=
  Gen.ofExcept (viterbi E.A E.tables (E.σ sent) sent) (fun r => cutLoop sent r.2 (sent.zip r.2) 0 0 0)

/-- jieba/posseg/__init__.py:143-150: a piece without Han characters. -/
def skipPair (x : Str) : Pair :=
  if reNum.isMatch x then (x, flagM) else if reEngPos.isMatch x then (x, flagEng) else (x, flagX)

/-- jieba/posseg/__init__.py:135-150 `__cut_detail` -/
def cutDetail (E : PEnv F) (sent : Str) : Gen Pair :=
  Gen.forEach (reHan.split sent) (fun blk =>
    if reHan.isMatch blk then hmmCut E blk
    else Gen.ok (((reSkipDetail.split blk).filter (fun x => x ≠ [])).map skipPair))

/-- `self.word_tag_tab.get(w, 'x')`; jieba/posseg/__init__.py:169, 192, 199, 201, 206, 213. -/
def tagOf (tab : PyDict Str Str) (w : Str) : Str := (tab.get? w).getD flagX

/-- jieba/posseg/__init__.py:159-173: the loop of `__cut_DAG_NO_HMM`. -/
def noHmmLoop (tab : PyDict Str Str) (s : Str) (route : List (F × Nat)) : Nat → Nat → Str → Gen Pair
  | 0, _, buf => Gen.ok (if buf = [] then [] else [(buf, flagEng)])
  | fuel + 1, x, buf =>
    if x < s.length then
      match route[x]? with
      | none => Gen.raise .keyError
      | some r =>
        let y := r.2 + 1
        let lWord := slice s x y
        if reEng1.isMatch lWord then
          noHmmLoop tab s route fuel y (buf ++ lWord)
        else
          Gen.andThen (Gen.ok ((if buf = [] then [] else [(buf, flagEng)]) ++ [(lWord, tagOf tab lWord)]))
            (noHmmLoop tab s route fuel y [])
    else Gen.ok (if buf = [] then [] else [(buf, flagEng)])

/-- jieba/posseg/__init__.py:152-173 `__cut_DAG_NO_HMM` -/
def cutDAGNoHMM (E : PEnv F) (s : Str) : Gen Pair :=
  Gen.ofExcept (calcRoute E.A E.freq E.total s (getDAG E.freq s)) (fun route => noHmmLoop E.tab s route s.length 0 [])

/-- jieba/posseg/__init__.py:190-200 and 204-213: what is yielded for a pending `buf`. -/
def flushBuf (E : PEnv F) (buf : Str) : Gen Pair :=
  if buf = [] then Gen.ok []
  else if buf.length = 1 then Gen.ok [(buf, tagOf E.tab buf)]
  else if !E.freq.truthy buf then cutDetail E buf
  else Gen.ok (buf.map (fun c => ([c], tagOf E.tab [c])))

/-- jieba/posseg/__init__.py:184-213: the loop of `__cut_DAG`. -/
def dagCutLoop (E : PEnv F) (s : Str) (route : List (F × Nat)) : Nat → Nat → Str → Gen Pair
  | 0, _, buf => flushBuf E buf
  | fuel + 1, x, buf =>
    if x < s.length then
      match route[x]? with
      | none => Gen.raise .keyError
      | some r =>
        let y := r.2 + 1
        let lWord := slice s x y
        if y - x = 1 then
          dagCutLoop E s route fuel y (buf ++ lWord)
        else
          Gen.andThen (flushBuf E buf)
            (Gen.andThen (Gen.ok [(lWord, tagOf E.tab lWord)]) (dagCutLoop E s route fuel y []))
    else flushBuf E buf

/-- jieba/posseg/__init__.py:175-213 `__cut_DAG` -/
def cutDAG (E : PEnv F) (s : Str) : Gen Pair :=
  Gen.ofExcept (calcRoute E.A E.freq E.total s (getDAG E.freq s)) (fun route => dagCutLoop E s route s.length 0 [])

/-- jieba/posseg/__init__.py:219-222 -/
def cutBlock (E : PEnv F) (hmmFlag : Bool) (blk : Str) : Gen Pair :=
  if hmmFlag then cutDAG E blk else cutDAGNoHMM E blk

/-- jieba/posseg/__init__.py:228-240: a block without word characters (`re_eng` is matched against the whole piece). -/
def cutSkip (blk : Str) : List Pair :=
  (reSkipDefault.split blk).flatMap (fun x =>
    if reSkipDefault.isMatch x then [(x, flagX)]
    else x.map (fun xx =>
      if reNum.isMatch [xx] then ([xx], flagM)
      else if reEngPos.isMatch x then ([xx], flagEng)
      else ([xx], flagX)))

/-- jieba/posseg/__init__.py:215-240 `__cut_internal` after `makesure_userdict_loaded`, on decoded text; also `cut` (248-250)
and, collected into a list, `_lcut_internal`, `_lcut_internal_no_hmm` and `lcut`. -/
def cut (E : PEnv F) (hmmFlag : Bool) (sentence : Str) : Gen Pair :=
  Gen.forEach (reHanInternal.split sentence) (fun blk =>
    if reHanInternal.isMatch blk then cutBlock E hmmFlag blk
    else Gen.ok (cutSkip blk))

/-- jieba/posseg/__init__.py:293-304: `cut` of the module with a pool of workers holding `E`; `g` is a possible outcome. -/
def PCut (E : PEnv F) (hmmFlag : Bool) (s : Str) (g : Gen Pair) : Prop :=
  ∃ r, PoolMap (fun part => (cut E hmmFlag part).toList) (splitlinesKeep s) r ∧ g = yieldAll r

end Jieba.Pos
