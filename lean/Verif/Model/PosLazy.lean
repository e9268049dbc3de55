import Verif.Model.Lazy
import Verif.Model.PosWorld
/-!
# The generators of jieba/posseg/__init__.py while the state is being changed

As `Model/Lazy` does for `Tokenizer`: `cut` of a `POSTokenizer` with an explicit access for each look at the tables.  The
functions mirror those of `Model/Posseg` and `Model/PosWorld`; `Proofs/PosLazy` shows that without interference they do the same.
`self.tokenizer` never changes after `__init__`, but is read where the code reads it.
-/

namespace Jieba
open Co

/-- A method of a tokenizer, run where there are POS tokenizers too. Not part of the code. -/
def Co.onWorld {α β : Type} : Co World α β → Co Pos.PWorld α β
  | .ret b => .ret b
  | .raise e => .raise e
  | .yield a k => .yield a k.onWorld
  | .act f k => .act (fun p => { p with w := f p.w }) (fun p => (k p.w).onWorld)

namespace Pos.Steps


variable {F : Type} [LinearOrder F] {α : Type}

/-- jieba/posseg/__init__.py:112-115 `makesure_userdict_loaded`: the test, the update and the assignment are accesses of their
own. -/
def moveTagsL (k : Nat) : Co PWorld α Unit := do
  if ← get (fun p => decide ((p.w.tok (p.pos k).tok).tags ≠ [])) then do
    .act (fun p => p.setPos k ⟨(p.pos k).tok, PyDict.update (p.pos k).tab (p.w.tok (p.pos k).tok).tags⟩) (fun _ => .ret ())
    .act (fun p => { p with w := p.w.setTok (p.pos k).tok { p.w.tok (p.pos k).tok with tags := [] } }) (fun _ => .ret ())
  else .ret ()

/-- `yield pair(w, self.word_tag_tab.get(w, 'x'))`; jieba/posseg/__init__.py:169, 192, 199, 201, 206, 213. -/
def yieldTagged (k : Nat) (w : Str) : Co PWorld Pair Unit := do
  let tag ← get (fun p => tagOf (p.pos k).tab w)
  Co.yieldAll [(w, tag)]

/-- `if buf: yield pair(buf, 'eng')`; jieba/posseg/__init__.py:166-167, 171-172. -/
def yieldEng (buf : Str) : Co PWorld Pair Unit := Co.yieldAll (if buf = [] then [] else [(buf, flagEng)])

/-- jieba/posseg/__init__.py:159-173: the loop of `__cut_DAG_NO_HMM`. -/
def noHmmLoopL (k : Nat) (s : Str) (route : List (F × Nat)) : Nat → Nat → Str → Co PWorld Pair Unit
  | 0, _, buf => yieldEng buf
  | fuel + 1, x, buf =>
    if x < s.length then
      match route[x]? with
      | none => .raise .keyError
      | some r =>
        let y := r.2 + 1
        let lWord := slice s x y
        if reEng1.isMatch lWord then noHmmLoopL k s route fuel y (buf ++ lWord)
        else do
          yieldEng buf
          yieldTagged k lWord
          noHmmLoopL k s route fuel y []
    else yieldEng buf

/-- jieba/posseg/__init__.py:198-200 and 212-213: `for elem in buf: yield pair(elem, ...)`. -/
def yieldChars (k : Nat) : Str → Co PWorld Pair Unit
  | [] => .ret ()
  | c :: cs => do
    yieldTagged k [c]
    yieldChars k cs

/-- What `__cut_detail` reads: nothing that changes. jieba/posseg/__init__.py:117-150. -/
def detailEnv (P : PSys F) : PEnv F := ⟨P.sys.A, [], 0, P.tables, [], P.σ⟩

/-- jieba/posseg/__init__.py:190-200 and 204-213 -/
def flushBufL (P : PSys F) (k : Nat) (buf : Str) : Co PWorld Pair Unit :=
  if buf = [] then .ret ()
  else if buf.length = 1 then yieldTagged k buf
  else do
    let freq ← get (fun p => (p.w.tok (p.pos k).tok).freq)
    if !Freq.truthy freq buf then ofGen (cutDetail (detailEnv P) buf) else yieldChars k buf

/-- jieba/posseg/__init__.py:184-213: the loop of `__cut_DAG`. -/
def dagCutLoopL (P : PSys F) (k : Nat) (s : Str) (route : List (F × Nat)) : Nat → Nat → Str → Co PWorld Pair Unit
  | 0, _, buf => flushBufL P k buf
  | fuel + 1, x, buf =>
    if x < s.length then
      match route[x]? with
      | none => .raise .keyError
      | some r =>
        let y := r.2 + 1
        let lWord := slice s x y
        if y - x = 1 then dagCutLoopL P k s route fuel y (buf ++ lWord)
        else do
          flushBufL P k buf
          yieldTagged k lWord
          dagCutLoopL P k s route fuel y []
    else flushBufL P k buf

/-- jieba/posseg/__init__.py:153-156 and 176-180: `get_DAG` and `calc` of the tokenizer. -/
def routeL (P : PSys F) (k : Nat) (io : Bool) (s : Str) : Co PWorld α (List (F × Nat)) := do
  let t ← get (fun p => (p.pos k).tok)
  let dag ← (Lazy.getDAGL P.sys t io s).onWorld
  let t ← get (fun p => (p.pos k).tok)
  (Lazy.calcRouteL P.sys t s dag).onWorld

/-- jieba/posseg/__init__.py:152-213 and 219-222 -/
def cutBlockL (P : PSys F) (k : Nat) (hmmFlag io : Bool) (blk : Str) : Co PWorld Pair Unit := do
  let route ← routeL P k io blk
  if hmmFlag then dagCutLoopL P k blk route blk.length 0 [] else noHmmLoopL k blk route blk.length 0 []

/-- jieba/posseg/__init__.py:224-240 -/
def cutBlocksL (P : PSys F) (k : Nat) (hmmFlag io : Bool) : List Str → Co PWorld Pair Unit
  | [] => .ret ()
  | blk :: blks => do
    if reHanInternal.isMatch blk then cutBlockL P k hmmFlag io blk else Co.yieldAll (cutSkip blk)
    cutBlocksL P k hmmFlag io blks

/-- jieba/posseg/__init__.py:215-250 `cut` -/
def cutL (P : PSys F) (k : Nat) (hmmFlag : Bool) (sentence : PyText) (io : Bool) : Co PWorld Pair Unit := do
  moveTagsL k
  cutBlocksL P k hmmFlag io (reHanInternal.split (strdecode P.sys.gbk sentence))

end Pos.Steps
end Jieba
