import Verif.Model.Posseg
import Verif.Model.World
/-!
# jieba/posseg/__init__.py — `POSTokenizer` objects

Each belongs to one tokenizer of the `World`; several may share a tokenizer.
-/

namespace Jieba.Pos
open Jieba

/-- Everything fixed: that of the tokenizers, the tables of the tagger and the iteration order of sets. jieba/posseg/__init__.py:38-41. -/
structure PSys (F : Type _) where
  sys : Sys F
  tables : Tables F
  σ : Str → Nat → List PState → List PState

/-- The attributes of a `POSTokenizer`, jieba/posseg/__init__.py:80-82. -/
structure PosTok where
  /-- index of `self.tokenizer` -/
  tok : Nat
  /-- `self.word_tag_tab` -/
  tab : PyDict Str Str

/-- All tokenizers and all POS tokenizers. The process around the calls; there is no such code in the repository. -/
structure PWorld where
  w : World
  pos : Nat → PosTok

/-- The attributes of POS tokenizer `k` become `x` (jieba/posseg/__init__.py:81, 98, 106, 114). -/
def PWorld.setPos (p : PWorld) (k : Nat) (x : PosTok) : PWorld := { p with pos := fun j => if j = k then x else p.pos j }

/-- jieba/posseg/__init__.py:102-109: one line of a dictionary file: `none` is ValueError, `some none` a blank line. -/
def tagLine (line : Bytes) : Option (Option (Str × Str)) :=
  match utf8Decode (stripBy isByteSpace line) with
  | none => none
  | some [] => some none
  | some line => match splitOn1 0x20 line with
    | [word, _, tag] => some (some (word, tag))
    | _ => none

/-- jieba/posseg/__init__.py:100-109: the loop of `load_word_tag`; with the table at the point where it stops. -/
def loadTagsLoop : List Bytes → PyDict Str Str → PyDict Str Str × Except PyErr Unit
  | [], d => (d, .ok ())
  | line :: ls, d => match tagLine line with
    | none => (d, .error .valueError)
    | some none => loadTagsLoop ls d
    | some (some (word, tag)) => loadTagsLoop ls (d.set word tag)

/-- jieba/posseg/__init__.py:97-110 `load_word_tag` on the contents of the file. -/
def loadTags (data : Bytes) : PyDict Str Str × Except PyErr Unit := loadTagsLoop (fileLines data) []

variable {F : Type _} [LinearOrder F]

/-- jieba/posseg/__init__.py:80-82 `POSTokenizer(tokenizer)`, stored at index `k` if it returns. -/
def newPos (p : PWorld) (k t : Nat) : PWorld × Except PyErr Unit :=
  match dictFile p.w (p.w.tok t).dictionary with
  | .error e => (p, .error e)
  | .ok data => match loadTags data with
    | (_, .error e) => (p, .error e)
    | (tab, .ok ()) => (p.setPos k ⟨t, tab⟩, .ok ())

/-- jieba/posseg/__init__.py:93-95 `initialize`.  `get_dict_file` comes before `self.word_tag_tab = {}`. -/
def initPos (P : PSys F) (p : PWorld) (k : Nat) (dictionary : Option Path) (io : Bool) : PWorld × Except PyErr Unit :=
  match initTok P.sys p.w (p.pos k).tok dictionary io with
  | (w, .error e) => ({ p with w := w }, .error e)
  | (w, .ok ()) =>
    match dictFile w (w.tok (p.pos k).tok).dictionary with
    | .error e => ({ p with w := w }, .error e)
    | .ok data =>
      let r := loadTags data
      (({ p with w := w } : PWorld).setPos k ⟨(p.pos k).tok, r.1⟩, r.2)

/-- jieba/posseg/__init__.py:112-115 `makesure_userdict_loaded` -/
def moveTags (p : PWorld) (k : Nat) : PWorld :=
  let t := (p.pos k).tok
  if (p.w.tok t).tags = [] then p
  else ({ p with w := p.w.setTok t { p.w.tok t with tags := [] } } : PWorld).setPos k
    ⟨t, PyDict.update (p.pos k).tab (p.w.tok t).tags⟩

/-- What `cut` of POS tokenizer `k` reads. jieba/posseg/__init__.py:117-240. -/
def PWorld.env (P : PSys F) (p : PWorld) (k : Nat) : PEnv F where
  A := P.sys.A
  freq := (p.w.tok (p.pos k).tok).freq
  total := (p.w.tok (p.pos k).tok).total
  tables := P.tables
  tab := (p.pos k).tab
  σ := P.σ

/-- jieba/posseg/__init__.py:224-240 with the `check_initialized()` of `get_DAG`. -/
def cutBlocksPW (P : PSys F) (k : Nat) (hmmFlag io : Bool) : PWorld → List Str → PWorld × Gen Pair
  | p, [] => (p, Gen.ok [])
  | p, blk :: blks =>
    if reHanInternal.isMatch blk then
      match checkInit P.sys p.w (p.pos k).tok io with
      | (w, .error e) => ({ p with w := w }, Gen.raise e)
      | (w, .ok ()) =>
        let p : PWorld := { p with w := w }
        let g := cutBlock (p.env P k) hmmFlag blk
        match g.err with
        | some e => (p, ⟨g.out, some e⟩)
        | none =>
          let r := cutBlocksPW P k hmmFlag io p blks
          (r.1, Gen.andThen g r.2)
    else
      let r := cutBlocksPW P k hmmFlag io p blks
      (r.1, Gen.andThen (Gen.ok (cutSkip blk)) r.2)

/-- jieba/posseg/__init__.py:215-250 `cut` of a POS tokenizer. -/
def cutPW (P : PSys F) (p : PWorld) (k : Nat) (hmmFlag : Bool) (sentence : PyText) (io : Bool) : PWorld × Gen Pair :=
  cutBlocksPW P k hmmFlag io (moveTags p k) (reHanInternal.split (strdecode P.sys.gbk sentence))

/-- What can happen. jieba/posseg/__init__.py:80, 93, 248. -/
inductive POp where
  | op (o : Op)
  | new (k t : Nat)
  | init (k : Nat) (dictionary : Option Path) (io : Bool)
  | cut (k : Nat) (hmmFlag : Bool) (sentence : PyText) (io : Bool)

/-- The effect of a call (jieba/posseg/__init__.py:80-110, 248-250); the caller catches exceptions. -/
def POp.run (P : PSys F) (p : PWorld) : POp → PWorld
  | .op o => { p with w := o.run P.sys p.w }
  | .new k t => (newPos p k t).1
  | .init k d io => (initPos P p k d io).1
  | .cut k hm s io => (cutPW P p k hm s io).1

/-- The effect of calls one after another (jieba/posseg/__init__.py:80-110, 248-250). -/
def runPOps (P : PSys F) (p : PWorld) (ops : List POp) : PWorld := ops.foldl (POp.run P) p

end Jieba.Pos
