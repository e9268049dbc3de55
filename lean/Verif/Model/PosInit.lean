import Verif.Model.PosCalls
/-!
# jieba/posseg/__init__.py — `POSTokenizer.initialize()` while others segment, tag and change the dictionary

As `Model/PosCalls`, with calls of `initialize()` (without argument) of POS tokenizers in addition.  Simplifications: `initialize` of
the tokenizer is one step (exact if the tokenizer is initialised, as it does nothing then); the contents of the dictionary file are
obtained when it is opened; looking up the attribute `word_tag_tab` and storing an entry are one step.
-/

namespace Jieba.Pos.Steps
open Co Lazy

variable {F : Type} [LinearOrder F] {α : Type}

/-- jieba/posseg/__init__.py:100-109: the loop of `load_word_tag`.  Each assignment to the table is an access of its own. -/
def loadTagsL (k : Nat) : List Bytes → Co PWorld α Unit
  | [] => .ret ()
  | line :: ls => match tagLine line with
    | none => .raise .valueError
    | some none => loadTagsL k ls
    | some (some (word, tag)) => do
      .act (fun p => p.setPos k ⟨(p.pos k).tok, (p.pos k).tab.set word tag⟩) (fun _ => .ret ())
      loadTagsL k ls

/-- jieba/posseg/__init__.py:97-98: the table is emptied, then filled. -/
def loadWordTagL (k : Nat) (data : Bytes) : Co PWorld α Unit := do
  .act (fun p => p.setPos k ⟨(p.pos k).tok, []⟩) (fun _ => .ret ())
  loadTagsL k (fileLines data)

/-- jieba/posseg/__init__.py:93-95 `initialize()` -/
def initPosL (P : PSys F) (k : Nat) (io : Bool) : Co PWorld α Unit := do
  let t ← get (fun p => (p.pos k).tok)
  .act (fun p => { p with w := (initTok P.sys p.w t none io).1 }) (fun p => Co.lift (initTok P.sys p.w t none io).2)
  let t ← get (fun p => (p.pos k).tok)
  let r ← get (fun p => dictFile p.w (p.w.tok t).dictionary)
  let data ← Co.lift r
  loadWordTagL k data

/-- A call as in `Model/PosCalls`, or of `initialize` of POS tokenizer `k`. jieba/posseg/__init__.py:93. -/
inductive ICall where
  | call (c : PCall)
  | init (k : Nat)

/-- What the call does. jieba/posseg/__init__.py:93-110. -/
def ICall.prog (P : PSys F) (t : Nat) (io : Bool) : ICall → Co PWorld Yield (Option Int)
  | .call c => c.prog P t io
  | .init k => do
    initPosL P k io
    .ret none

/-- The process at the beginning: the calls are about to start. The process around the calls; there is no such code in the repository. -/
def PPool.startI (P : PSys F) (t : Nat) (io : Bool) (p : PWorld) (calls : List ICall) : PPool :=
  ⟨p, fun i => match calls[i]? with
    | some c => c.prog P t io
    | none => .ret none, fun _ => []⟩

end Jieba.Pos.Steps
