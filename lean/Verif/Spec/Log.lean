import Verif.Model.Logging
/-!
# What the log of an initialisation tells
-/

namespace Jieba.Spec
open Jieba

variable {F : Type}

/-- What an `initialize` that starts working in the state `w`, with the dictionary `a`, says, and what it means. -/
structure LogMeans (S : Sys F) (w : World) (t : Nat) (a : Option Path) (io : Bool) (r : Res Unit) (log : List Msg) : Prop where
  /-- The messages come in this order, each at most once. -/
  order : ∃ c l d e, log = .building a :: (l ++ d ++ e) ∧ (l = [] ∨ l = [.loading c]) ∧ (d = [] ∨ d = [.dumping c] ∨ d = [.dumping c, .dumpFailed]) ∧
    (e = [] ∨ e = [.cost, .built])
  /-- The last message tells success. -/
  success : .built ∈ log ↔ r.2 = .ok ()
  /-- After success the tokenizer is initialized, after an exception it is not. -/
  flag : (r.1.tok t).initialized = true ↔ .built ∈ log
  /-- No message about dumping, but success: everything came from the cache file that was named, and no file was written. -/
  fromCache : .built ∈ log → (∀ c, .dumping c ∉ log) → r.1.files = w.files ∧
    ∃ c f, .loading c ∈ log ∧ w.files c = some f ∧ S.load f.data = some ((r.1.tok t).freq, (r.1.tok t).total)
  /-- A message about dumping: the dictionary file was read, all of it, and nothing else; the cache file that was named is the only one that may have been
  written, and it was exactly if there is no message about a failure. -/
  fromFile : ∀ c, .dumping c ∈ log → .built ∈ log ∧ (∃ data, dictFile w (w.tok t).dictionary = .ok data ∧
      genPfdict data = .ok ((r.1.tok t).freq, (r.1.tok t).total)) ∧ (.dumpFailed ∈ log → r.1.files = w.files) ∧
      (.dumpFailed ∉ log → ∃ f, r.1.files c = some f ∧ S.load f.data = some ((r.1.tok t).freq, (r.1.tok t).total) ∧ ∀ q, q ≠ c → r.1.files q = w.files q)
  /-- Failing to write is never silent. -/
  failed : .dumpFailed ∈ log ↔ io = false ∧ ∃ c, .dumping c ∈ log
  /-- Without success the dictionary and the files are as before. -/
  nothing : .built ∉ log → r.1 = w

/-- Calls of `jieba.setLogLevel` and `jieba._compat.setLogLevel`. -/
def setsLevel : LogCall → Bool
  | .setLogLevel _ | .setCompatLevel _ => true
  | _ => false

end Jieba.Spec
