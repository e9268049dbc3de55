import Verif.Model.KeyCalls
/-!
# `set_idf_path` while keywords are extracted
-/

namespace Jieba.Spec
open Jieba.Analyse Jieba.Analyse.Steps

variable {F : Type} [LinearOrder F]

/-- Extractor `e` as the sequential model has it. -/
def extractorOf (w : KWorld F) (e : Nat) : Tfidf F :=
  { tok := (w.tf e).tok, pos := (w.tf e).pos, stop := (w.tf e).stop, loader := ⟨(w.tf e).path, w.dicts (w.tf e).lidf, (w.tf e).lmedian⟩,
    idf := w.dicts (w.tf e).idf, median := (w.tf e).median }

/-- How the IDF part of extractor `e` looks. -/
structure Looks (w : KWorld F) (e : Nat) (x : Tfidf F) : Prop where
  path : (w.tf e).path = x.loader.path
  freq : w.dicts (w.tf e).lidf = x.loader.freq
  lmedian : (w.tf e).lmedian = x.loader.median
  idf : w.dicts (w.tf e).idf = x.idf
  median : (w.tf e).median = x.median

/-- The idf of word `u` in the old or the new table, with the old or the new median. -/
def IdfNow (w0 : KWorld F) (e : Nat) (Dn : PyDict Str F) (mn : F) (u : Str) (x : F) : Prop :=
  ∃ T m, (T = w0.dicts (w0.tf e).idf ∨ T = Dn) ∧ (m = (w0.tf e).median ∨ m = mn) ∧ x = (T.get? u).getD m

/-- Call `i` is the only one that changes the IDF table of `e`. -/
def OnlyIdf (calls : List KCall) (i e : Nat) (path : Path) : Prop :=
  calls[i]? = some (.idf e path) ∧ ∀ j path', calls[j]? = some (.idf e path') → j = i

end Jieba.Spec
