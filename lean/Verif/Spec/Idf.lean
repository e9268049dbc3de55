import Verif.Model.Keywords
/-!
# The IDF of a word
-/

namespace Jieba.Spec
open Jieba Jieba.Analyse

/-- The IDF that a word has in the table, or the median. -/
def idfOf {F : Type} (x : Tfidf F) (u : Str) : F := (x.idf.get? u).getD x.median

end Jieba.Spec
