import Verif.Model.Keywords
/-!
# Specification vocabulary: keywords
-/

namespace Jieba.Spec
open Jieba Jieba.Analyse

/-- A word that may become a keyword: it contains at least two characters that are not white space, and is not a stop word
when written in lower case. -/
def Accepts (lower : Str → Str) (stop : List Str) (w : Str) : Prop :=
  2 ≤ (w.filter (fun c => !isSpace c)).length ∧ lower w ∉ stop

instance (lower : Str → Str) (stop : List Str) (w : Str) : Decidable (Accepts lower stop w) :=
  inferInstanceAs (Decidable (_ ∧ _))

/-- The accepted words of a text, with repetitions. -/
def acceptedWords (lower : Str → Str) (stop : List Str) (ws : List Str) : List Key :=
  (ws.filter (fun w => Accepts lower stop w)).map Key.word

/-- The accepted words of a tagged text, with repetitions, and with their tags if `withFlag`. -/
def acceptedPairs (lower : Str → Str) (stop allow : List Str) (withFlag : Bool) (ps : List (Str × Str)) : List Key :=
  (ps.filter (fun p => p.2 ∈ allow ∧ Accepts lower stop p.1)).map
    (fun p => if withFlag then Key.pair p.1 p.2 else Key.word p.1)

/-- `a` has a higher weight than `b`, or the same weight and comes earlier in `occ`. -/
def Ahead {F : Type _} [LinearOrder F] (occ : List Key) (a b : Key × Option F) : Prop :=
  ∃ u v, a.2 = some u ∧ b.2 = some v ∧ (v < u ∨ u = v ∧ occ.idxOf a.1 < occ.idxOf b.1)

end Jieba.Spec
