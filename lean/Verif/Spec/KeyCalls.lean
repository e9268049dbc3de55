import Verif.Model.KeyCalls
import Verif.Spec.PosCalls
import Verif.Spec.Keywords
import Verif.Spec.Text
/-!
# Several threads that extract keywords: arguments, filters and stop words
-/

namespace Jieba.Spec
open Jieba.Lazy Jieba.Pos Jieba.Pos.Steps Jieba.Analyse Jieba.Analyse.Steps

variable {F : Type} [LinearOrder F]

/-- The arguments of a call are as they should be: the tokenizers that an extractor uses belong to tokenizer `t`, the file with stop words
exists and is UTF-8, and a text for `textrank` is not too long. -/
def KCallOk (K : KSys F) (t N : Nat) (w : KWorld F) : KCall → Prop
  | .tok c => PCallOk t w.p c
  | .tags e _ _ _ allow _ => if allow = [] then (w.tf e).tok = t else (w.p.pos (w.tf e).pos).tok = t
  | .rank e s _ _ _ _ => (w.p.pos (w.rk e).pos).tok = t ∧ ((w.rk e).span - 1) * (strdecode K.pos.sys.gbk s).length ≤ N
  | .stop _ path => ∃ f content, w.p.w.files (K.pos.sys.abspath path) = some f ∧ utf8Decode f.data = some content
  | .idf _ _ => True

/-- `filt` is the `allowPOS` of one of the calls of `textrank` of extractor `e`. -/
def FilterOf (calls : List KCall) (e : Nat) (filt : List Str) : Prop := ∃ s topK ww wf, .rank e s topK ww filt wf ∈ calls

/-- `u` is a line of a file that one of the calls adds to the stop words of `x`. -/
def AddedStop (K : KSys F) (w : KWorld F) (calls : List KCall) (x : Extractor) (u : Str) : Prop :=
  ∃ path f content, .stop x path ∈ calls ∧ w.p.w.files (K.pos.sys.abspath path) = some f ∧ utf8Decode f.data = some content ∧
    u ∈ splitlines content

/-- The stop words at the beginning. -/
def stopsOf (w : KWorld F) : Extractor → List Str
  | .tf e => (w.tf e).stop
  | .rk e => (w.rk e).stop

/-- `S` has all stop words that there can be: those at the beginning and those that the calls add. -/
def AllStops (K : KSys F) (w : KWorld F) (calls : List KCall) (x : Extractor) (S : List Str) : Prop :=
  (∀ u ∈ stopsOf w x, u ∈ S) ∧ ∀ u, AddedStop K w calls x u → u ∈ S

/-- No call changes the IDF table of extractor `e`. -/
def IdfKept (calls : List KCall) (e : Nat) : Prop := ∀ path, .idf e path ∉ calls

/-- What is computed with numbers does not divide by zero: the number of accepted tokens is not zero if there is one, and ranking a
graph made from at most `N` pairs gives a result. -/
structure NumOk (R : RSys F) (N : Nat) : Prop where
  total : ∀ ks : List Key, ks ≠ [] →
    (countKeys R.k.pos.sys.A ks).values.foldl R.k.pos.sys.A.add R.k.pos.sys.A.zero ≠ R.k.pos.sys.A.zero
  rank : ∀ ps : List (Key × Key), ps.length ≤ N → ∃ d, rank R (buildGraph (ps.foldl bump [])) = .ok d

/-- The tokens that `extract_tags` looks at, in the form in which it counts them; they come from a segmentation of the text. -/
def Candidates (text : Str) (allow : List Str) (withFlag : Bool) (cs : List Key) : Prop :=
  (allow = [] ∧ ∃ ws, IsSegmentation ws text ∧ cs = ws.map Key.word) ∨
  (allow ≠ [] ∧ ∃ ts : List (Str × Str), IsSegmentation (ts.map Prod.fst) text ∧
    cs = (ts.filter (fun x => x.2 ∈ allow)).map (fun x => if withFlag then Key.pair x.1 x.2 else Key.word x.1))

end Jieba.Spec
