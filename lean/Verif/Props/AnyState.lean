import Verif.Proofs.WorldLossless
import Verif.Props.PosWorld
/-!
# C01, C40 in every state of the process

Before initialisation, with an initialisation that fails half-way through a text, after any changes of the dictionary.
-/

namespace Jieba.Props
open Jieba Jieba.Spec Jieba.Pos

variable {F : Type _} [LinearOrder F]

/-- C01 for the function as users call it: in every state of the process, and whether or not writing the cache fails, the tokens
yielded by `cut(sentence)` are non-empty and join to a beginning of the text, and to the whole text if nothing is raised. -/
theorem C01_cut_lossless_any_state (S : Sys F) (w : World) (t : Nat) (hmm : Bool) (s : PyText) (io : Bool) :
    let g := (cutW S w t false hmm s io).2
    (∀ x ∈ g.out, x ≠ []) ∧ g.out.flatten <+: strdecode S.gbk s ∧ (g.err = none → g.out.flatten = strdecode S.gbk s) :=
  have h := cutW_lossless S w t hmm s io
  ⟨h.nonempty, h.isPrefix, h.complete⟩

/-- C40 likewise for `posseg.cut`. -/
theorem C40_posseg_lossless_any_state (P : PSys F) (hT : PosData.Shipped P.tables) (hσ : ∀ s t l, (P.σ s t l).Perm l)
    (p : PWorld) (k : Nat) (hmm : Bool) (s : PyText) (io : Bool) :
    let g := (cutPW P p k hmm s io).2
    (∀ x ∈ g.out, x.1 ≠ []) ∧ (g.out.map Prod.fst).flatten <+: strdecode P.sys.gbk s ∧
      (g.err = none → (g.out.map Prod.fst).flatten = strdecode P.sys.gbk s) :=
  have h := cutPW_lossless P hT hσ p k hmm s io
  ⟨fun x hx => h.nonempty x.1 (List.mem_map_of_mem hx), h.isPrefix, h.complete⟩

/-- A process whose dictionary is invalid: the first block of the text that needs it ends the generator. -/
example : (cutW sampleSys { sampleWorld with defaultDict := [0x61, 10] } 0 false true (.str (lit ['。', '大', '学', '!'])) true).2 =
    ⟨[lit ['。']], some .valueError⟩ := by decide +kernel

end Jieba.Props
