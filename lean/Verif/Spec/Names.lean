import Verif.Model.Names
/-!
# Which value a name has after a history
-/

namespace Jieba.Spec
open Jieba

/-- `jieba.dt` was last bound to `t`, or never, and `t` is the tokenizer that `import jieba` made. -/
def LastBound (ops : List NameOp) (t : Nat) : Prop :=
  (∃ pre post, ops = pre ++ .bind t :: post ∧ ∀ u, .bind u ∉ post) ∨ t = 0 ∧ ∀ u, .bind u ∉ ops

/-- Parallel mode is not switched. -/
def NoSwitch (ops : List NameOp) : Prop := .disable ∉ ops ∧ ∀ io, .enable io ∉ ops

end Jieba.Spec
