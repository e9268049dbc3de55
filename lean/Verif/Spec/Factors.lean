import Verif.Model.Posseg
import Verif.Spec.Dictionary
/-!
# Spec: dictionaries that agree about the parts of a text
-/

namespace Jieba.Spec

variable {F : Type _}

/-- The number stored for a string; a string that is not there counts like 0. -/
def stored (freq : Freq) (v : Str) : Int := (PyDict.get? freq v).getD 0

/-- The dictionaries give the same frequency to every (non-empty) string that occurs in `s`. -/
def AgreeOn (freq freq' : Freq) (s : Str) : Prop := ∀ v, v ≠ [] → v <:+: s → stored freq v = stored freq' v

/-- Two states that agree about the strings that occur in `s`; the total, the tables and the arithmetic are the same. -/
structure EnvAgreeOn (E E' : Env F) (s : Str) : Prop where
  A : E.A = E'.A
  total : E.total = E'.total
  tables : E.tables = E'.tables
  closed : PrefixClosed E.freq
  closed' : PrefixClosed E'.freq
  freq : AgreeOn E.freq E'.freq s
  force : ∀ v, v <:+: s → (v ∈ E.force ↔ v ∈ E'.force)

/-- The same for what `posseg.cut` reads: also the tags of the strings that occur in `s` (no tag counts like `x`). -/
structure PEnvAgreeOn (E E' : Pos.PEnv F) (s : Str) : Prop where
  A : E.A = E'.A
  total : E.total = E'.total
  tables : E.tables = E'.tables
  σ : E.σ = E'.σ
  closed : PrefixClosed E.freq
  closed' : PrefixClosed E'.freq
  freq : AgreeOn E.freq E'.freq s
  tab : ∀ v, v <:+: s → (E.tab.get? v).getD [0x78] = (E'.tab.get? v).getD [0x78]

end Jieba.Spec
