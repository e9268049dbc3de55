import Verif.Model.Posseg
/-!
# Spec: renaming Chinese characters
-/

namespace Jieba.Spec

variable {F : Type _}

/-- `π` replaces Chinese characters (those of `[一-鿕]`) by Chinese characters and leaves the others as they are. -/
structure Renames (π : Ch → Ch) : Prop where
  han : ∀ c, isHan c = true → isHan (π c) = true
  other : ∀ c, isHan c = false → π c = c

/-- `E'` has for the renamed strings and characters what `E` has for the strings and characters. -/
structure RenamedEnv (π : Ch → Ch) (E E' : Env F) : Prop where
  A : E'.A = E.A
  total : E'.total = E.total
  freq : ∀ v, PyDict.get? E'.freq (v.map π) = PyDict.get? E.freq v
  force : ∀ v : Str, v.map π ∈ E'.force ↔ v ∈ E.force
  start : E'.tables.start = E.tables.start
  trans : E'.tables.trans = E.tables.trans
  emit : ∀ y c, E'.tables.emit y (π c) = E.tables.emit y c
  minFloat : E'.tables.minFloat = E.tables.minFloat

/-- The same for what `posseg.cut` reads. -/
structure RenamedPEnv (π : Ch → Ch) (E E' : Pos.PEnv F) : Prop where
  A : E'.A = E.A
  total : E'.total = E.total
  freq : ∀ v, PyDict.get? E'.freq (v.map π) = PyDict.get? E.freq v
  tab : ∀ v : Str, PyDict.get? E'.tab (v.map π) = PyDict.get? E.tab v
  σ : ∀ v : Str, E'.σ (v.map π) = E.σ v
  charStates : ∀ c, PyDict.get? E'.tables.charStates (π c) = PyDict.get? E.tables.charStates c
  start : E'.tables.start = E.tables.start
  trans : E'.tables.trans = E.tables.trans
  emit : ∀ y, match PyDict.get? E'.tables.emit y, PyDict.get? E.tables.emit y with
    | none, none => True
    | some e', some e => ∀ c, PyDict.get? e' (π c) = PyDict.get? e c
    | _, _ => False
  minFloat : E'.tables.minFloat = E.tables.minFloat

end Jieba.Spec
