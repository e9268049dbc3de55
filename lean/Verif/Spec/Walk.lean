import Verif.Spec.Fields
/-!
# Directories and paths without symbolic links

A directory is given by the names on the way from the root to it.
-/

namespace Jieba.Spec
open Jieba

/-- Going from a directory along the components of a path: the empty component and `.` stay, `..` goes up (and stays at the root), everything else goes
down. -/
def walk : List Str → List Str → List Str
  | at', [] => at'
  | at', c :: cs =>
    if c = [] ∨ c = [0x2E] then walk at' cs
    else if c = [0x2E, 0x2E] then walk at'.dropLast cs
    else walk (at' ++ [c]) cs

/-- A name of a file or directory. -/
def PlainName (c : Str) : Prop := c ≠ [] ∧ c ≠ [0x2E] ∧ c ≠ [0x2E, 0x2E] ∧ 0x2F ∉ c

/-- The root that an absolute path begins at: POSIX lets exactly two slashes at the beginning be something else than one. -/
def rootOf : Str → Str
  | 0x2F :: 0x2F :: s => if s.head? = some 0x2F then [0x2F] else [0x2F, 0x2F]
  | _ => [0x2F]

/-- The root and the names, from the root, that a path stands for in the working directory `cwd`. -/
def Leads (cwd p root : Str) (names : List Str) : Prop :=
  ∃ cs ps, FieldsOf 0x2F cwd cs ∧ FieldsOf 0x2F p ps ∧
    (if p.head? = some 0x2F then root = rootOf p ∧ names = walk [] ps else root = rootOf cwd ∧ names = walk (walk [] cs) ps)

end Jieba.Spec
