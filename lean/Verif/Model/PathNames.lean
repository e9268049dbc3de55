import Verif.Model.World
/-!
# jieba/__init__.py:22 `_get_abs_path`

`os.path.normpath` of CPython 3.11 on POSIX systems (Lib/posixpath.py), on `str`; `os.path.join` is `pathJoin` of `Model/World`.
-/

namespace Jieba

/-- The loop of `os.path.normpath`; `initial` is `initial_slashes` as a truth value, `new` is `new_comps`. Python itself, used at
jieba/__init__.py:22. -/
def normComps (initial : Bool) : List Str → List Str → List Str
  | new, [] => new
  | new, c :: cs =>
    if c = [] ∨ c = [0x2E] then normComps initial new cs
    else if c ≠ [0x2E, 0x2E] ∨ (initial = false ∧ new = []) ∨ new.getLast? = some [0x2E, 0x2E] then normComps initial (new ++ [c]) cs
    else if new ≠ [] then normComps initial new.dropLast cs
    else normComps initial new cs

/-- `initial_slashes` of `os.path.normpath`: 0, 1 or 2. Python itself, used at jieba/__init__.py:22. -/
def initialSlashes (p : Str) : Nat :=
  if p.head? = some 0x2F then
    (if [0x2F, 0x2F].isPrefixOf p && ![0x2F, 0x2F, 0x2F].isPrefixOf p then 2 else 1)
  else 0

/-- `os.path.normpath(p)`. Python itself, used at jieba/__init__.py:22. -/
def normPath (p : Str) : Str :=
  if p = [] then [0x2E]
  else
    let r := List.replicate (initialSlashes p) 0x2F ++ [0x2F].intercalate (normComps (initialSlashes p != 0) [] (splitOn1 0x2F p))
    if r = [] then [0x2E] else r

/-- jieba/__init__.py:22 `_get_abs_path`; `cwd` is `os.getcwd()`. -/
def getAbsPath (cwd path : Str) : Str := normPath (pathJoin cwd path)

end Jieba
