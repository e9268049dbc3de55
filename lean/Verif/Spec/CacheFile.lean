import Verif.Model.Basic
/-!
# Specification vocabulary: the file in which a dictionary is cached
-/

namespace Jieba.Spec
open Jieba

/-- The path of `name` in directory `dir`: an absolute name stands for itself; otherwise there is a slash between the two, which is
added if `dir` does not end with one. -/
inductive PathIn (dir name : Str) : Str → Prop
  | absolute (r : Str) : name = 0x2F :: r → PathIn dir name name
  | here : (∀ r, name ≠ 0x2F :: r) → dir = [] → PathIn dir name name
  | slash (d : Str) : (∀ r, name ≠ 0x2F :: r) → dir = d ++ [0x2F] → PathIn dir name (d ++ 0x2F :: name)
  | noSlash : (∀ r, name ≠ 0x2F :: r) → dir ≠ [] → (∀ d, dir ≠ d ++ [0x2F]) → PathIn dir name (dir ++ 0x2F :: name)

/-- A setting that is `None` or empty counts as not set. -/
def Setting (s : Option Str) (default v : Str) : Prop := (s = some v ∧ v ≠ []) ∨ ((s = none ∨ s = some []) ∧ v = default)

/-- The name of a cache: `jieba.cache` for the dictionary of the package, `jieba.u` + MD5 of the path + `.cache` for others. -/
def cacheName (md5 : Str → Str) : Option Str → Str
  | none => lit ['j', 'i', 'e', 'b', 'a', '.', 'c', 'a', 'c', 'h', 'e']
  | some p => lit ['j', 'i', 'e', 'b', 'a', '.', 'u'] ++ md5 p ++ lit ['.', 'c', 'a', 'c', 'h', 'e']

/-- `p` is the cache file for dictionary `d`, given the settings `tmp_dir` and `cache_file`. -/
def CacheAt (tempdir : Str) (md5 : Str → Str) (tmpDir cacheFile d : Option Str) (p : Str) : Prop :=
  ∃ dir name, Setting tmpDir tempdir dir ∧ Setting cacheFile (cacheName md5 d) name ∧ PathIn dir name p

end Jieba.Spec
