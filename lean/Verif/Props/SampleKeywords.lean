import Mathlib.Algebra.Order.Field.Rat
import Verif.Spec.Exact
import Verif.Spec.Keywords
import Verif.Props.PosWorld
/-!
# Concrete objects for the examples about keywords: rational numbers instead of floats
-/

namespace Jieba.Props
open Jieba Jieba.Spec Jieba.Pos Jieba.Analyse

/-- Rational arithmetic, with the bit length for `log`. -/
def ratArith : Arith ℚ where
  zero := 0
  add := (· + ·)
  sub := (· - ·)
  mul := (· * ·)
  div := (· / ·)
  log n := Nat.log2 n
  ofInt n := n
  trunc x := if 0 ≤ x then x.floor else x.ceil

theorem ratArith_exact : Exact ratArith := ⟨rfl, fun _ _ => rfl, fun _ _ => rfl, fun _ _ => rfl, fun _ _ => rfl, fun _ => rfl⟩

theorem realArith_exact : Exact realArith := ⟨rfl, fun _ _ => rfl, fun _ _ => rfl, fun _ _ => rfl, fun _ _ => rfl, fun _ => rfl⟩

def ratSys : Sys ℚ where
  A := ratArith
  tables := ⟨fun y => (sampleTables.start y : ℚ), fun a b => (sampleTables.trans a b).map (fun n => (n : ℚ)),
    fun y c => (sampleTables.emit y c).map (fun n => (n : ℚ)), -1000⟩
  gbk := id
  md5 := id
  tempdir := lit ['/', 't']
  abspath := id
  dump := sampleDump
  load := sampleLoad
  load_dump := sampleLoad_dump

def ratTables : Tables ℚ where
  charStates := smallTables.charStates
  start := smallTables.start.map (fun e => (e.1, (e.2 : ℚ)))
  trans := smallTables.trans.map (fun e => (e.1, e.2.map (fun e => (e.1, (e.2 : ℚ)))))
  emit := smallTables.emit.map (fun e => (e.1, e.2.map (fun e => (e.1, (e.2 : ℚ)))))
  minFloat := -100

/-- `str.lower` for ASCII -/
def asciiLower (s : Str) : Str := s.map (fun c => if isUpper c then c + 32 else c)

theorem lowerCh (n : Nat) (h : isUpper n = true) : isUpper (n + 32) = false := by
  simp only [isUpper, Bool.and_eq_true, decide_eq_true_eq] at h
  simp only [isUpper, Bool.and_eq_false_iff, decide_eq_false_iff_not]
  obtain ⟨h1, h2⟩ := h
  right
  have h1 : 0x41 ≤ n := h1
  show ¬ (n + 32 ≤ 0x5A)
  omega

theorem asciiLower_upper (s : Str) : ∀ c ∈ asciiLower s, isUpper c = false := by
  intro c hc
  obtain ⟨d, hd, rfl⟩ := List.mem_map.mp hc
  split
  · next h => exact lowerCh d h
  · next h => simpa using h

/-- `float` of a string of digits -/
def digitsFloat (s : Str) : Option ℚ :=
  if s ≠ [] ∧ ∀ c ∈ s, 0x30 ≤ c ∧ c ≤ 0x39 then some (s.foldl (fun (n : ℚ) c => 10 * n + ((c - 0x30 : Nat) : ℚ)) 0) else none

def ratKSys : KSys ℚ := ⟨⟨ratSys, ratTables, fun _ _ l => l⟩, asciiLower, digitsFloat, asciiLower_upper⟩

/-- Tokenizer 0 and POS tokenizer 0 for the dictionary 北京 40 ns, 大学 32 n; not initialised yet. -/
def ratPWorld : PWorld := (newPos ⟨{ sampleWorld with defaultDict := taggedData }, fun _ => ⟨7, []⟩⟩ 0 0).1

/-- An extractor with the idf of 北京 being 3, the median 5 and one stop word. -/
def ratTfidf : Tfidf ℚ := ⟨0, 0, [lit ['t', 'h', 'e']], ⟨lit ['/', 'i'], [(lit ['北', '京'], 3)], 5⟩, [(lit ['北', '京'], 3)], 5⟩

end Jieba.Props
