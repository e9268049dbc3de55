import Verif.Model.World
import Verif.Props.Sample
/-!
# A concrete `Sys` and worlds for the examples
-/

namespace Jieba.Props
open Jieba Jieba.Spec

/-! A toy serialisation standing in for `marshal`. -/

def dumpInt (n : Int) : Bytes := match n with | .ofNat k => [0, k] | .negSucc k => [1, k]

def dumpFreq : Freq → Bytes
  | [] => [0]
  | (w, n) :: d => 1 :: w.length :: (w ++ dumpInt n ++ dumpFreq d)

def loadInt : Bytes → Option (Int × Bytes)
  | 0 :: k :: r => some (.ofNat k, r)
  | 1 :: k :: r => some (.negSucc k, r)
  | _ => none

def loadFreq : Nat → Bytes → Option (Freq × Bytes)
  | _, 0 :: r => some ([], r)
  | fuel + 1, 1 :: l :: r =>
    if r.length < l then none
    else match loadInt (r.drop l) with
      | none => none
      | some (n, r') => match loadFreq fuel r' with
        | none => none
        | some (d, r'') => some ((r.take l, n) :: d, r'')
  | _, _ => none

def sampleDump (x : Freq × Int) : Bytes := 0xFF :: x.1.length :: (dumpFreq x.1 ++ dumpInt x.2)

def sampleLoad : Bytes → Option (Freq × Int)
  | 0xFF :: fuel :: b => match loadFreq fuel b with
    | none => none
    | some (d, r) => match loadInt r with
      | some (n, []) => some (d, n)
      | _ => none
  | _ => none

theorem loadInt_dump (n : Int) (r : Bytes) : loadInt (dumpInt n ++ r) = some (n, r) := by
  cases n <;> rfl

theorem loadFreq_dump (d : Freq) (r : Bytes) : loadFreq d.length (dumpFreq d ++ r) = some (d, r) := by
  induction d with
  | nil => rfl
  | cons p d ih =>
    obtain ⟨w, n⟩ := p
    simp only [dumpFreq, List.cons_append, List.append_assoc, List.length_cons, loadFreq]
    rw [if_neg (by simp)]
    rw [List.drop_left, loadInt_dump]
    simp [ih]

theorem sampleLoad_dump (x : Freq × Int) : sampleLoad (sampleDump x) = some x := by
  unfold sampleLoad sampleDump
  simp only [loadFreq_dump]
  have := loadInt_dump x.2 []
  rw [List.append_nil] at this
  rw [this]

/-- A file system where `abspath` and `md5` are the identity. -/
def sampleSys : Sys Int where
  A := intArith
  tables := sampleTables
  gbk := id
  md5 := id
  tempdir := lit ['/', 't']
  abspath := id
  dump := sampleDump
  load := sampleLoad
  load_dump := sampleLoad_dump

/-- `北京 40\n大学 32\n` in UTF-8. -/
def sampleData : Bytes :=
  [229, 140, 151, 228, 186, 172, 32, 52, 48, 10, 229, 164, 167, 229, 173, 166, 32, 51, 50, 10]

/-- A fresh process: no files, tokenizers not initialised yet. -/
def sampleWorld : World where
  files := fun _ => none
  clock := 5
  defaultDict := sampleData
  force := []
  tok := fun _ => Tok.new none

end Jieba.Props
