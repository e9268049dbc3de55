import Verif.Model.Tokenizer
import Mathlib.Order.Basic
import Mathlib.Data.Int.Order.Basic
import Verif.Spec.Tags
/-!
# Concrete objects used by the non-vacuity examples
-/

namespace Jieba.Props
open Jieba Jieba.Spec

/-- Integer arithmetic standing in for floats in examples: `log` is the bit length, so it really orders words. -/
def intArith : Arith Int where
  zero := 0
  add := (· + ·)
  sub := (· - ·)
  mul := (· * ·)
  div := (· / ·)
  log n := Nat.log2 n
  ofInt n := n
  trunc n := n

theorem intArith_mono : MonoAdd intArith :=
  ⟨fun _ _ c h => Int.add_le_add_right h c, fun _ _ c h => Int.add_le_add_left h c⟩

/-- A small HMM: prefers `B E` over `S S`. -/
def sampleTables : FinalSeg.Tables Int where
  start := fun y => match y with | .B => 0 | .S => -1 | _ => -100
  trans := fun a b => if mayFollow a b then some (-1) else none
  emit := fun y _ => match y with | .B => some (-1) | .E => some (-1) | .S => some (-2) | .M => some (-5)
  minFloat := -1000

/-- 北 京 大 学 with 北京, 大学 and 北京大学 (prefix 北京大 registered with frequency 0). -/
def sampleFreq : Freq :=
  [(lit ['北'], 1), (lit ['北', '京'], 40), (lit ['北', '京', '大'], 0), (lit ['北', '京', '大', '学'], 64),
   (lit ['大'], 16), (lit ['大', '学'], 32), (lit ['T'], 0), (lit ['T', '恤'], 8)]

def sampleEnv : Env Int := ⟨intArith, sampleFreq, 161, sampleTables, []⟩

end Jieba.Props
