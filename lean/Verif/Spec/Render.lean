import Verif.Model.Codec
/-!
# Specification vocabulary: writing numbers and dictionary lines
-/

namespace Jieba.Spec
open Jieba

/-- The decimal digits of a number (ASCII). -/
def decimal (n : Nat) : Str :=
  if n < 10 then [0x30 + n] else decimal (n / 10) ++ [0x30 + n % 10]
termination_by n
decreasing_by omega

/-- The bytes of the line `word freq\n`; `none` if the word cannot be encoded. -/
def dictLineBytes (word : Str) (freq : Nat) : Option Bytes :=
  (utf8Encode word).map (fun b => b ++ (0x20 :: decimal freq) ++ [0x0A])

end Jieba.Spec
