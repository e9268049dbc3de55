import Verif.Model.Basic
/-!
Generated from /repo/extra_dict/stop_words.txt: its bytes.
-/

namespace Jieba.StopData
open Jieba

/-- extra_dict/stop_words.txt:1-51, the 222 bytes of the file. -/
def stopFile : Bytes := [
  116, 104, 101, 10, 111, 102, 10, 105, 115, 10, 97, 110, 100, 10, 116, 111, 10, 105, 110, 10, 116, 104, 97, 116, 10, 119, 101, 10, 102, 111, 114, 10,
  97, 110, 10, 97, 114, 101, 10, 98, 121, 10, 98, 101, 10, 97, 115, 10, 111, 110, 10, 119, 105, 116, 104, 10, 99, 97, 110, 10, 105, 102, 10, 102,
  114, 111, 109, 10, 119, 104, 105, 99, 104, 10, 121, 111, 117, 10, 105, 116, 10, 116, 104, 105, 115, 10, 116, 104, 101, 110, 10, 97, 116, 10, 104, 97,
  118, 101, 10, 97, 108, 108, 10, 110, 111, 116, 10, 111, 110, 101, 10, 104, 97, 115, 10, 111, 114, 10, 116, 104, 97, 116, 10, 231, 154, 132, 10, 228,
  186, 134, 10, 229, 146, 140, 10, 230, 152, 175, 10, 229, 176, 177, 10, 233, 131, 189, 10, 232, 128, 140, 10, 229, 143, 138, 10, 232, 136, 135, 10, 232,
  145, 151, 10, 230, 136, 150, 10, 228, 184, 128, 229, 128, 139, 10, 230, 178, 146, 230, 156, 137, 10, 230, 136, 145, 229, 128, 145, 10, 228, 189, 160, 229,
  128, 145, 10, 229, 166, 179, 229, 128, 145, 10, 228, 187, 150, 229, 128, 145, 10, 229, 165, 185, 229, 128, 145, 10, 230, 152, 175, 229, 144, 166]

end Jieba.StopData
