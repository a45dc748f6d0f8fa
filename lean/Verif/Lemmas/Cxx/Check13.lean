import Verif.Lemmas.Cxx.File
import Verif.Model.Cxx.Source13
import Verif.Model.Unicode.Bits13

/-!
# The translation of `source/bits13` is right

Lean's kernel reads the source text and compares it with the translation (`tools/gen_check.py`).
-/

namespace Ansak.Cxx.Check13

open Unicode.Bits13

/-- The functions of `char_is_unicode.cxx`, in order. -/
def isUnicodeTrees : List Tree :=
  [.b isInTheGap0003, .b isInTheGap0005, .b isInTheGap0006, .b isInTheGap0007, .b isInTheGap0008,
   .b isInTheGap0009, .b isInTheGap000A, .b isInTheGap000B, .b isInTheGap000C, .b isInTheGap000D,
   .b isInTheGap000E, .b isInTheGap000F, .b isInTheGap0010, .b isInTheGap0012, .b isInTheGap0013,
   .b isInTheGap0016, .b isInTheGap0017, .b isInTheGap0018, .b isInTheGap0019, .b isInTheGap001A,
   .b isInTheGap001B, .b isInTheGap001C, .b isInTheGap001F, .b isInTheGap0020, .b isInTheGap0021,
   .b isInTheGap0024, .b isInTheGap002B, .b isInTheGap002C, .b isInTheGap002D, .b isInTheGap002E,
   .b isInTheGap002F, .b isInTheGap0030, .b isInTheGap0031, .b isInTheGap0032, .b isInTheGap009F,
   .b isInTheGap00A4, .b isInTheGap00A6, .b isInTheGap00A7, .b isInTheGap00A8, .b isInTheGap00A9,
   .b isInTheGap00AA, .b isInTheGap00AB, .b isInTheGap00D7_DF, .b isInTheGap00FA, .b isInTheGap00FB,
   .b isInTheGap00FD, .b isInTheGap00FE, .b isInTheGap00FF, .b isInTheGap0100, .b isInTheGap0101,
   .b isInTheGap0102, .b isInTheGap0103, .b isInTheGap0104, .b isInTheGap0105, .b isInTheGap0107,
   .b isInTheGap0108, .b isInTheGap0109, .b isInTheGap010A, .b isInTheGap010B, .b isInTheGap010C,
   .b isInTheGap010D, .b isInTheGap010E, .b isInTheGap010F, .b isInTheGap0110, .b isInTheGap0111,
   .b isInTheGap0112, .b isInTheGap0113, .b isInTheGap0114, .b isInTheGap0115, .b isInTheGap0116,
   .b isInTheGap0117, .b isInTheGap0118, .b isInTheGap0119, .b isInTheGap011A, .b isInTheGap011C,
   .b isInTheGap011D, .b isInTheGap011E, .b isInTheGap011F, .b isInTheGap0123, .b isInTheGap0124,
   .b isInTheGap0125, .b isInTheGap0134, .b isInTheGap0146, .b isInTheGap016A, .b isInTheGap016B,
   .b isInTheGap016E, .b isInTheGap016F, .b isInTheGap0187, .b isInTheGap018C, .b isInTheGap018D,
   .b isInTheGap01B1, .b isInTheGap01B2, .b isInTheGap01BC, .b isInTheGap01D0, .b isInTheGap01D1,
   .b isInTheGap01D2, .b isInTheGap01D3, .b isInTheGap01D4, .b isInTheGap01D5, .b isInTheGap01D6,
   .b isInTheGap01D7, .b isInTheGap01DA, .b isInTheGap01E0, .b isInTheGap01E1, .b isInTheGap01E2,
   .b isInTheGap01E8, .b isInTheGap01E9, .b isInTheGap01EC, .b isInTheGap01ED, .b isInTheGap01EE,
   .b isInTheGap01F0, .b isInTheGap01F1, .b isInTheGap01F2, .b isInTheGap01F6, .b isInTheGap01F7,
   .b isInTheGap01F8, .b isInTheGap01F9, .b isInTheGap01FA, .b isInTheGap01FB, .b isInTheGap01,
   .b isInTheGap02A6, .b isInTheGap02B7, .b isInTheGap02B8, .b isInTheGap02CE, .b isInTheGap02EB,
   .b isInTheGap02FA, .b isInTheGap02, .b isInTheGap03, .b isInTheGap0E, .b isUnicodeAssigned16,
   .b isUnicodeAssigned32, .b isUnicodePrivate16, .b isUnicodePrivate32, .b isControlChar8,
   .b isControlChar16, .b isControlChar32, .b isWhitespaceChar8, .b isWhitespaceChar16,
   .b isWhitespaceChar32]

/-- The functions of `char_to_lower.cxx`, in order. -/
def toLowerTrees : List Tree :=
  [.v toLowerC, .v toLower0100, .v toLower0200, .v toLower0300, .v toLower0400, .v toLower0500,
   .v toLower1000, .v toLower2000, .v toLowerA000, .v toLowerF000, .v toLower2, .v toLower, .v turkicToLower]

/-- The functions of `char_is_unicode.cxx` that other files use. -/
def isUnicodeQueries : List Query :=
  [⟨name% "isUnicodeAssigned", .c16, .bool, .b isUnicodeAssigned16⟩,
   ⟨name% "isUnicodeAssigned", .c32, .bool, .b isUnicodeAssigned32⟩,
   ⟨name% "isUnicodePrivate", .c16, .bool, .b isUnicodePrivate16⟩,
   ⟨name% "isUnicodePrivate", .c32, .bool, .b isUnicodePrivate32⟩,
   ⟨name% "isControlChar", .char, .bool, .b isControlChar8⟩,
   ⟨name% "isControlChar", .c16, .bool, .b isControlChar16⟩,
   ⟨name% "isControlChar", .c32, .bool, .b isControlChar32⟩,
   ⟨name% "isWhitespaceChar", .char, .bool, .b isWhitespaceChar8⟩,
   ⟨name% "isWhitespaceChar", .c16, .bool, .b isWhitespaceChar16⟩,
   ⟨name% "isWhitespaceChar", .c32, .bool, .b isWhitespaceChar32⟩]

/-- The functions of `char_to_lower.cxx` that other files use. -/
def toLowerQueries : List Query :=
  [⟨name% "toLower", .c32, .c32, .v toLower⟩, ⟨name% "turkicToLower", .c32, .c32, .v turkicToLower⟩]

theorem isUnicode_ok : checkFile Source13.isUnicode isUnicodeTrees isUnicodeQueries
    [(name% "supportedUnicodeVersion", name% "13.0.0")] = true := by decide +kernel

theorem toLower_ok : checkFile Source13.toLower toLowerTrees toLowerQueries [] = true := by decide +kernel

end Ansak.Cxx.Check13
