import Verif.Model.CExpr

/-!
# The character tables of `source/bits13`

Translation of `source/bits13/char_is_unicode.cxx` and `char_to_lower.cxx` into the
expression language of `Verif.Model.CExpr`, written by `tools/gen_tables.py`.  Functions
overloaded on the character type carry the width in bits as a suffix.  The continuation
after a `break` is copied into the branch that breaks.
-/

namespace Ansak.Unicode.Bits13

open CExpr
open CExpr.E (c)

/-- `source/bits13/char_is_unicode.cxx:52`, `supportedUnicodeVersion`. -/
def supportedUnicodeVersion : String := "13.0.0"

/-- `source/bits13/char_is_unicode.cxx:61-72`, `isInTheGap0003(char16_t)`. -/
def isInTheGap0003 : B :=
  let column := c >>: 4 &: 15
  let row := c &: 15
  .case column [7] (row =: 8 ||: row =: 9) <|
  .case column [8] (row <: 4 ||: row =: 11 ||: row =: 13) <|
  .case column [10] (row =: 2) <|
  .ff

/-- `source/bits13/char_is_unicode.cxx:74-91`, `isInTheGap0005(char16_t)`. -/
def isInTheGap0005 : B :=
  let column := c >>: 4 &: 15
  let row := c &: 15
  .case column [3, 9] (row =: 0) <|
  .case column [5] (row =: 7 ||: row =: 8) <|
  .case column [8] (row =: 11 ||: row =: 12) <|
  .case column [12] (row ≥: 8) <|
  .case column [14] (row ≥: 11 &&: row ≤: 14) <|
  .case column [15] (row ≥: 5) <|
  .ff

/-- `source/bits13/char_is_unicode.cxx:93-96`, `isInTheGap0006(char16_t)`. -/
def isInTheGap0006 : B :=
  c =: 0x61D

/-- `source/bits13/char_is_unicode.cxx:98-110`, `isInTheGap0007(char16_t)`. -/
def isInTheGap0007 : B :=
  let column := c >>: 4 &: 15
  let row := c &: 15
  .case column [0] (row =: 14) <|
  .case column [4, 15] (row =: 11 ||: row =: 12) <|
  .case column [11] (row ≥: 2) <|
  .ff

/-- `source/bits13/char_is_unicode.cxx:112-132`, `isInTheGap0008(char16_t)`. -/
def isInTheGap0008 : B :=
  let column := c >>: 4 &: 15
  let row := c &: 15
  .case column [2] (row ≥: 14) <|
  .case column [3] (row =: 15) <|
  .case column [5] (row ≥: 12 &&: !: row =: 14) <|
  .case column [6] (row ≥: 11) <|
  .case column [7, 8, 9] .tt <|
  .case column [13] (row ≤: 2) <|
  .case column [11] (row =: 5) <|
  .case column [12] (row ≥: 8) <|
  .ff

/-- `source/bits13/char_is_unicode.cxx:134-177`, `isInTheGap0009(char16_t)`. -/
def isInTheGap0009 : B :=
  let column := c >>: 4 &: 15
  let row := c &: 15
  .case column [8] (row =: 4 ||: row =: 13 ||: row =: 14) <|
  .case column [9] (row =: 1 ||: row =: 2) <|
  .case column [10] (row =: 9) <|
  .case column [11] (
    .case row [1, 3, 4, 5, 10, 11] .tt <|
    .ff) <|
  .case column [12] (
    .case row [5, 6, 9, 10, 15] .tt <|
    .ff) <|
  .case column [13] (
    .case row [7, 12, 13, 15] .ff <|
    .tt) <|
  .case column [14] (row =: 4 ||: row =: 5) <|
  .case column [15] (row =: 15) <|
  .ff

/-- `source/bits13/char_is_unicode.cxx:179-254`, `isInTheGap000A(char16_t)`. -/
def isInTheGap000A : B :=
  let column := c >>: 4 &: 15
  let row := c &: 15
  .case column [0] (row =: 0 ||: row =: 4 ||: row ≥: 11 &&: row <: 15) <|
  .case column [1] (row =: 1 ||: row =: 2) <|
  .case column [2] (row =: 9) <|
  .case column [3] (
    .case row [1, 4, 7, 10, 11, 13] .tt <|
    .ff) <|
  .case column [4] (
    .case row [3, 4, 5, 6, 9, 10, 14, 15] .tt <|
    .ff) <|
  .case column [5] (
    .case row [0, 2, 3, 4, 5, 6, 7, 8, 13, 15] .tt <|
    .ff) <|
  .case column [6] (row ≤: 5) <|
  .case column [7] (row ≥: 7) <|
  .case column [8] (
    .case row [0, 4, 14] .tt <|
    .ff) <|
  .case column [9] (row =: 2) <|
  .case column [10] (row =: 9) <|
  .case column [11] (
    .case row [1, 4, 10, 11] .tt <|
    .ff) <|
  .case column [12] (row =: 6 ||: row =: 10 ||: row ≥: 14) <|
  .case column [13] (row ≥: 1) <|
  .case column [14] (row =: 4 ||: row =: 5) <|
  .case column [15] (row ≥: 2 &&: row ≤: 8) <|
  .tt

/-- `source/bits13/char_is_unicode.cxx:256-337`, `isInTheGap000B(char16_t)`. -/
def isInTheGap000B : B :=
  let column := c >>: 4 &: 15
  let row := c &: 15
  .case column [0] (row =: 0 ||: row =: 4 ||: row =: 13 ||: row =: 14) <|
  .case column [1] (row =: 1 ||: row =: 2) <|
  .case column [2] (row =: 9) <|
  .case column [3] (row =: 1 ||: row =: 4 ||: row =: 10 ||: row =: 11) <|
  .case column [4] (
    .case row [5, 6, 9, 10, 14, 15] .tt <|
    .ff) <|
  .case column [5] (row ≤: 4 ||: row ≥: 8 &&: row ≤: 11 ||: row =: 14) <|
  .case column [6] (row =: 4 ||: row =: 5) <|
  .case column [7] (row ≥: 8) <|
  .case column [8] (
    .case row [0, 1, 4, 11, 12, 13] .tt <|
    .ff) <|
  .case column [9] (
    .case row [1, 6, 7, 8, 11, 13] .tt <|
    .ff) <|
  .case column [10] (
    .case row [3, 4, 8, 9, 10, 14, 15] .ff <|
    .tt) <|
  .case column [11] (row ≥: 10 &&: row ≤: 13) <|
  .case column [12] (
    .case row [3, 4, 5, 9, 14, 15] .tt <|
    .ff) <|
  .case column [13] (
    .case row [0, 7] .ff <|
    .tt) <|
  .case column [14] (row ≤: 5) <|
  .case column [15] (row ≥: 11) <|
  .tt

/-- `source/bits13/char_is_unicode.cxx:339-363`, `isInTheGap000C(char16_t)`. -/
def isInTheGap000C : B :=
  let column := c >>: 4 &: 15
  let row := c &: 15
  .case column [0] (row =: 13) <|
  .case column [1] (row =: 1) <|
  .case column [2] (row =: 9) <|
  .case column [3] (row ≥: 10 &&: row ≤: 12) <|
  .case column [4] (row =: 5 ||: row =: 9 ||: row ≥: 14) <|
  .case column [5] (row ≤: 4 ||: row =: 7 ||: row ≥: 11) <|
  .case column [6] (row =: 4 ||: row =: 5) <|
  .case column [7] (row ≤: 6) <|
  .case column [8] (row =: 13) <|
  .case column [9] (row =: 1) <|
  .case column [10] (row =: 9) <|
  .case column [11] (row =: 4 ||: row =: 10 ||: row =: 11) <|
  .case column [12] (row =: 5 ||: row =: 9 ||: row ≥: 14) <|
  .case column [13] (row ≤: 4 ||: row ≥: 7 &&: !: row =: 14) <|
  .case column [14] (row =: 4 ||: row =: 5) <|
  .case column [15] (row =: 0 ||: row ≥: 3) <|
  .tt

/-- `source/bits13/char_is_unicode.cxx:365-385`, `isInTheGap000D(char16_t)`. -/
def isInTheGap000D : B :=
  let column := c >>: 4 &: 15
  let row := c &: 15
  .case column [0] (row =: 13) <|
  .case column [1] (row =: 1) <|
  .case column [4] (row =: 5 ||: row =: 9) <|
  .case column [5] (row ≤: 3) <|
  .case column [6] (row =: 4 ||: row =: 5) <|
  .case column [8] (row =: 0 ||: row =: 4) <|
  .case column [9] (row ≥: 7 &&: row ≤: 9) <|
  .case column [11] (row =: 2 ||: row ≥: 12 &&: !: row =: 13) <|
  .case column [12] (row ≥: 7 &&: !: row =: 10 &&: row ≤: 14) <|
  .case column [13] (row =: 5 ||: row =: 7) <|
  .case column [14] (row ≤: 5) <|
  .case column [15] (row <: 2 ||: row ≥: 5) <|
  .ff

/-- `source/bits13/char_is_unicode.cxx:387-421`, `isInTheGap000E(char16_t)`. -/
def isInTheGap000E : B :=
  let column := c >>: 4 &: 15
  let row := c &: 15
  .case column [0] (row =: 0) <|
  .case column [3] (row ≥: 11 &&: row ≤: 14) <|
  .case column [5] (row ≥: 12) <|
  .case column [6, 7, 14, 15] .tt <|
  .case column [8] (
    .case row [0, 3, 5, 11] .tt <|
    .ff) <|
  .case column [10] (
    .case row [4, 6] .tt <|
    .ff) <|
  .case column [11] (row ≥: 14) <|
  .case column [12] (row =: 5 ||: row =: 7 ||: row ≥: 14) <|
  .case column [13] (row =: 10 ||: row =: 11) <|
  .ff

/-- `source/bits13/char_is_unicode.cxx:423-440`, `isInTheGap000F(char16_t)`. -/
def isInTheGap000F : B :=
  let column := c >>: 4 &: 15
  let row := c &: 15
  .case column [4] (row =: 8) <|
  .case column [6] (row ≥: 13) <|
  .case column [7] (row =: 0) <|
  .case column [9] (row =: 8) <|
  .case column [11, 12] (row =: 13) <|
  .case column [13] (row ≥: 11) <|
  .case column [14, 15] .tt <|
  .ff

/-- `source/bits13/char_is_unicode.cxx:442-451`, `isInTheGap0010(char16_t)`. -/
def isInTheGap0010 : B :=
  let column := c >>: 4 &: 15
  let row := c &: 15
  .case column [12] (row =: 6 ||: row ≥: 8 &&: !: row =: 13) <|
  .ff

/-- `source/bits13/char_is_unicode.cxx:453-467`, `isInTheGap0012(char16_t)`. -/
def isInTheGap0012 : B :=
  let column := c >>: 4 &: 15
  let row := c &: 15
  .case column [4] (row =: 9 ||: row ≥: 14) <|
  .case column [5] (row =: 7 ||: row =: 9 ||: row ≥: 14) <|
  .case column [8] (row =: 9 ||: row ≥: 14) <|
  .case column [11] (row =: 1 ||: row =: 6 ||: row =: 7 ||: row =: 15) <|
  .case column [12] (row =: 1 ||: row =: 6 ||: row =: 7) <|
  .case column [13] (row =: 7) <|
  .ff

/-- `source/bits13/char_is_unicode.cxx:469-482`, `isInTheGap0013(char16_t)`. -/
def isInTheGap0013 : B :=
  let column := c >>: 4 &: 15
  let row := c &: 15
  .case column [1] (row =: 1 ||: row =: 6 ||: row =: 7) <|
  .case column [5] (row =: 11 ||: row =: 12) <|
  .case column [7] (row ≥: 13) <|
  .case column [9] (row ≥: 10) <|
  .case column [15] (row &: 7 ≥: 6) <|
  .ff

/-- `source/bits13/char_is_unicode.cxx:484-494`, `isInTheGap0016(char16_t)`. -/
def isInTheGap0016 : B :=
  let column := c >>: 4 &: 15
  let row := c &: 15
  .case column [9] (row ≥: 13) <|
  .case column [15] (row ≥: 9) <|
  .ff

/-- `source/bits13/char_is_unicode.cxx:496-513`, `isInTheGap0017(char16_t)`. -/
def isInTheGap0017 : B :=
  let column := c >>: 4 &: 15
  let row := c &: 15
  .case column [0] (row =: 13) <|
  .case column [1] (row ≥: 5) <|
  .case column [3] (row ≥: 7) <|
  .case column [5] (row ≥: 4) <|
  .case column [6] (row =: 13) <|
  .case column [7] (row =: 1 ||: row ≥: 4) <|
  .case column [13] (row ≥: 14) <|
  .case column [14, 15] (row ≥: 10) <|
  .ff

/-- `source/bits13/char_is_unicode.cxx:515-528`, `isInTheGap0018(char16_t)`. -/
def isInTheGap0018 : B :=
  let column := c >>: 4 &: 15
  let row := c &: 15
  .case column [0] (row =: 15) <|
  .case column [1] (row ≥: 10) <|
  .case column [7] (row ≥: 9) <|
  .case column [10] (row ≥: 11) <|
  .case column [15] (row ≥: 6) <|
  .ff

/-- `source/bits13/char_is_unicode.cxx:530-547`, `isInTheGap0019(char16_t)`. -/
def isInTheGap0019 : B :=
  let column := c >>: 4 &: 15
  let row := c &: 15
  .case column [1] (row =: 15) <|
  .case column [2, 3] (row ≥: 12) <|
  .case column [4] (row ≥: 1 &&: row ≤: 3) <|
  .case column [6] (row ≥: 14) <|
  .case column [7] (row ≥: 5) <|
  .case column [10] (row ≥: 12) <|
  .case column [12] (row ≥: 10) <|
  .case column [13] (row ≥: 11 &&: row ≤: 13) <|
  .ff

/-- `source/bits13/char_is_unicode.cxx:549-567`, `isInTheGap001A(char16_t)`. -/
def isInTheGap001A : B :=
  let column := c >>: 4 &: 15
  let row := c &: 15
  .case column [1] (row =: 12 ||: row =: 13) <|
  .case column [5] (row =: 15) <|
  .case column [7] (row =: 13 ||: row =: 14) <|
  .case column [8, 9] (row ≥: 10) <|
  .case column [10] (row ≥: 14) <|
  .case column [12] (!: row =: 0) <|
  .case column [13, 14, 15] .tt <|
  .ff

/-- `source/bits13/char_is_unicode.cxx:569-580`, `isInTheGap001B(char16_t)`. -/
def isInTheGap001B : B :=
  let column := c >>: 4 &: 15
  let row := c &: 15
  .case column [4] (row ≥: 12) <|
  .case column [7] (row ≥: 13) <|
  .case column [15] (row ≥: 4 &&: row ≤: 11) <|
  .ff

/-- `source/bits13/char_is_unicode.cxx:582-596`, `isInTheGap001C(char16_t)`. -/
def isInTheGap001C : B :=
  let column := c >>: 4 &: 15
  let row := c &: 15
  .case column [3] (row ≥: 8 &&: row ≤: 10) <|
  .case column [4] (row ≥: 10 &&: row ≤: 12) <|
  .case column [8] (row ≥: 9) <|
  .case column [11] (row =: 11 ||: row =: 12) <|
  .case column [12] (row ≥: 8) <|
  .case column [15] (row ≥: 11) <|
  .ff

/-- `source/bits13/char_is_unicode.cxx:598-614`, `isInTheGap001F(char16_t)`. -/
def isInTheGap001F : B :=
  let column := c >>: 4 &: 15
  let row := c &: 15
  .case column [1, 4] (row =: 6 ||: row =: 7 ||: row =: 14 ||: row =: 15) <|
  .case column [5] (row =: 8 ||: row =: 10 ||: row =: 12 ||: row =: 14) <|
  .case column [7] (row ≥: 14) <|
  .case column [11, 12] (row =: 5) <|
  .case column [13] (row =: 4 ||: row =: 5 ||: row =: 12) <|
  .case column [15] (row <: 2 ||: row =: 5 ||: row =: 15) <|
  .ff

/-- `source/bits13/char_is_unicode.cxx:616-630`, `isInTheGap0020(char16_t)`. -/
def isInTheGap0020 : B :=
  let column := c >>: 4 &: 15
  let row := c &: 15
  .case column [6] (row =: 5) <|
  .case column [7] (row =: 2 ||: row =: 3) <|
  .case column [8] (row =: 15) <|
  .case column [9] (row ≥: 13) <|
  .case column [12] .tt <|
  .case column [15] (!: row =: 0) <|
  .ff

/-- `source/bits13/char_is_unicode.cxx:632-640`, `isInTheGap0021(char16_t)`. -/
def isInTheGap0021 : B :=
  let column := c >>: 4 &: 15
  .cond (column =: 8) (c &: 15 ≥: 12) <|
  .ff

/-- `source/bits13/char_is_unicode.cxx:642-654`, `isInTheGap0024(char16_t)`. -/
def isInTheGap0024 : B :=
  let column := c >>: 4 &: 15
  let row := c &: 15
  .case column [2] (row ≥: 7) <|
  .case column [3, 5] .tt <|
  .case column [4] (row ≥: 11) <|
  .ff

/-- `source/bits13/char_is_unicode.cxx:656-666`, `isInTheGap002B(char16_t)`. -/
def isInTheGap002B : B :=
  let column := c >>: 4 &: 15
  let row := c &: 15
  .case column [7] (row =: 4 ||: row =: 5) <|
  .case column [9] (row =: 6) <|
  .ff

/-- `source/bits13/char_is_unicode.cxx:668-679`, `isInTheGap002C(char16_t)`. -/
def isInTheGap002C : B :=
  let column := c >>: 4 &: 15
  let row := c &: 15
  .case column [2, 5] (row =: 15) <|
  .case column [15] (row ≥: 4 &&: row ≤: 8) <|
  .ff

/-- `source/bits13/char_is_unicode.cxx:681-709`, `isInTheGap002D(char16_t)`. -/
def isInTheGap002D : B :=
  let column := c >>: 4 &: 15
  let row := c &: 15
  .case column [2] (
    .case row [0, 1, 2, 3, 4, 5, 7, 13] .ff <|
    .tt) <|
  .case column [6] (row ≥: 8 &&: row ≤: 14) <|
  .case column [7] (!: row =: 0 &&: !: row =: 15) <|
  .case column [9] (row ≥: 7) <|
  .case column [10, 11, 12, 13] (row =: 7 ||: row =: 15) <|
  .ff

/-- `source/bits13/char_is_unicode.cxx:711-724`, `isInTheGap002E(char16_t)`. -/
def isInTheGap002E : B :=
  let column := c >>: 4 &: 15
  let row := c &: 15
  .case column [6, 7] .tt <|
  .case column [5] (row >: 2) <|
  .case column [9] (row =: 10) <|
  .case column [15] (row ≥: 4) <|
  .ff

/-- `source/bits13/char_is_unicode.cxx:726-737`, `isInTheGap002F(char16_t)`. -/
def isInTheGap002F : B :=
  let column := c >>: 4 &: 15
  let row := c &: 15
  .case column [13] (row ≥: 6) <|
  .case column [14] .tt <|
  .case column [15] (row ≥: 12) <|
  .ff

/-- `source/bits13/char_is_unicode.cxx:739-749`, `isInTheGap0030(char16_t)`. -/
def isInTheGap0030 : B :=
  let column := c >>: 4 &: 15
  let row := c &: 15
  .case column [4] (row =: 0) <|
  .case column [9] (row =: 7 ||: row =: 8) <|
  .ff

/-- `source/bits13/char_is_unicode.cxx:751-763`, `isInTheGap0031(char16_t)`. -/
def isInTheGap0031 : B :=
  let column := c >>: 4 &: 15
  let row := c &: 15
  .case column [0] (row ≤: 4) <|
  .case column [3] (row =: 0) <|
  .case column [8] (row =: 15) <|
  .case column [14] (row ≥: 4) <|
  .ff

/-- `source/bits13/char_is_unicode.cxx:765-768`, `isInTheGap0032(char16_t)`. -/
def isInTheGap0032 : B :=
  c =: 0x321F

/-- `source/bits13/char_is_unicode.cxx:770-773`, `isInTheGap009F(char16_t)`. -/
def isInTheGap009F : B :=
  (c &: 0xFF) +: 4 >: 0x100

/-- `source/bits13/char_is_unicode.cxx:775-785`, `isInTheGap00A4(char16_t)`. -/
def isInTheGap00A4 : B :=
  let column := c >>: 4 &: 15
  let row := c &: 15
  .case column [8] (row ≥: 13) <|
  .case column [12] (row ≥: 7) <|
  .ff

/-- `source/bits13/char_is_unicode.cxx:787-798`, `isInTheGap00A6(char16_t)`. -/
def isInTheGap00A6 : B :=
  let column := c >>: 4 &: 15
  let row := c &: 15
  .case column [2] (row ≥: 12) <|
  .case column [3] .tt <|
  .case column [15] (row ≥: 8) <|
  .ff

/-- `source/bits13/char_is_unicode.cxx:800-812`, `isInTheGap00A7(char16_t)`. -/
def isInTheGap00A7 : B :=
  let column := c >>: 4 &: 15
  let row := c &: 15
  .case column [13, 14] .tt <|
  .case column [12] (row ≤: 1 ||: row ≥: 11) <|
  .case column [15] (row ≤: 4) <|
  .ff

/-- `source/bits13/char_is_unicode.cxx:814-827`, `isInTheGap00A8(char16_t)`. -/
def isInTheGap00A8 : B :=
  let column := c >>: 4 &: 15
  let row := c &: 15
  .case column [2] (row ≥: 13) <|
  .case column [3] (row ≥: 10) <|
  .case column [7] (row ≥: 8) <|
  .case column [12] (row ≥: 6 &&: row ≤: 13) <|
  .case column [13] (row ≥: 10) <|
  .ff

/-- `source/bits13/char_is_unicode.cxx:829-842`, `isInTheGap00A9(char16_t)`. -/
def isInTheGap00A9 : B :=
  let column := c >>: 4 &: 15
  let row := c &: 15
  .case column [5] (row ≥: 4 &&: row ≤: 14) <|
  .case column [7] (row ≥: 13) <|
  .case column [12] (row =: 14) <|
  .case column [13] (row ≥: 10 &&: row ≤: 13) <|
  .case column [15] (row =: 15) <|
  .ff

/-- `source/bits13/char_is_unicode.cxx:844-858`, `isInTheGap00AA(char16_t)`. -/
def isInTheGap00AA : B :=
  let column := c >>: 4 &: 15
  let row := c &: 15
  .case column [3] (row ≥: 7) <|
  .case column [4] (row ≥: 14) <|
  .case column [5] (row =: 10 ||: row =: 11) <|
  .case column [12] (row ≥: 3) <|
  .case column [13] (row ≤: 10) <|
  .case column [15] (row ≥: 7) <|
  .ff

/-- `source/bits13/char_is_unicode.cxx:860-874`, `isInTheGap00AB(char16_t)`. -/
def isInTheGap00AB : B :=
  let column := c >>: 4 &: 15
  let row := c &: 15
  .case column [0] (row =: 0 ||: row =: 7 ||: row =: 8 ||: row =: 15) <|
  .case column [1] (row =: 0 ||: row ≥: 7) <|
  .case column [2] (row =: 7 ||: row =: 15) <|
  .case column [6] (row ≥: 12) <|
  .case column [14] (row ≥: 14) <|
  .case column [15] (row ≥: 10) <|
  .ff

/-- `source/bits13/char_is_unicode.cxx:876-892`, `isInTheGap00D7_DF(char16_t)`. -/
def isInTheGap00D7_DF : B :=
  let page := c >>: 8 &: 15
  .cond (page =: 7) (
    let column := c >>: 4 &: 15
    let row := c &: 15
    .case column [10] (row ≥: 4) <|
    .case column [12] (row ≥: 7 &&: row ≤: 10) <|
    .case column [15] (row ≥: 12) <|
    .ff) <|
  .tt

/-- `source/bits13/char_is_unicode.cxx:894-906`, `isInTheGap00FA(char16_t)`. -/
def isInTheGap00FA : B :=
  let column := c >>: 4 &: 15
  let row := c &: 15
  .case column [6] (row ≥: 14) <|
  .case column [13] (row ≥: 10) <|
  .case column [14, 15] .tt <|
  .ff

/-- `source/bits13/char_is_unicode.cxx:908-922`, `isInTheGap00FB(char16_t)`. -/
def isInTheGap00FB : B :=
  let column := c >>: 4 &: 15
  let row := c &: 15
  .case column [0] (row ≥: 7) <|
  .case column [1] (row ≤: 2 ||: row ≥: 8 &&: row ≤: 12) <|
  .case column [3] (row =: 7 ||: row =: 13 ||: row =: 15) <|
  .case column [4] (row =: 2 ||: row =: 5) <|
  .case column [12] (row ≥: 2) <|
  .case column [13] (row ≤: 2) <|
  .ff

/-- `source/bits13/char_is_unicode.cxx:924-938`, `isInTheGap00FD(char16_t)`. -/
def isInTheGap00FD : B :=
  let column := c >>: 4 &: 15
  let row := c &: 15
  .case column [4] .tt <|
  .case column [9] (row ≤: 1) <|
  .case column [12] (row ≥: 8) <|
  .case column [13, 14] .tt <|
  .case column [15] (row ≥: 14) <|
  .ff

/-- `source/bits13/char_is_unicode.cxx:940-953`, `isInTheGap00FE(char16_t)`. -/
def isInTheGap00FE : B :=
  let column := c >>: 4 &: 15
  let row := c &: 15
  .case column [1] (row ≥: 10) <|
  .case column [5] (row =: 3) <|
  .case column [6] (row =: 7 ||: row ≥: 12) <|
  .case column [7] (row =: 5) <|
  .case column [15] (row =: 13 ||: row =: 14) <|
  .ff

/-- `source/bits13/char_is_unicode.cxx:955-969`, `isInTheGap00FF(char16_t)`. -/
def isInTheGap00FF : B :=
  let column := c >>: 4 &: 15
  let row := c &: 15
  .case column [0] (row =: 0) <|
  .case column [11] (row =: 15) <|
  .case column [12] (row =: 0 ||: row =: 1 ||: row =: 8 ||: row =: 9) <|
  .case column [13] (row ≤: 1 ||: row =: 8 ||: row =: 9 ||: row ≥: 13) <|
  .case column [14] (row =: 7 ||: row =: 15) <|
  .case column [15] (row ≤: 8 ||: row ≥: 14) <|
  .ff

/-- `source/bits13/char_is_unicode.cxx:971-987`, `isInTheGap0100(char32_t)`. -/
def isInTheGap0100 : B :=
  let column := c >>: 4 &: 15
  let row := c &: 15
  .case column [0] (row =: 12) <|
  .case column [2] (row =: 7) <|
  .case column [3] (row =: 11 ||: row =: 14) <|
  .case column [4, 5] (row ≥: 14) <|
  .case column [6, 7] .tt <|
  .case column [15] (row ≥: 11) <|
  .ff

/-- `source/bits13/char_is_unicode.cxx:989-1005`, `isInTheGap0101(char32_t)`. -/
def isInTheGap0101 : B :=
  let column := c >>: 4 &: 15
  let row := c &: 15
  .case column [0] (row ≥: 3 &&: row ≤: 6) <|
  .case column [3] (row ≥: 4 &&: row ≤: 6) <|
  .case column [8] (row =: 15) <|
  .case column [9] (row ≥: 13) <|
  .case column [10] (!: row =: 0) <|
  .case column [11, 12] .tt <|
  .case column [15] (row ≥: 14) <|
  .ff

/-- `source/bits13/char_is_unicode.cxx:1007-1023`, `isInTheGap0102(char32_t)`. -/
def isInTheGap0102 : B :=
  let column := c >>: 4 &: 15
  let row := c &: 15
  .case column [8, 10, 11, 12, 14] .ff <|
  .case column [9] (row ≥: 13) <|
  .case column [13] (!: row =: 0) <|
  .case column [15] (row ≥: 12) <|
  .tt

/-- `source/bits13/char_is_unicode.cxx:1025-1041`, `isInTheGap0103(char32_t)`. -/
def isInTheGap0103 : B :=
  let column := c >>: 4 &: 15
  let row := c &: 15
  .case column [2] (row ≥: 4 &&: row ≤: 12) <|
  .case column [4, 7] (row ≥: 11) <|
  .case column [9] (row =: 14) <|
  .case column [12] (row ≥: 4 &&: row ≤: 7) <|
  .case column [13] (row ≥: 6) <|
  .case column [14, 15] .tt <|
  .ff

/-- `source/bits13/char_is_unicode.cxx:1043-1055`, `isInTheGap0104(char32_t)`. -/
def isInTheGap0104 : B :=
  let column := c >>: 4 &: 15
  let row := c &: 15
  .case column [9] (row ≥: 14) <|
  .case column [10] (row ≥: 10) <|
  .case column [13] (row ≥: 4 &&: row ≤: 7) <|
  .case column [15] (row ≥: 12) <|
  .ff

/-- `source/bits13/char_is_unicode.cxx:1057-1071`, `isInTheGap0105(char32_t)`. -/
def isInTheGap0105 : B :=
  let column := c >>: 4 &: 15
  .cond (column ≥: 7) .tt <|
  let row := c &: 15
  .case column [2] (row ≥: 8) <|
  .case column [6] (row ≥: 4 &&: row ≤: 14) <|
  .ff

/-- `source/bits13/char_is_unicode.cxx:1073-1088`, `isInTheGap0107(char32_t)`. -/
def isInTheGap0107 : B :=
  let column := c >>: 4 &: 15
  let row := c &: 15
  .case column [0, 1, 2, 4] .ff <|
  .case column [3] (row ≥: 7) <|
  .case column [5] (row ≥: 6) <|
  .case column [6] (row ≥: 8) <|
  .tt

/-- `source/bits13/char_is_unicode.cxx:1090-1107`, `isInTheGap0108(char32_t)`. -/
def isInTheGap0108 : B :=
  let column := c >>: 4 &: 15
  let row := c &: 15
  .case column [0] (row =: 6 ||: row =: 7 ||: row =: 9) <|
  .case column [3] (row =: 6 ||: row ≥: 9 &&: row ≤: 14 &&: !: row =: 12) <|
  .case column [5] (row =: 6) <|
  .case column [9] (row =: 15) <|
  .case column [10] (row ≤: 6) <|
  .case column [11, 12, 13] .tt <|
  .case column [15] (row =: 3 ||: row ≥: 6 &&: row ≤: 10) <|
  .ff

/-- `source/bits13/char_is_unicode.cxx:1109-1125`, `isInTheGap0109(char32_t)`. -/
def isInTheGap0109 : B :=
  let column := c >>: 4 &: 15
  let row := c &: 15
  .case column [1] (row ≥: 12 &&: row ≤: 14) <|
  .case column [3] (row ≥: 10 &&: row ≤: 14) <|
  .case column [4, 5, 6, 7] .tt <|
  .case column [11] (row ≥: 8 &&: row ≤: 11) <|
  .case column [13] (row ≤: 1) <|
  .ff

/-- `source/bits13/char_is_unicode.cxx:1127-1144`, `isInTheGap010A(char32_t)`. -/
def isInTheGap010A : B :=
  let column := c >>: 4 &: 15
  let row := c &: 15
  .case column [0] (row =: 4 ||: row ≥: 7 &&: row ≤: 11) <|
  .case column [1] (row =: 4 ||: row =: 8) <|
  .case column [3] (row =: 6 ||: row =: 7 ||: row ≥: 11 &&: row ≤: 14) <|
  .case column [4, 5] (row ≥: 9) <|
  .case column [10, 11] .tt <|
  .case column [14] (row ≥: 7 &&: row ≤: 10) <|
  .case column [15] (row ≥: 7) <|
  .ff

/-- `source/bits13/char_is_unicode.cxx:1146-1164`, `isInTheGap010B(char32_t)`. -/
def isInTheGap010B : B :=
  let column := c >>: 4 &: 15
  let row := c &: 15
  .case column [3] (row ≥: 6 &&: row ≤: 8) <|
  .case column [5] (row =: 6 ||: row =: 7) <|
  .case column [7] (row ≥: 3 &&: row ≤: 7) <|
  .case column [9] (row ≥: 2 &&: row ≤: 8 ||: row ≥: 13) <|
  .case column [10] (row ≤: 8) <|
  .case column [11, 12, 13, 14, 15] .tt <|
  .ff

/-- `source/bits13/char_is_unicode.cxx:1166-1180`, `isInTheGap010C(char32_t)`. -/
def isInTheGap010C : B :=
  let column := c >>: 4 &: 15
  let row := c &: 15
  .case column [4] (row ≥: 9) <|
  .case column [5, 6, 7] .tt <|
  .case column [11] (row ≥: 3) <|
  .case column [15] (row ≥: 3 &&: row ≤: 9) <|
  .ff

/-- `source/bits13/char_is_unicode.cxx:1182-1194`, `isInTheGap010D(char32_t)`. -/
def isInTheGap010D : B :=
  let column := c >>: 4 &: 15
  let row := c &: 15
  .case column [0, 1] .ff <|
  .case column [2] (row ≥: 8) <|
  .case column [3] (row ≥: 10) <|
  .tt

/-- `source/bits13/char_is_unicode.cxx:1196-1210`, `isInTheGap010E(char32_t)`. -/
def isInTheGap010E : B :=
  let column := c >>: 4 &: 15
  let row := c &: 15
  .case column [6, 8, 9] .ff <|
  .case column [7] (row =: 15) <|
  .case column [10] (row =: 10 ||: row ≥: 14) <|
  .case column [11] (row ≥: 2) <|
  .tt

/-- `source/bits13/char_is_unicode.cxx:1212-1231`, `isInTheGap010F(char32_t)`. -/
def isInTheGap010F : B :=
  let column := c >>: 4 &: 15
  let row := c &: 15
  .case column [0, 1, 3, 4, 11, 14] .ff <|
  .case column [2] (row ≥: 8) <|
  .case column [5] (row ≥: 10) <|
  .case column [12] (row ≥: 12) <|
  .case column [15] (row ≥: 7) <|
  .tt

/-- `source/bits13/char_is_unicode.cxx:1233-1247`, `isInTheGap0110(char32_t)`. -/
def isInTheGap0110 : B :=
  let column := c >>: 4 &: 15
  let row := c &: 15
  .case column [4] (row ≥: 14) <|
  .case column [5] (row ≤: 1) <|
  .case column [7] (row ≤: 14) <|
  .case column [12] (row ≥: 2 &&: !: row =: 13) <|
  .case column [14] (row ≥: 9) <|
  .case column [15] (row ≥: 10) <|
  .ff

/-- `source/bits13/char_is_unicode.cxx:1249-1262`, `isInTheGap0111(char32_t)`. -/
def isInTheGap0111 : B :=
  let column := c >>: 4 &: 15
  let row := c &: 15
  .case column [3] (row =: 5) <|
  .case column [4] (row ≥: 8) <|
  .case column [7] (row ≥: 7) <|
  .case column [14] (row =: 0) <|
  .case column [15] (row ≥: 5) <|
  .ff

/-- `source/bits13/char_is_unicode.cxx:1264-1283`, `isInTheGap0112(char32_t)`. -/
def isInTheGap0112 : B :=
  let column := c >>: 4 &: 15
  let row := c &: 15
  .case column [1] (row =: 2) <|
  .case column [3] (row =: 15) <|
  .case column [4, 5, 6, 7] .tt <|
  .case column [8] (row =: 7 ||: row =: 9 ||: row =: 14) <|
  .case column [9] (row =: 14) <|
  .case column [10] (row ≥: 10) <|
  .case column [14] (row ≥: 11) <|
  .case column [15] (row ≥: 10) <|
  .ff

/-- `source/bits13/char_is_unicode.cxx:1285-1315`, `isInTheGap0113(char32_t)`. -/
def isInTheGap0113 : B :=
  let column := c >>: 4 &: 15
  .cond (column ≥: 8) .tt <|
  let row := c &: 15
  .case column [0] (row =: 4 ||: row =: 13 ||: row =: 14) <|
  .case column [1] (row =: 1 ||: row =: 2) <|
  .case column [2] (row =: 9) <|
  .case column [3] (row =: 1 ||: row =: 4 ||: row =: 10) <|
  .case column [4] (
    .case row [5, 6, 9, 10, 14, 15] .tt <|
    .ff) <|
  .case column [5] (row ≥: 1 &&: row ≤: 6 ||: row ≥: 8 &&: row ≤: 12) <|
  .case column [6] (row =: 4 ||: row =: 5 ||: row ≥: 13) <|
  .case column [7] (row ≥: 5) <|
  .ff

/-- `source/bits13/char_is_unicode.cxx:1317-1332`, `isInTheGap0114(char32_t)`. -/
def isInTheGap0114 : B :=
  let column := c >>: 4 &: 15
  let row := c &: 15
  .case column [5] (row =: 12) <|
  .case column [6] (row ≥: 2) <|
  .case column [12] (row ≥: 8) <|
  .case column [13] (row ≥: 10) <|
  .case column [7, 14, 15] .tt <|
  .ff

/-- `source/bits13/char_is_unicode.cxx:1334-1348`, `isInTheGap0115(char32_t)`. -/
def isInTheGap0115 : B :=
  let column := c >>: 4 &: 15
  let row := c &: 15
  .case column [8, 9, 10, 12] .ff <|
  .case column [11] (row =: 6 ||: row =: 7) <|
  .case column [13] (row ≥: 14) <|
  .tt

/-- `source/bits13/char_is_unicode.cxx:1350-1367`, `isInTheGap0116(char32_t)`. -/
def isInTheGap0116 : B :=
  let column := c >>: 4 &: 15
  let row := c &: 15
  .case column [4] (row ≥: 5) <|
  .case column [5] (row ≥: 10) <|
  .case column [6] (row ≥: 13) <|
  .case column [7, 13, 14, 15] .tt <|
  .case column [11] (row ≥: 9) <|
  .case column [12] (row ≥: 10) <|
  .ff

/-- `source/bits13/char_is_unicode.cxx:1369-1381`, `isInTheGap0117(char32_t)`. -/
def isInTheGap0117 : B :=
  let column := c >>: 4 &: 15
  let row := c &: 15
  .case column [0, 3] .ff <|
  .case column [1] (row =: 11 ||: row =: 12) <|
  .case column [2] (row ≥: 12) <|
  .tt

/-- `source/bits13/char_is_unicode.cxx:1383-1399`, `isInTheGap0118(char32_t)`. -/
def isInTheGap0118 : B :=
  let column := c >>: 4 &: 15
  let row := c &: 15
  .case column [3] (row ≥: 12) <|
  .case column [4, 5, 6, 7, 8, 9] .tt <|
  .case column [15] (row ≥: 3 &&: row ≤: 14) <|
  .ff

/-- `source/bits13/char_is_unicode.cxx:1401-1420`, `isInTheGap0119(char32_t)`. -/
def isInTheGap0119 : B :=
  let column := c >>: 4 &: 15
  let row := c &: 15
  .case column [0] (row =: 7 ||: row =: 8 ||: row =: 10 ||: row =: 11) <|
  .case column [1] (row =: 4 ||: row =: 7) <|
  .case column [3] (row =: 6 ||: row =: 9 ||: row =: 10) <|
  .case column [4] (row ≥: 7) <|
  .case column [5] (row ≥: 10) <|
  .case column [10, 13] (row =: 8 ||: row =: 9) <|
  .case column [14] (row ≥: 5) <|
  .case column [2, 11, 12] .ff <|
  .tt

/-- `source/bits13/char_is_unicode.cxx:1422-1434`, `isInTheGap011A(char32_t)`. -/
def isInTheGap011A : B :=
  let column := c >>: 4 &: 15
  let row := c &: 15
  .case column [4] (row ≥: 8) <|
  .case column [10] (row ≥: 3) <|
  .case column [11] .tt <|
  .case column [15] (row ≥: 9) <|
  .ff

/-- `source/bits13/char_is_unicode.cxx:1436-1455`, `isInTheGap011C(char32_t)`. -/
def isInTheGap011C : B :=
  let column := c >>: 4 &: 15
  let row := c &: 15
  .case column [0] (row =: 9) <|
  .case column [3] (row =: 7) <|
  .case column [4] (row ≥: 6) <|
  .case column [6] (row ≥: 13) <|
  .case column [9] (row ≤: 1) <|
  .case column [10] (row =: 8) <|
  .case column [11] (row ≥: 7) <|
  .case column [12, 13, 14, 15] .tt <|
  .ff

/-- `source/bits13/char_is_unicode.cxx:1457-1476`, `isInTheGap011D(char32_t)`. -/
def isInTheGap011D : B :=
  let column := c >>: 4 &: 15
  let row := c &: 15
  .case column [0] (row =: 7 ||: row =: 10) <|
  .case column [1, 2, 7] .ff <|
  .case column [3] (row ≥: 7 &&: row ≤: 9 ||: row =: 11 ||: row =: 14) <|
  .case column [4] (row ≥: 8) <|
  .case column [5, 10] (row ≥: 10) <|
  .case column [6] (row =: 6 ||: row =: 9) <|
  .case column [8] (row =: 15) <|
  .case column [9] (row =: 2 ||: row ≥: 9) <|
  .tt

/-- `source/bits13/char_is_unicode.cxx:1478-1488`, `isInTheGap011E(char32_t)`. -/
def isInTheGap011E : B :=
  let column := c >>: 4 &: 15
  let row := c &: 15
  .case column [14] .ff <|
  .case column [15] (row ≥: 9) <|
  .tt

/-- `source/bits13/char_is_unicode.cxx:1490-1503`, `isInTheGap011F(char32_t)`. -/
def isInTheGap011F : B :=
  let column := c >>: 4 &: 15
  let row := c &: 15
  .case column [12, 13, 14] .ff <|
  .case column [11] (!: row =: 0) <|
  .case column [15] (row ≥: 2 &&: row <: 15) <|
  .tt

/-- `source/bits13/char_is_unicode.cxx:1505-1519`, `isInTheGap0123(char32_t)`. -/
def isInTheGap0123 : B :=
  let column := c >>: 4 &: 15
  .cond (column ≥: 10) .tt <|
  let row := c &: 15
  .case column [9] (row ≥: 10) <|
  .ff

/-- `source/bits13/char_is_unicode.cxx:1521-1531`, `isInTheGap0124(char32_t)`. -/
def isInTheGap0124 : B :=
  let column := c >>: 4 &: 15
  let row := c &: 15
  .case column [6] (row =: 15) <|
  .case column [7] (row ≥: 5) <|
  .ff

/-- `source/bits13/char_is_unicode.cxx:1533-1545`, `isInTheGap0125(char32_t)`. -/
def isInTheGap0125 : B :=
  let column := c >>: 4 &: 15
  .cond (column <: 4) .ff <|
  .cond (column >: 4) .tt <|
  c &: 15 ≥: 4

/-- `source/bits13/char_is_unicode.cxx:1547-1559`, `isInTheGap0134(char32_t)`. -/
def isInTheGap0134 : B :=
  let column := c >>: 4 &: 15
  let row := c &: 15
  .case column [0, 1] .ff <|
  .case column [2] (row =: 15) <|
  .case column [3] (row ≥: 9) <|
  .tt

/-- `source/bits13/char_is_unicode.cxx:1561-1573`, `isInTheGap0146(char32_t)`. -/
def isInTheGap0146 : B :=
  let column := c >>: 4 &: 15
  .cond (column <: 4) .ff <|
  .cond (column >: 4) .tt <|
  c &: 15 ≥: 7

/-- `source/bits13/char_is_unicode.cxx:1575-1592`, `isInTheGap016A(char32_t)`. -/
def isInTheGap016A : B :=
  let column := c >>: 4 &: 15
  .cond (column ≥: 7 &&: column ≤: 12) .tt <|
  let row := c &: 15
  .case column [3] (row ≥: 9) <|
  .case column [5] (row =: 15) <|
  .case column [6] (row ≥: 10 &&: row ≤: 13) <|
  .case column [14] (row ≥: 14) <|
  .case column [15] (row ≥: 6) <|
  .ff

/-- `source/bits13/char_is_unicode.cxx:1594-1611`, `isInTheGap016B(char32_t)`. -/
def isInTheGap016B : B :=
  let column := c >>: 4 &: 15
  .cond (column ≥: 9) .tt <|
  let row := c &: 15
  .case column [4] (row ≥: 6) <|
  .case column [5] (row =: 10) <|
  .case column [6] (row =: 2) <|
  .case column [7] (row ≥: 8 &&: row ≤: 12) <|
  .ff

/-- `source/bits13/char_is_unicode.cxx:1613-1626`, `isInTheGap016E(char32_t)`. -/
def isInTheGap016E : B :=
  let column := c >>: 4 &: 15
  .cond (column <: 4 ||: column >: 9) .tt <|
  .cond (!: column =: 9) .ff <|
  c &: 15 ≥: 11

/-- `source/bits13/char_is_unicode.cxx:1628-1645`, `isInTheGap016F(char32_t)`. -/
def isInTheGap016F : B :=
  let column := c >>: 4 &: 15
  .cond (column ≥: 10 &&: column ≤: 13) .tt <|
  let row := c &: 15
  .case column [4] (row ≥: 11 &&: row ≤: 14) <|
  .case column [8] (row ≥: 8 &&: row ≤: 14) <|
  .case column [14] (row ≥: 5) <|
  .case column [15] (row ≥: 2) <|
  .ff

/-- `source/bits13/char_is_unicode.cxx:1647-1654`, `isInTheGap0187(char32_t)`. -/
def isInTheGap0187 : B :=
  .cond (!: c >>: 4 &: 15 =: 15) .ff <|
  c &: 15 ≥: 8

/-- `source/bits13/char_is_unicode.cxx:1656-1667`, `isInTheGap018C(char32_t)`. -/
def isInTheGap018C : B :=
  let column := c >>: 4 &: 15
  let row := c &: 15
  .case column [13] (row ≥: 6) <|
  .case column [14, 15] .tt <|
  .ff

/-- `source/bits13/char_is_unicode.cxx:1669-1672`, `isInTheGap018D(char32_t)`. -/
def isInTheGap018D : B :=
  c &: 0xFF ≥: 9

/-- `source/bits13/char_is_unicode.cxx:1674-1688`, `isInTheGap01B1(char32_t)`. -/
def isInTheGap01B1 : B :=
  let column := c >>: 4 &: 15
  let row := c &: 15
  .case column [1] (row =: 15) <|
  .case column [5] (row ≥: 3) <|
  .case column [6] (row ≤: 3 ||: row ≥: 8) <|
  .case column [2, 3, 4] .tt <|
  .ff

/-- `source/bits13/char_is_unicode.cxx:1690-1693`, `isInTheGap01B2(char32_t)`. -/
def isInTheGap01B2 : B :=
  c &: 0xFF ≥: 0xFC

/-- `source/bits13/char_is_unicode.cxx:1695-1713`, `isInTheGap01BC(char32_t)`. -/
def isInTheGap01BC : B :=
  let column := c >>: 4 &: 15
  .cond (column ≥: 11) .tt <|
  let row := c &: 15
  .case column [6] (row ≥: 11) <|
  .case column [7] (row ≥: 13) <|
  .case column [8] (row ≥: 9) <|
  .case column [9] (row =: 10 ||: row =: 11) <|
  .case column [10] (row ≥: 4) <|
  .ff

/-- `source/bits13/char_is_unicode.cxx:1715-1718`, `isInTheGap01D0(char32_t)`. -/
def isInTheGap01D0 : B :=
  c &: 0xFF ≥: 0xF6

/-- `source/bits13/char_is_unicode.cxx:1720-1731`, `isInTheGap01D1(char32_t)`. -/
def isInTheGap01D1 : B :=
  let column := c >>: 4 &: 15
  let row := c &: 15
  .case column [2] (row =: 7 ||: row =: 8) <|
  .case column [14] (row ≥: 9) <|
  .case column [15] .tt <|
  .ff

/-- `source/bits13/char_is_unicode.cxx:1733-1757`, `isInTheGap01D2(char32_t)`. -/
def isInTheGap01D2 : B :=
  let column := c >>: 4 &: 15
  let row := c &: 15
  .case column [0, 1, 2, 3, 14] .ff <|
  .case column [4] (row ≥: 6) <|
  .case column [15] (row ≥: 4) <|
  .tt

/-- `source/bits13/char_is_unicode.cxx:1759-1775`, `isInTheGap01D3(char32_t)`. -/
def isInTheGap01D3 : B :=
  let column := c >>: 4 &: 15
  let row := c &: 15
  .case column [0, 1, 2, 3, 4, 6] .ff <|
  .case column [5] (row ≥: 7) <|
  .case column [7] (row ≥: 9) <|
  .tt

/-- `source/bits13/char_is_unicode.cxx:1777-1801`, `isInTheGap01D4(char32_t)`. -/
def isInTheGap01D4 : B :=
  let column := c >>: 4 &: 15
  let row := c &: 15
  .case column [5] (row =: 5) <|
  .case column [9] (row =: 13) <|
  .case column [10] (
    .case row [0, 1, 3, 4, 7, 8, 13] .tt <|
    .ff) <|
  .case column [11] (row =: 10 ||: row =: 12) <|
  .case column [12] (row =: 4) <|
  .ff

/-- `source/bits13/char_is_unicode.cxx:1803-1816`, `isInTheGap01D5(char32_t)`. -/
def isInTheGap01D5 : B :=
  let column := c >>: 4 &: 15
  let row := c &: 15
  .case column [0] (row =: 6 ||: row =: 11 ||: row =: 12) <|
  .case column [1] (row =: 5 ||: row =: 13) <|
  .case column [3] (row =: 10 ||: row =: 15) <|
  .case column [4] (row ≥: 5 &&: row ≤: 9 &&: !: row =: 6) <|
  .case column [5] (row =: 1) <|
  .ff

/-- `source/bits13/char_is_unicode.cxx:1818-1822`, `isInTheGap01D6(char32_t)`. -/
def isInTheGap01D6 : B :=
  let offset := c &: 0xFF
  offset =: 0xA6 ||: offset =: 0xA7

/-- `source/bits13/char_is_unicode.cxx:1824-1828`, `isInTheGap01D7(char32_t)`. -/
def isInTheGap01D7 : B :=
  let offset := c &: 0xFF
  offset =: 0xCC ||: offset =: 0xCD

/-- `source/bits13/char_is_unicode.cxx:1830-1845`, `isInTheGap01DA(char32_t)`. -/
def isInTheGap01DA : B :=
  let column := c >>: 4 &: 15
  .cond (column ≥: 11) .tt <|
  let row := c &: 15
  .case column [8] (row ≥: 12) <|
  .case column [9] (row ≤: 10) <|
  .case column [10] (row =: 0) <|
  .ff

/-- `source/bits13/char_is_unicode.cxx:1847-1862`, `isInTheGap01E0(char32_t)`. -/
def isInTheGap01E0 : B :=
  let column := c >>: 4 &: 15
  .cond (column ≥: 3) .tt <|
  let row := c &: 15
  .case column [0] (row =: 7) <|
  .case column [1] (row =: 9 ||: row =: 10) <|
  .case column [2] (row =: 2 ||: row =: 5 ||: row ≥: 11) <|
  .tt

/-- `source/bits13/char_is_unicode.cxx:1864-1877`, `isInTheGap01E1(char32_t)`. -/
def isInTheGap01E1 : B :=
  let column := c >>: 4 &: 15
  let row := c &: 15
  .case column [0, 1] .ff <|
  .case column [2] (row ≥: 13) <|
  .case column [3] (row ≥: 14) <|
  .case column [4] (row ≥: 10 &&: row ≤: 13) <|
  .tt

/-- `source/bits13/char_is_unicode.cxx:1879-1891`, `isInTheGap01E2(char32_t)`. -/
def isInTheGap01E2 : B :=
  let column := c >>: 4 &: 15
  let row := c &: 15
  .case column [12, 13, 14] .ff <|
  .case column [15] (row ≥: 10 &&: row ≤: 14) <|
  .tt

/-- `source/bits13/char_is_unicode.cxx:1893-1907`, `isInTheGap01E8(char32_t)`. -/
def isInTheGap01E8 : B :=
  let column := c >>: 4 &: 15
  .cond (column ≥: 14) .tt <|
  let row := c &: 15
  .case column [12] (row =: 5 ||: row =: 6) <|
  .case column [13] (row ≥: 7) <|
  .ff

/-- `source/bits13/char_is_unicode.cxx:1909-1929`, `isInTheGap01E9(char32_t)`. -/
def isInTheGap01E9 : B :=
  let column := c >>: 4 &: 15
  .cond (column ≥: 6) .tt <|
  .cond (column <: 4) .ff <|
  let row := c &: 15
  .cond (column =: 4) (row ≥: 12) <|
  row ≥: 10 &&: row ≤: 13

/-- `source/bits13/char_is_unicode.cxx:1931-1944`, `isInTheGap01EC(char32_t)`. -/
def isInTheGap01EC : B :=
  let column := c >>: 4 &: 15
  let row := c &: 15
  .case column [7] (row =: 0) <|
  .case column [8, 9, 10] .ff <|
  .case column [11] (row ≥: 5) <|
  .tt

/-- `source/bits13/char_is_unicode.cxx:1946-1958`, `isInTheGap01ED(char32_t)`. -/
def isInTheGap01ED : B :=
  let column := c >>: 4 &: 15
  let row := c &: 15
  .case column [0] (row =: 0) <|
  .case column [1, 2] .ff <|
  .case column [3] (row ≥: 14) <|
  .tt

/-- `source/bits13/char_is_unicode.cxx:1960-2028`, `isInTheGap01EE(char32_t)`. -/
def isInTheGap01EE : B :=
  let column := c >>: 4 &: 15
  let row := c &: 15
  .case column [0] (row =: 4) <|
  .case column [2] (
    .case row [0, 3, 5, 6, 8] .tt <|
    .ff) <|
  .case column [3] (
    .case row [3, 8, 10, 12, 13, 14, 15] .tt <|
    .ff) <|
  .case column [4] (
    .case row [0, 1, 3, 4, 5, 6, 8, 10, 12] .tt <|
    .ff) <|
  .case column [5] (
    .case row [0, 3, 5, 6, 8, 10, 12, 14] .tt <|
    .ff) <|
  .case column [6] (row =: 0 ||: row =: 3 ||: row =: 5 ||: row =: 6 ||: row =: 11) <|
  .case column [7] (row =: 3 ||: row =: 8 ||: row =: 13 ||: row =: 15) <|
  .case column [8] (row =: 10) <|
  .case column [9] (row ≥: 12) <|
  .case column [10] (row =: 0 ||: row =: 4 ||: row =: 10) <|
  .case column [11] (row ≥: 12) <|
  .case column [12, 13, 14] .tt <|
  .case column [15] (row ≥: 2) <|
  .ff

/-- `source/bits13/char_is_unicode.cxx:2030-2045`, `isInTheGap01F0(char32_t)`. -/
def isInTheGap01F0 : B :=
  let column := c >>: 4 &: 15
  let row := c &: 15
  .case column [2] (row ≥: 12) <|
  .case column [9] (row ≥: 4) <|
  .case column [10] (row =: 15) <|
  .case column [11, 12, 13] (row =: 0) <|
  .case column [15] (row ≥: 6) <|
  .ff

/-- `source/bits13/char_is_unicode.cxx:2047-2060`, `isInTheGap01F1(char32_t)`. -/
def isInTheGap01F1 : B :=
  let column := c >>: 4 &: 15
  let row := c &: 15
  .case column [10] (row ≥: 14) <|
  .case column [11, 12, 13] .tt <|
  .case column [14] (row ≤: 5) <|
  .ff

/-- `source/bits13/char_is_unicode.cxx:2062-2079`, `isInTheGap01F2(char32_t)`. -/
def isInTheGap01F2 : B :=
  let column := c >>: 4 &: 15
  .cond (column ≥: 7) .tt <|
  let row := c &: 15
  .case column [0] (row ≥: 3) <|
  .case column [3] (row ≥: 12) <|
  .case column [4] (row ≥: 9) <|
  .case column [5] (row ≥: 2) <|
  .case column [6] (row ≥: 6) <|
  .ff

/-- `source/bits13/char_is_unicode.cxx:2081-2097`, `isInTheGap01F6(char32_t)`. -/
def isInTheGap01F6 : B :=
  let column := c >>: 4 &: 15
  .cond (column <: 13) .ff <|
  let row := c &: 15
  .case column [13] (row ≥: 8) <|
  .case column [14] (row ≥: 13) <|
  .case column [15] (row ≥: 13) <|
  .ff

/-- `source/bits13/char_is_unicode.cxx:2099-2116`, `isInTheGap01F7(char32_t)`. -/
def isInTheGap01F7 : B :=
  let column := c >>: 4 &: 15
  .cond (column <: 7) .ff <|
  let row := c &: 15
  .case column [7] (row ≥: 4) <|
  .case column [13] (row ≥: 9) <|
  .case column [14] (row ≥: 12) <|
  .case column [15] .tt <|
  .ff

/-- `source/bits13/char_is_unicode.cxx:2118-2136`, `isInTheGap01F8(char32_t)`. -/
def isInTheGap01F8 : B :=
  let column := c >>: 4 &: 15
  .cond (column >: 11) .tt <|
  let row := c &: 15
  .case column [0] (row ≥: 12) <|
  .case column [4] (row ≥: 8) <|
  .case column [5] (row ≥: 10) <|
  .case column [8] (row ≥: 8) <|
  .case column [10] (row ≥: 14) <|
  .case column [11] (row ≥: 2) <|
  .ff

/-- `source/bits13/char_is_unicode.cxx:2138-2148`, `isInTheGap01F9(char32_t)`. -/
def isInTheGap01F9 : B :=
  let column := c >>: 4 &: 15
  let row := c &: 15
  .case column [7] (row =: 9) <|
  .case column [12] (row =: 12) <|
  .ff

/-- `source/bits13/char_is_unicode.cxx:2150-2170`, `isInTheGap01FA(char32_t)`. -/
def isInTheGap01FA : B :=
  let column := c >>: 4 &: 15
  .cond (column ≥: 14) .tt <|
  let row := c &: 15
  .case column [5] (row ≥: 4) <|
  .case column [6] (row ≥: 14) <|
  .case column [7] (row ≥: 5 &&: row ≤: 7 ||: row ≥: 11) <|
  .case column [8] (row ≥: 7) <|
  .case column [10] (row ≥: 9) <|
  .case column [11] (row ≥: 7) <|
  .case column [12] (row ≥: 3) <|
  .case column [13] (row ≥: 7) <|
  .ff

/-- `source/bits13/char_is_unicode.cxx:2172-2185`, `isInTheGap01FB(char32_t)`. -/
def isInTheGap01FB : B :=
  let column := c >>: 4 &: 15
  let row := c &: 15
  .case column [9] (row =: 3) <|
  .case column [12] (row ≥: 11) <|
  .case column [15] (row ≥: 10) <|
  .case column [13, 14] .tt <|
  .ff

/-- `source/bits13/char_is_unicode.cxx:2187-2358`, `isInTheGap01(char32_t)`. -/
def isInTheGap01 : B :=
  let page := c >>: 8 &: 0xFF
  let sheaf := page >>: 4
  let page := page &: 15
  .case sheaf [0] (
    .case page [0] (.call isInTheGap0100 c) <|
    .case page [1] (.call isInTheGap0101 c) <|
    .case page [2] (.call isInTheGap0102 c) <|
    .case page [3] (.call isInTheGap0103 c) <|
    .case page [4] (.call isInTheGap0104 c) <|
    .case page [5] (.call isInTheGap0105 c) <|
    .case page [7] (.call isInTheGap0107 c) <|
    .case page [8] (.call isInTheGap0108 c) <|
    .case page [9] (.call isInTheGap0109 c) <|
    .case page [10] (.call isInTheGap010A c) <|
    .case page [11] (.call isInTheGap010B c) <|
    .case page [12] (.call isInTheGap010C c) <|
    .case page [13] (.call isInTheGap010D c) <|
    .case page [14] (.call isInTheGap010E c) <|
    .case page [15] (.call isInTheGap010F c) <|
    .ff) <|
  .case sheaf [1] (
    .case page [0] (.call isInTheGap0110 c) <|
    .case page [1] (.call isInTheGap0111 c) <|
    .case page [2] (.call isInTheGap0112 c) <|
    .case page [3] (.call isInTheGap0113 c) <|
    .case page [4] (.call isInTheGap0114 c) <|
    .case page [5] (.call isInTheGap0115 c) <|
    .case page [6] (.call isInTheGap0116 c) <|
    .case page [7] (.call isInTheGap0117 c) <|
    .case page [8] (.call isInTheGap0118 c) <|
    .case page [9] (.call isInTheGap0119 c) <|
    .case page [10] (.call isInTheGap011A c) <|
    .case page [12] (.call isInTheGap011C c) <|
    .case page [13] (.call isInTheGap011D c) <|
    .case page [14] (.call isInTheGap011E c) <|
    .case page [15] (.call isInTheGap011F c) <|
    .tt) <|
  .case sheaf [2] (
    .case page [0, 1, 2] .ff <|
    .case page [3] (.call isInTheGap0123 c) <|
    .case page [4] (.call isInTheGap0124 c) <|
    .case page [5] (.call isInTheGap0125 c) <|
    .tt) <|
  .case sheaf [3] (
    .case page [0, 1, 2, 3] .ff <|
    .case page [4] (.call isInTheGap0134 c) <|
    .tt) <|
  .case sheaf [4] (
    .case page [4, 5] .ff <|
    .case page [6] (.call isInTheGap0146 c) <|
    .tt) <|
  .case sheaf [6] (
    .case page [8, 9] .ff <|
    .case page [10] (.call isInTheGap016A c) <|
    .case page [11] (.call isInTheGap016B c) <|
    .case page [14] (.call isInTheGap016E c) <|
    .case page [15] (.call isInTheGap016F c) <|
    .tt) <|
  .case sheaf [7] .ff <|
  .case sheaf [8] (
    .case page [7] (.call isInTheGap0187 c) <|
    .case page [12] (.call isInTheGap018C c) <|
    .case page [13] (.call isInTheGap018D c) <|
    .case page [14, 15] .tt <|
    .ff) <|
  .case sheaf [11] (
    .case page [0] .ff <|
    .case page [1] (.call isInTheGap01B1 c) <|
    .case page [2] (.call isInTheGap01B2 c) <|
    .case page [12] (.call isInTheGap01BC c) <|
    .tt) <|
  .case sheaf [13] (
    .case page [8, 9] .ff <|
    .case page [0] (.call isInTheGap01D0 c) <|
    .case page [1] (.call isInTheGap01D1 c) <|
    .case page [2] (.call isInTheGap01D2 c) <|
    .case page [3] (.call isInTheGap01D3 c) <|
    .case page [4] (.call isInTheGap01D4 c) <|
    .case page [5] (.call isInTheGap01D5 c) <|
    .case page [6] (.call isInTheGap01D6 c) <|
    .case page [7] (.call isInTheGap01D7 c) <|
    .case page [10] (.call isInTheGap01DA c) <|
    .tt) <|
  .case sheaf [14] (
    .case page [0] (.call isInTheGap01E0 c) <|
    .case page [1] (.call isInTheGap01E1 c) <|
    .case page [2] (.call isInTheGap01E2 c) <|
    .case page [8] (.call isInTheGap01E8 c) <|
    .case page [9] (.call isInTheGap01E9 c) <|
    .case page [12] (.call isInTheGap01EC c) <|
    .case page [13] (.call isInTheGap01ED c) <|
    .case page [14] (.call isInTheGap01EE c) <|
    .tt) <|
  .case sheaf [15] (
    .case page [3, 4, 5] .ff <|
    .case page [0] (.call isInTheGap01F0 c) <|
    .case page [1] (.call isInTheGap01F1 c) <|
    .case page [2] (.call isInTheGap01F2 c) <|
    .case page [6] (.call isInTheGap01F6 c) <|
    .case page [7] (.call isInTheGap01F7 c) <|
    .case page [8] (.call isInTheGap01F8 c) <|
    .case page [9] (.call isInTheGap01F9 c) <|
    .case page [10] (.call isInTheGap01FA c) <|
    .case page [11] (.call isInTheGap01FB c) <|
    .tt) <|
  .tt

/-- `source/bits13/char_is_unicode.cxx:2360-2372`, `isInTheGap02A6(char32_t)`. -/
def isInTheGap02A6 : B :=
  let column := c >>: 4 &: 15
  .cond (column <: 13) .ff <|
  .cond (column >: 13) .tt <|
  c &: 15 ≥: 14

/-- `source/bits13/char_is_unicode.cxx:2374-2384`, `isInTheGap02B7(char32_t)`. -/
def isInTheGap02B7 : B :=
  .cond (c >>: 4 &: 15 =: 3) (c &: 15 ≥: 5) <|
  .ff

/-- `source/bits13/char_is_unicode.cxx:2386-2396`, `isInTheGap02B8(char32_t)`. -/
def isInTheGap02B8 : B :=
  .cond (c >>: 4 &: 15 =: 1) (c &: 15 ≥: 14) <|
  .ff

/-- `source/bits13/char_is_unicode.cxx:2398-2410`, `isInTheGap02CE(char32_t)`. -/
def isInTheGap02CE : B :=
  let column := c >>: 4 &: 15
  let row := c &: 15
  .case column [10] (row ≥: 2) <|
  .ff

/-- `source/bits13/char_is_unicode.cxx:2412-2421`, `isInTheGap02EB(char32_t)`. -/
def isInTheGap02EB : B :=
  let column := c >>: 4 &: 15
  .case column [14] (c &: 15 >: 0) <|
  .case column [15] .tt <|
  .ff

/-- `source/bits13/char_is_unicode.cxx:2423-2435`, `isInTheGap02FA(char32_t)`. -/
def isInTheGap02FA : B :=
  let column := c >>: 4 &: 15
  .cond (column <: 1) .ff <|
  .cond (column >: 1) .tt <|
  c &: 15 ≥: 14

/-- `source/bits13/char_is_unicode.cxx:2437-2489`, `isInTheGap02(char32_t)`. -/
def isInTheGap02 : B :=
  let page := c >>: 8 &: 0xFF
  let sheaf := page >>: 4
  let page := page &: 15
  .case sheaf [10] (
    .cond (page =: 6) (.call isInTheGap02A6 c) <|
    .ff) <|
  .case sheaf [11] (
    .case page [7] (.call isInTheGap02B7 c) <|
    .case page [8] (.call isInTheGap02B8 c) <|
    .ff) <|
  .case sheaf [12] (
    .case page [14] (.call isInTheGap02CE c) <|
    .ff) <|
  .case sheaf [14] (
    .case page [11] (.call isInTheGap02EB c) <|
    .case page [12, 13, 14, 15] .tt <|
    .ff) <|
  .case sheaf [15] (
    .cond (page <: 8 ||: page >: 10) .tt <|
    .cond (page <: 10) .ff <|
    (.call isInTheGap02FA c)) <|
  .ff

/-- `source/bits13/char_is_unicode.cxx:2491-2499`, `isInTheGap03(char32_t)`. -/
def isInTheGap03 : B :=
  let page := c >>: 8 &: 0xFF
  .cond (page =: 0x13) (c &: 0xFF ≥: 0x4B) <|
  page >: 0x13

/-- `source/bits13/char_is_unicode.cxx:2501-2530`, `isInTheGap0E(char32_t)`. -/
def isInTheGap0E : B :=
  let page := c >>: 8 &: 0xFF
  let sheaf := page >>: 4
  let page := page &: 15
  .cond (sheaf >: 0 ||: page >: 1) .tt <|
  let column := c >>: 4 &: 15
  let row := c &: 15
  .cond (page =: 0) (
    .cond (column ≥: 8 ||: column =: 1) .tt <|
    .cond (column =: 0) (!: row =: 1) <|
    .ff) <|
  column >: 14

/-- `source/bits13/char_is_unicode.cxx:2534-2641`, `isUnicodeAssigned(char16_t)`. -/
def isUnicodeAssigned16 : B :=
  let page := c >>: 8 &: 0xFF
  let sheaf := page >>: 4
  let page := page &: 15
  .case sheaf [0] (
    .case page [3] (!: (.call isInTheGap0003 c)) <|
    .case page [5] (!: (.call isInTheGap0005 c)) <|
    .case page [6] (!: (.call isInTheGap0006 c)) <|
    .case page [7] (!: (.call isInTheGap0007 c)) <|
    .case page [8] (!: (.call isInTheGap0008 c)) <|
    .case page [9] (!: (.call isInTheGap0009 c)) <|
    .case page [10] (!: (.call isInTheGap000A c)) <|
    .case page [11] (!: (.call isInTheGap000B c)) <|
    .case page [12] (!: (.call isInTheGap000C c)) <|
    .case page [13] (!: (.call isInTheGap000D c)) <|
    .case page [14] (!: (.call isInTheGap000E c)) <|
    .case page [15] (!: (.call isInTheGap000F c)) <|
    .tt) <|
  .case sheaf [1] (
    .case page [0] (!: (.call isInTheGap0010 c)) <|
    .case page [2] (!: (.call isInTheGap0012 c)) <|
    .case page [3] (!: (.call isInTheGap0013 c)) <|
    .case page [6] (!: (.call isInTheGap0016 c)) <|
    .case page [7] (!: (.call isInTheGap0017 c)) <|
    .case page [8] (!: (.call isInTheGap0018 c)) <|
    .case page [9] (!: (.call isInTheGap0019 c)) <|
    .case page [10] (!: (.call isInTheGap001A c)) <|
    .case page [11] (!: (.call isInTheGap001B c)) <|
    .case page [12] (!: (.call isInTheGap001C c)) <|
    .case page [13] (!: c =: 0x1DFA) <|
    .case page [15] (!: (.call isInTheGap001F c)) <|
    .tt) <|
  .case sheaf [2] (
    .case page [0] (!: (.call isInTheGap0020 c)) <|
    .case page [1] (!: (.call isInTheGap0021 c)) <|
    .case page [4] (!: (.call isInTheGap0024 c)) <|
    .case page [11] (!: (.call isInTheGap002B c)) <|
    .case page [12] (!: (.call isInTheGap002C c)) <|
    .case page [13] (!: (.call isInTheGap002D c)) <|
    .case page [14] (!: (.call isInTheGap002E c)) <|
    .case page [15] (!: (.call isInTheGap002F c)) <|
    .tt) <|
  .case sheaf [3] (
    .case page [0] (!: (.call isInTheGap0030 c)) <|
    .case page [1] (!: (.call isInTheGap0031 c)) <|
    .case page [2] (!: (.call isInTheGap0032 c)) <|
    .tt) <|
  .case sheaf [9] (
    .cond (page =: 15) (!: (.call isInTheGap009F c)) <|
    .tt) <|
  .case sheaf [10] (
    .case page [4] (!: (.call isInTheGap00A4 c)) <|
    .case page [6] (!: (.call isInTheGap00A6 c)) <|
    .case page [7] (!: (.call isInTheGap00A7 c)) <|
    .case page [8] (!: (.call isInTheGap00A8 c)) <|
    .case page [9] (!: (.call isInTheGap00A9 c)) <|
    .case page [10] (!: (.call isInTheGap00AA c)) <|
    .case page [11] (!: (.call isInTheGap00AB c)) <|
    .tt) <|
  .case sheaf [13] (
    .cond (page ≥: 7) (!: (.call isInTheGap00D7_DF c)) <|
    .tt) <|
  .case sheaf [14] .ff <|
  .case sheaf [15] (
    .case page [0, 1, 2, 3, 4, 5, 6, 7, 8] .ff <|
    .case page [10] (!: (.call isInTheGap00FA c)) <|
    .case page [11] (!: (.call isInTheGap00FB c)) <|
    .case page [13] (!: (.call isInTheGap00FD c)) <|
    .case page [14] (!: (.call isInTheGap00FE c)) <|
    .case page [15] (!: (.call isInTheGap00FF c)) <|
    .tt) <|
  .tt

/-- `source/bits13/char_is_unicode.cxx:2643-2654`, `isUnicodeAssigned(char32_t)`. -/
def isUnicodeAssigned32 : B :=
  .case (c >>: 0x10) [0] (.call isUnicodeAssigned16 (.cast (c &: 0xFFFF) 16)) <|
  .case (c >>: 0x10) [1] (!: (.call isInTheGap01 c)) <|
  .case (c >>: 0x10) [2] (!: (.call isInTheGap02 c)) <|
  .case (c >>: 0x10) [3] (!: (.call isInTheGap03 c)) <|
  .case (c >>: 0x10) [14] (!: (.call isInTheGap0E c)) <|
  .ff

/-- `source/bits13/char_is_unicode.cxx:2656-2668`, `isUnicodePrivate(char16_t)`. -/
def isUnicodePrivate16 : B :=
  let page := c >>: 8 &: 0xFF
  let sheaf := page >>: 4
  let page := page &: 15
  .case sheaf [14] .tt <|
  .case sheaf [15] (page <: 9) <|
  .ff

/-- `source/bits13/char_is_unicode.cxx:2670-2679`, `isUnicodePrivate(char32_t)`. -/
def isUnicodePrivate32 : B :=
  .case (c >>: 0x10) [0] (.call isUnicodePrivate16 (.cast (c &: 0xFFFF) 16)) <|
  .case (c >>: 0x10) [15, 0x10] (c &: 0xFFFF ≤: 0xFFFD) <|
  .ff

/-- `source/bits13/char_is_unicode.cxx:2681-2685`, `isControlChar(char)`. -/
def isControlChar8 : B :=
  let u := c
  u <: 0x20 ||: u ≥: 0x7F &&: u <: 0xA0

/-- `source/bits13/char_is_unicode.cxx:2687-2694`, `isControlChar(char16_t)`. -/
def isControlChar16 : B :=
  .cond (!: c &: 0xFFFFFF00 =: 0) .ff <|
  (.call isControlChar8 (.cast (c &: 0xFF) 8))

/-- `source/bits13/char_is_unicode.cxx:2696-2703`, `isControlChar(char32_t)`. -/
def isControlChar32 : B :=
  .cond (!: c &: 0xFFFFFF00 =: 0) .ff <|
  (.call isControlChar8 (.cast (c &: 0xFF) 8))

/-- `source/bits13/char_is_unicode.cxx:2705-2719`, `isWhitespaceChar(char)`. -/
def isWhitespaceChar8 : B :=
  .case c [9, 10, 11, 12, 13, 0x20, 0x85, 0xA0] .tt <|
  .ff

/-- `source/bits13/char_is_unicode.cxx:2721-2748`, `isWhitespaceChar(char16_t)`. -/
def isWhitespaceChar16 : B :=
  .cond (.eqE (c &: 0xFF) c) (.call isWhitespaceChar8 (.cast c 8)) <|
  let page := c >>: 8 &: 0xFF
  let sheaf := page >>: 4
  let page := page &: 15
  let byte := (.cast c 8)
  .case sheaf [1] (page =: 6 &&: byte =: 0x80) <|
  .case sheaf [2] (
    .cond (!: page =: 0) .ff <|
    byte ≤: 10 ||: byte =: 0x28 ||: byte =: 0x29 ||: byte =: 0x2F ||: byte =: 0x5F) <|
  .case sheaf [3] (page =: 0 &&: byte =: 0) <|
  .ff

/-- `source/bits13/char_is_unicode.cxx:2750-2760`, `isWhitespaceChar(char32_t)`. -/
def isWhitespaceChar32 : B :=
  .cond (c >: 0x3000) .ff <|
  (.call isWhitespaceChar16 (.cast c 16))

/-- `source/bits13/char_to_lower.cxx:55-64`, `toLowerC(char)`. -/
def toLowerC : V :=
  let uc := c
  .cond (uc <: 0x41 ||: uc >: 0xDE ||: uc >: 0x5A &&: uc <: 0xC0) (.ret c) <|
  .ret (.cast (uc +: 0x20) 8)

/-- `source/bits13/char_to_lower.cxx:69-138`, `toLower0100(char16_t)`. -/
def toLower0100 : V :=
  .cond (c =: 0x130) (.ret (.lit 0x69)) <|
  .cond (c <: 0x138 ||: c ≥: 0x14A &&: c ≤: 0x177 ||: c ≥: 0x1A0 &&: c ≤: 0x1A5 ||: c ≥: 0x1DE
      &&: c ≤: 0x1EF ||: c ≥: 0x1F8) (.ret (.cast (c |: 1) 16)) <|
  .cond (c ≥: 0x139 &&: c ≤: 0x148 ||: c ≥: 0x179 &&: c ≤: 0x17E ||: c ≥: 0x1B3 &&: c ≤: 0x1B6
      ||: c ≥: 0x1CF &&: c ≤: 0x1DC) (.ret (.cast (c +: 1 &: 0xFFFFFFFE) 16)) <|
  .case c [0x178] (.ret (.lit 0xFF)) <|
  .case c [0x181] (.ret (.lit 0x253)) <|
  .case c [0x182] (.ret (.lit 0x183)) <|
  .case c [0x184] (.ret (.lit 0x185)) <|
  .case c [0x186] (.ret (.lit 0x254)) <|
  .case c [0x187] (.ret (.lit 0x188)) <|
  .case c [0x189] (.ret (.lit 0x256)) <|
  .case c [0x18A] (.ret (.lit 0x257)) <|
  .case c [0x18B] (.ret (.lit 0x18C)) <|
  .case c [0x18E] (.ret (.lit 0x1DD)) <|
  .case c [0x18F] (.ret (.lit 0x259)) <|
  .case c [0x190] (.ret (.lit 0x25B)) <|
  .case c [0x191] (.ret (.lit 0x192)) <|
  .case c [0x193] (.ret (.lit 0x260)) <|
  .case c [0x194] (.ret (.lit 0x263)) <|
  .case c [0x196] (.ret (.lit 0x269)) <|
  .case c [0x197] (.ret (.lit 0x268)) <|
  .case c [0x198] (.ret (.lit 0x199)) <|
  .case c [0x19C] (.ret (.lit 0x26F)) <|
  .case c [0x19D] (.ret (.lit 0x272)) <|
  .case c [0x19F] (.ret (.lit 0x275)) <|
  .case c [0x1A6] (.ret (.lit 0x280)) <|
  .case c [0x1A7] (.ret (.lit 0x1A8)) <|
  .case c [0x1A9] (.ret (.lit 0x283)) <|
  .case c [0x1AC] (.ret (.lit 0x1AD)) <|
  .case c [0x1AE] (.ret (.lit 0x288)) <|
  .case c [0x1AF] (.ret (.lit 0x1B0)) <|
  .case c [0x1B1] (.ret (.lit 0x28A)) <|
  .case c [0x1B2] (.ret (.lit 0x28B)) <|
  .case c [0x1B7] (.ret (.lit 0x292)) <|
  .case c [0x1B8] (.ret (.lit 0x1B9)) <|
  .case c [0x1BC] (.ret (.lit 0x1BD)) <|
  .case c [0x1C4, 0x1C5] (.ret (.lit 0x1C6)) <|
  .case c [0x1C7, 0x1C8] (.ret (.lit 0x1C9)) <|
  .case c [0x1CA, 0x1CB] (.ret (.lit 0x1CC)) <|
  .case c [0x1CD] (.ret (.lit 0x1CE)) <|
  .case c [0x1F1, 0x1F2] (.ret (.lit 0x1F3)) <|
  .case c [0x1F4] (.ret (.lit 0x1F5)) <|
  .case c [0x1F6] (.ret (.lit 0x195)) <|
  .case c [0x1F7] (.ret (.lit 0x1BF)) <|
  .ret c

/-- `source/bits13/char_to_lower.cxx:141-162`, `toLower0200(char16_t)`. -/
def toLower0200 : V :=
  .cond (c <: 0x220 ||: c ≥: 0x222 &&: c ≤: 0x233 ||: c ≥: 0x246
      &&: c ≤: 0x24F) (.ret (.cast (c |: 1) 16)) <|
  .case c [0x220] (.ret (.lit 0x19E)) <|
  .case c [0x23A] (.ret (.lit 0x2C65)) <|
  .case c [0x23B] (.ret (.lit 0x23C)) <|
  .case c [0x23D] (.ret (.lit 0x19A)) <|
  .case c [0x23E] (.ret (.lit 0x2C66)) <|
  .case c [0x241] (.ret (.lit 0x242)) <|
  .case c [0x243] (.ret (.lit 0x180)) <|
  .case c [0x244] (.ret (.lit 0x289)) <|
  .case c [0x245] (.ret (.lit 0x28C)) <|
  .ret c

/-- `source/bits13/char_to_lower.cxx:165-202`, `toLower0300(char16_t)`. -/
def toLower0300 : V :=
  .cond (c <: 0x370 ||: c &: 0xF0 =: 0xB0) (.ret c) <|
  .cond (c ≥: 0x370 &&: c ≤: 0x373 ||: c ≥: 0x376 &&: c ≤: 0x377 ||: c ≥: 0x3D8
      &&: c ≤: 0x3EF) (.ret (.cast (c |: 1) 16)) <|
  .cond (c ≥: 0x391 &&: c ≤: 0x3A1 ||: c ≥: 0x3A3 &&: c ≤: 0x3AB) (.ret (.cast (c +: 0x20) 16)) <|
  .case c [0x37F] (.ret (.lit 0x3F3)) <|
  .case c [0x386] (.ret (.lit 0x3AC)) <|
  .case c [0x388] (.ret (.lit 0x3AD)) <|
  .case c [0x389] (.ret (.lit 0x3AE)) <|
  .case c [0x38A] (.ret (.lit 0x3AF)) <|
  .case c [0x38C] (.ret (.lit 0x3CC)) <|
  .case c [0x38E] (.ret (.lit 0x3CD)) <|
  .case c [0x38F] (.ret (.lit 0x3CE)) <|
  .case c [0x3CF] (.ret (.lit 0x3D7)) <|
  .case c [0x3F4] (.ret (.lit 0x3B8)) <|
  .case c [0x3F7] (.ret (.lit 0x3F8)) <|
  .case c [0x3F9] (.ret (.lit 0x3F2)) <|
  .case c [0x3FA] (.ret (.lit 0x3FB)) <|
  .case c [0x3FD] (.ret (.lit 0x37B)) <|
  .case c [0x3FE] (.ret (.lit 0x37C)) <|
  .case c [0x3FF] (.ret (.lit 0x37D)) <|
  .ret c

/-- `source/bits13/char_to_lower.cxx:205-230`, `toLower0400(char16_t)`. -/
def toLower0400 : V :=
  .cond (c <: 0x410) (.ret (.cast (c +: 0x50) 16)) <|
  .cond (c <: 0x430) (.ret (.cast (c +: 0x20) 16)) <|
  .cond (c ≥: 0x460 &&: c ≤: 0x481 ||: c ≥: 0x48A &&: c ≤: 0x4BF
      ||: c ≥: 0x4D0) (.ret (.cast (c |: 1) 16)) <|
  .cond (c =: 0x4C0) (.ret (.lit 0x4CF)) <|
  .cond (c ≥: 0x4C1 &&: c ≤: 0x4CE) (.ret (.cast (c +: 1 &: 0xFFFFFFFE) 16)) <|
  .ret c

/-- `source/bits13/char_to_lower.cxx:233-245`, `toLower0500(char16_t)`. -/
def toLower0500 : V :=
  .cond (c <: 0x530) (.ret (.cast (c |: 1) 16)) <|
  .cond (c ≥: 0x531 &&: c ≤: 0x556) (.ret (.cast (c +: 0x30) 16)) <|
  .ret c

/-- `source/bits13/char_to_lower.cxx:248-340`, `toLower1000(char16_t)`. -/
def toLower1000 : V :=
  .case (c >>: 8) [0x10] (
    .cond (c ≥: 0x10A0 &&: c ≤: 0x10C5 ||: c =: 0x10C7
        ||: c =: 0x10CD) (.ret (.cast (c +: 0x1C60) 16)) <|
    .ret c) <|
  .case (c >>: 8) [0x13] (
    .cond (c ≥: 0x13A0 &&: c <: 0x13F0) (.ret (.cast (c +: 0x97D0) 16)) <|
    .cond (c ≥: 0x13F0 &&: c ≤: 0x13F5) (.ret (.cast (c |: 8) 16)) <|
    .ret c) <|
  .case (c >>: 8) [0x1E] (
    .cond (c =: 0x1E9E) (.ret (.lit 0xDF)) <|
    .ret (.cast (c |: 1) 16)) <|
  .case (c >>: 8) [0x1F] (
    .cond (c <: 0x1F70 ||: c ≥: 0x1F80 &&: c <: 0x1FB0) (
      .case c [0x1F1E, 0x1F1F, 0x1F4E, 0x1F4F, 0x1F58, 0x1F5A, 0x1F5C, 0x1F5E] (.ret c) <|
      .ret (.cast (c &: 0xFFFFFFF7) 16)) <|
    .case c [0x1FB8] (.ret (.lit 0x1FB0)) <|
    .case c [0x1FB9] (.ret (.lit 0x1FB1)) <|
    .case c [0x1FBA] (.ret (.lit 0x1F70)) <|
    .case c [0x1FBB] (.ret (.lit 0x1F71)) <|
    .case c [0x1FBC] (.ret (.lit 0x1FB3)) <|
    .case c [0x1FC8] (.ret (.lit 0x1F72)) <|
    .case c [0x1FC9] (.ret (.lit 0x1F73)) <|
    .case c [0x1FCA] (.ret (.lit 0x1F74)) <|
    .case c [0x1FCB] (.ret (.lit 0x1F75)) <|
    .case c [0x1FCC] (.ret (.lit 0x1FC3)) <|
    .case c [0x1FD8] (.ret (.lit 0x1FD0)) <|
    .case c [0x1FD9] (.ret (.lit 0x1FD1)) <|
    .case c [0x1FDA] (.ret (.lit 0x1F76)) <|
    .case c [0x1FDB] (.ret (.lit 0x1F77)) <|
    .case c [0x1FE8] (.ret (.lit 0x1FE0)) <|
    .case c [0x1FE9] (.ret (.lit 0x1FE1)) <|
    .case c [0x1FEA] (.ret (.lit 0x1F7A)) <|
    .case c [0x1FEB] (.ret (.lit 0x1F7B)) <|
    .case c [0x1FEC] (.ret (.lit 0x1FE5)) <|
    .case c [0x1FF8] (.ret (.lit 0x1F78)) <|
    .case c [0x1FF9] (.ret (.lit 0x1F79)) <|
    .case c [0x1FFA] (.ret (.lit 0x1F7C)) <|
    .case c [0x1FFB] (.ret (.lit 0x1F7D)) <|
    .case c [0x1FFC] (.ret (.lit 0x1FF3)) <|
    .ret c) <|
  .ret c

/-- `source/bits13/char_to_lower.cxx:343-399`, `toLower2000(char16_t)`. -/
def toLower2000 : V :=
  .case c [0x2126] (.ret (.lit 0x3C9)) <|
  .case c [0x212A] (.ret (.lit 0x6B)) <|
  .case c [0x212B] (.ret (.lit 0xE5)) <|
  .case c [0x2132] (.ret (.lit 0x214E)) <|
  .case c [0x2183] (.ret (.lit 0x2184)) <|
  .cond (c &: 0xFF00 =: 0x2C00) (
    .cond (c <: 0x2C2F) (.ret (.cast (c +: 0x30) 16)) <|
    .cond (c ≥: 0x2C80 &&: c ≤: 0x2CE3 ||: c =: 0x2CF2) (.ret (.cast (c |: 1) 16)) <|
    .cond (c ≥: 0x2C67 &&: c ≤: 0x2C6C ||: c ≥: 0x2CEB
        &&: c ≤: 0x2CEE) (.ret (.cast (c +: 1 &: 0xFFFFFFFE) 16)) <|
    .case c [0x2C60, 0x2C72] (.ret (.cast (c |: 1) 16)) <|
    .case c [0x2C75] (.ret (.cast (c +: 1) 16)) <|
    .case c [0x2C62] (.ret (.lit 0x26B)) <|
    .case c [0x2C63] (.ret (.lit 0x1D7D)) <|
    .case c [0x2C64] (.ret (.lit 0x27D)) <|
    .case c [0x2C6D] (.ret (.lit 0x251)) <|
    .case c [0x2C6E] (.ret (.lit 0x271)) <|
    .case c [0x2C6F] (.ret (.lit 0x250)) <|
    .case c [0x2C70] (.ret (.lit 0x252)) <|
    .case c [0x2C7E] (.ret (.lit 0x23F)) <|
    .case c [0x2C7F] (.ret (.lit 0x240)) <|
    .ret c) <|
  .cond (c &: 0xFFF0 =: 0x2160) (.ret (.cast (c |: 0x10) 16)) <|
  .cond (c ≥: 0x24B6 &&: c <: 0x24D0) (.ret (.cast (c +: 0x1A) 16)) <|
  .ret c

/-- `source/bits13/char_to_lower.cxx:402-460`, `toLowerA000(char16_t)`. -/
def toLowerA000 : V :=
  .case ((c &: 0xF00) >>: 8) [6] (
    .cond (c ≥: 0xA640 &&: c ≤: 0xA66D ||: c ≥: 0xA680
        &&: c ≤: 0xA69B) (.ret (.cast (c |: 1) 16)) <|
    .ret c) <|
  .case ((c &: 0xF00) >>: 8) [7] (
    .cond (c ≥: 0xA722 &&: c ≤: 0xA72F ||: c ≥: 0xA732 &&: c ≤: 0xA76F ||: c ≥: 0xA77E
        &&: c ≤: 0xA787 ||: c ≥: 0xA790 &&: c ≤: 0xA793 ||: c ≥: 0xA796 &&: c ≤: 0xA7A9
        ||: c ≥: 0xA7B4 &&: c ≤: 0xA7B7 ||: c ≥: 0xA7BA &&: c ≤: 0xA7BF ||: c ≥: 0xA7C2
        &&: c ≤: 0xA7C3) (.ret (.cast (c |: 1) 16)) <|
    .cond (c ≥: 0xA779 &&: c ≤: 0xA77C) (.ret (.cast (c +: 1 &: 0xFFFFFFFE) 16)) <|
    .case c [0xA77D] (.ret (.lit 0x1D79)) <|
    .case c [0xA78B] (.ret (.lit 0xA78C)) <|
    .case c [0xA78D] (.ret (.lit 0x265)) <|
    .case c [0xA7AA] (.ret (.lit 0x266)) <|
    .case c [0xA7AB] (.ret (.lit 0x25C)) <|
    .case c [0xA7AC] (.ret (.lit 0x261)) <|
    .case c [0xA7AD] (.ret (.lit 0x26C)) <|
    .case c [0xA7AE] (.ret (.lit 0x26A)) <|
    .case c [0xA7B0] (.ret (.lit 0x29E)) <|
    .case c [0xA7B1] (.ret (.lit 0x287)) <|
    .case c [0xA7B2] (.ret (.lit 0x29D)) <|
    .case c [0xA7B3] (.ret (.lit 0xAB53)) <|
    .case c [0xA7C4] (.ret (.lit 0xA794)) <|
    .case c [0xA7C5] (.ret (.lit 0x282)) <|
    .case c [0xA7C6] (.ret (.lit 0x1D8E)) <|
    .case c [0xA7C7] (.ret (.lit 0xA7C8)) <|
    .case c [0xA7C9] (.ret (.lit 0xA7CA)) <|
    .case c [0xA7F5] (.ret (.lit 0xA7F6)) <|
    .ret c) <|
  .ret c

/-- `source/bits13/char_to_lower.cxx:463-477`, `toLowerF000(char16_t)`. -/
def toLowerF000 : V :=
  .case ((c &: 0xF00) >>: 8) [15] (
    .cond (c >: 0xFF20 &&: c ≤: 0xFF3A) (.ret (.cast (c +: 0x20) 16)) <|
    .ret c) <|
  .ret c

/-- `source/bits13/char_to_lower.cxx:481-518`, `toLower2(char16_t)`. -/
def toLower2 : V :=
  .case (c >>: 8) [0] (.call toLowerC (.cast c 8) 8) <|
  .case (c >>: 8) [15, 14, 13, 12, 11, 10, 9, 8, 7, 6] (.ret c) <|
  .case (c >>: 8) [5] (.call toLower0500 c 16) <|
  .case (c >>: 8) [4] (.call toLower0400 c 16) <|
  .case (c >>: 8) [3] (.call toLower0300 c 16) <|
  .case (c >>: 8) [2] (.call toLower0200 c 16) <|
  .case (c >>: 8) [1] (.call toLower0100 c 16) <|
  .case (c >>: 12) [1] (.call toLower1000 c 16) <|
  .case (c >>: 12) [2] (.call toLower2000 c 16) <|
  .case (c >>: 12) [10] (.call toLowerA000 c 16) <|
  .case (c >>: 12) [15] (.call toLowerF000 c 16) <|
  .ret c

/-- `source/bits13/char_to_lower.cxx:524-555`, `toLower(char32_t)`. -/
def toLower : V :=
  .cond (c <: 0x10000) (.call toLower2 (.cast c 16) 16) <|
  .cond (c ≥: 0x10400 &&: c ≤: 0x118BF) (
    .cond (c <: 0x10428) (.ret (.cast (c +: 0x28) 32)) <|
    .cond (c ≥: 0x104B0 &&: c ≤: 0x104D3) (.ret (.cast (c +: 0x28) 32)) <|
    .cond (c ≥: 0x10C80 &&: c ≤: 0x10CB2) (.ret (.cast (c |: 0x40) 32)) <|
    .cond (c ≥: 0x118A0 &&: c <: 0x118C0) (.ret (.cast (c +: 0x20) 32)) <|
    .ret c) <|
  .cond (c ≥: 0x1E900 &&: c ≤: 0x1E921) (.ret (.cast (c +: 0x22) 32)) <|
  .ret c

/-- `source/bits13/char_to_lower.cxx:558-566`, `turkicToLower(char32_t)`. -/
def turkicToLower : V :=
  .case c [0x130] (.ret (.lit 0x69)) <|
  .case c [0x49] (.ret (.lit 0x131)) <|
  .call toLower c 32

end Ansak.Unicode.Bits13
