import Verif.Model.Unicode
import Verif.Model.Cxx.Sem
import Verif.Model.Cxx.Source7
import Verif.Model.Cxx.Source8
import Verif.Model.Cxx.Source9
import Verif.Model.Cxx.Source10
import Verif.Model.Cxx.Source11
import Verif.Model.Cxx.Source12
import Verif.Model.Cxx.Source13
import Verif.Model.Cxx.Source14
import Verif.Model.Cxx.Source15
import Verif.Model.Cxx.Source16

/-!
# The source text of the character tables

Calls of the functions of `source/bits*/char_is_unicode.cxx` and `source/bits*/char_to_lower.cxx`, as the text of
these files says.
-/

namespace Ansak.Cxx

/-- `source/bits*/char_is_unicode.cxx`: which of the ten files is compiled depends on the Unicode version chosen
(`CMakeLists.txt`). -/
def isUnicodeSource : Version → List Text
  | .v7 => Source7.isUnicode
  | .v8 => Source8.isUnicode
  | .v9 => Source9.isUnicode
  | .v10 => Source10.isUnicode
  | .v11 => Source11.isUnicode
  | .v12 => Source12.isUnicode
  | .v13 => Source13.isUnicode
  | .v14 => Source14.isUnicode
  | .v15 => Source15.isUnicode
  | .v16 => Source16.isUnicode

/-- `source/bits*/char_to_lower.cxx`. -/
def toLowerSource : Version → List Text
  | .v7 => Source7.toLower
  | .v8 => Source8.toLower
  | .v9 => Source9.toLower
  | .v10 => Source10.toLower
  | .v11 => Source11.toLower
  | .v12 => Source12.toLower
  | .v13 => Source13.toLower
  | .v14 => Source14.toLower
  | .v15 => Source15.toLower
  | .v16 => Source16.toLower

/-- Call `name(char32_t)`. -/
def call32 (sc : Bool) (file : List Text) (name : Nat) (c : U32) : Option Word := call sc file name .c32 c

/-- Call `name(char16_t)`. -/
def call16 (sc : Bool) (file : List Text) (name : Nat) (c : U16) : Option Word :=
  call sc file name .c16 (c.setWidth 32)

/-- Call `name(char)`; the value of a `char` with these bits depends on whether `char` is signed. -/
def call8 (sc : Bool) (file : List Text) (name : Nat) (c : Byte) : Option Word :=
  call sc file name .char (convert sc (c.setWidth 32) .char)

end Ansak.Cxx
