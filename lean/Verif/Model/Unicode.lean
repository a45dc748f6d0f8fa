import Verif.Model.Predicate
import Verif.Model.Unicode.Bits7
import Verif.Model.Unicode.Bits8
import Verif.Model.Unicode.Bits9
import Verif.Model.Unicode.Bits10
import Verif.Model.Unicode.Bits11
import Verif.Model.Unicode.Bits12
import Verif.Model.Unicode.Bits13
import Verif.Model.Unicode.Bits14
import Verif.Model.Unicode.Bits15
import Verif.Model.Unicode.Bits16

/-!
# The classification and lower-casing functions of each Unicode version

`source/bits7 .. bits16` each define the same functions; the build compiles one of the ten
directories (`CMakeLists.txt:160-171`, `ANSAK_UNICODE_SUPPORT`).  Here the directory is a
parameter, `Version`.
-/

namespace Ansak

/-- The Unicode versions a build can choose (`CMakeLists.txt:160`, `source/bits*`). -/
inductive Version where
  | v7
  | v8
  | v9
  | v10
  | v11
  | v12
  | v13
  | v14
  | v15
  | v16
  deriving DecidableEq

namespace Unicode

open CExpr

/-- `isUnicodeAssigned(char16_t)` of `char_is_unicode.cxx` in the directory of the version. -/
def isUnicodeAssigned16 : Version → B
  | .v7 => Bits7.isUnicodeAssigned16
  | .v8 => Bits8.isUnicodeAssigned16
  | .v9 => Bits9.isUnicodeAssigned16
  | .v10 => Bits10.isUnicodeAssigned16
  | .v11 => Bits11.isUnicodeAssigned16
  | .v12 => Bits12.isUnicodeAssigned16
  | .v13 => Bits13.isUnicodeAssigned16
  | .v14 => Bits14.isUnicodeAssigned16
  | .v15 => Bits15.isUnicodeAssigned16
  | .v16 => Bits16.isUnicodeAssigned16

/-- `isUnicodeAssigned(char32_t)` of `char_is_unicode.cxx` in the directory of the version. -/
def isUnicodeAssigned32 : Version → B
  | .v7 => Bits7.isUnicodeAssigned32
  | .v8 => Bits8.isUnicodeAssigned32
  | .v9 => Bits9.isUnicodeAssigned32
  | .v10 => Bits10.isUnicodeAssigned32
  | .v11 => Bits11.isUnicodeAssigned32
  | .v12 => Bits12.isUnicodeAssigned32
  | .v13 => Bits13.isUnicodeAssigned32
  | .v14 => Bits14.isUnicodeAssigned32
  | .v15 => Bits15.isUnicodeAssigned32
  | .v16 => Bits16.isUnicodeAssigned32

/-- `isUnicodePrivate(char16_t)` of `char_is_unicode.cxx` in the directory of the version. -/
def isUnicodePrivate16 : Version → B
  | .v7 => Bits7.isUnicodePrivate16
  | .v8 => Bits8.isUnicodePrivate16
  | .v9 => Bits9.isUnicodePrivate16
  | .v10 => Bits10.isUnicodePrivate16
  | .v11 => Bits11.isUnicodePrivate16
  | .v12 => Bits12.isUnicodePrivate16
  | .v13 => Bits13.isUnicodePrivate16
  | .v14 => Bits14.isUnicodePrivate16
  | .v15 => Bits15.isUnicodePrivate16
  | .v16 => Bits16.isUnicodePrivate16

/-- `isUnicodePrivate(char32_t)` of `char_is_unicode.cxx` in the directory of the version. -/
def isUnicodePrivate32 : Version → B
  | .v7 => Bits7.isUnicodePrivate32
  | .v8 => Bits8.isUnicodePrivate32
  | .v9 => Bits9.isUnicodePrivate32
  | .v10 => Bits10.isUnicodePrivate32
  | .v11 => Bits11.isUnicodePrivate32
  | .v12 => Bits12.isUnicodePrivate32
  | .v13 => Bits13.isUnicodePrivate32
  | .v14 => Bits14.isUnicodePrivate32
  | .v15 => Bits15.isUnicodePrivate32
  | .v16 => Bits16.isUnicodePrivate32

/-- `isControlChar(char)` of `char_is_unicode.cxx` in the directory of the version. -/
def isControlChar8 : Version → B
  | .v7 => Bits7.isControlChar8
  | .v8 => Bits8.isControlChar8
  | .v9 => Bits9.isControlChar8
  | .v10 => Bits10.isControlChar8
  | .v11 => Bits11.isControlChar8
  | .v12 => Bits12.isControlChar8
  | .v13 => Bits13.isControlChar8
  | .v14 => Bits14.isControlChar8
  | .v15 => Bits15.isControlChar8
  | .v16 => Bits16.isControlChar8

/-- `isControlChar(char16_t)` of `char_is_unicode.cxx` in the directory of the version. -/
def isControlChar16 : Version → B
  | .v7 => Bits7.isControlChar16
  | .v8 => Bits8.isControlChar16
  | .v9 => Bits9.isControlChar16
  | .v10 => Bits10.isControlChar16
  | .v11 => Bits11.isControlChar16
  | .v12 => Bits12.isControlChar16
  | .v13 => Bits13.isControlChar16
  | .v14 => Bits14.isControlChar16
  | .v15 => Bits15.isControlChar16
  | .v16 => Bits16.isControlChar16

/-- `isControlChar(char32_t)` of `char_is_unicode.cxx` in the directory of the version. -/
def isControlChar32 : Version → B
  | .v7 => Bits7.isControlChar32
  | .v8 => Bits8.isControlChar32
  | .v9 => Bits9.isControlChar32
  | .v10 => Bits10.isControlChar32
  | .v11 => Bits11.isControlChar32
  | .v12 => Bits12.isControlChar32
  | .v13 => Bits13.isControlChar32
  | .v14 => Bits14.isControlChar32
  | .v15 => Bits15.isControlChar32
  | .v16 => Bits16.isControlChar32

/-- `isWhitespaceChar(char)` of `char_is_unicode.cxx` in the directory of the version. -/
def isWhitespaceChar8 : Version → B
  | .v7 => Bits7.isWhitespaceChar8
  | .v8 => Bits8.isWhitespaceChar8
  | .v9 => Bits9.isWhitespaceChar8
  | .v10 => Bits10.isWhitespaceChar8
  | .v11 => Bits11.isWhitespaceChar8
  | .v12 => Bits12.isWhitespaceChar8
  | .v13 => Bits13.isWhitespaceChar8
  | .v14 => Bits14.isWhitespaceChar8
  | .v15 => Bits15.isWhitespaceChar8
  | .v16 => Bits16.isWhitespaceChar8

/-- `isWhitespaceChar(char16_t)` of `char_is_unicode.cxx` in the directory of the version. -/
def isWhitespaceChar16 : Version → B
  | .v7 => Bits7.isWhitespaceChar16
  | .v8 => Bits8.isWhitespaceChar16
  | .v9 => Bits9.isWhitespaceChar16
  | .v10 => Bits10.isWhitespaceChar16
  | .v11 => Bits11.isWhitespaceChar16
  | .v12 => Bits12.isWhitespaceChar16
  | .v13 => Bits13.isWhitespaceChar16
  | .v14 => Bits14.isWhitespaceChar16
  | .v15 => Bits15.isWhitespaceChar16
  | .v16 => Bits16.isWhitespaceChar16

/-- `isWhitespaceChar(char32_t)` of `char_is_unicode.cxx` in the directory of the version. -/
def isWhitespaceChar32 : Version → B
  | .v7 => Bits7.isWhitespaceChar32
  | .v8 => Bits8.isWhitespaceChar32
  | .v9 => Bits9.isWhitespaceChar32
  | .v10 => Bits10.isWhitespaceChar32
  | .v11 => Bits11.isWhitespaceChar32
  | .v12 => Bits12.isWhitespaceChar32
  | .v13 => Bits13.isWhitespaceChar32
  | .v14 => Bits14.isWhitespaceChar32
  | .v15 => Bits15.isWhitespaceChar32
  | .v16 => Bits16.isWhitespaceChar32

/-- `toLower(char32_t)` of `char_to_lower.cxx` in the directory of the version. -/
def toLower : Version → V
  | .v7 => Bits7.toLower
  | .v8 => Bits8.toLower
  | .v9 => Bits9.toLower
  | .v10 => Bits10.toLower
  | .v11 => Bits11.toLower
  | .v12 => Bits12.toLower
  | .v13 => Bits13.toLower
  | .v14 => Bits14.toLower
  | .v15 => Bits15.toLower
  | .v16 => Bits16.toLower

/-- `turkicToLower(char32_t)` of `char_to_lower.cxx` in the directory of the version. -/
def turkicToLower : Version → V
  | .v7 => Bits7.turkicToLower
  | .v8 => Bits8.turkicToLower
  | .v9 => Bits9.turkicToLower
  | .v10 => Bits10.turkicToLower
  | .v11 => Bits11.turkicToLower
  | .v12 => Bits12.turkicToLower
  | .v13 => Bits13.turkicToLower
  | .v14 => Bits14.turkicToLower
  | .v15 => Bits15.turkicToLower
  | .v16 => Bits16.turkicToLower

/-- `supportedUnicodeVersion` of `char_is_unicode.cxx` in the directory of the version. -/
def supportedUnicodeVersion : Version → String
  | .v7 => Bits7.supportedUnicodeVersion
  | .v8 => Bits8.supportedUnicodeVersion
  | .v9 => Bits9.supportedUnicodeVersion
  | .v10 => Bits10.supportedUnicodeVersion
  | .v11 => Bits11.supportedUnicodeVersion
  | .v12 => Bits12.supportedUnicodeVersion
  | .v13 => Bits13.supportedUnicodeVersion
  | .v14 => Bits14.supportedUnicodeVersion
  | .v15 => Bits15.supportedUnicodeVersion
  | .v16 => Bits16.supportedUnicodeVersion

/-- The classification functions of the version, as the predicates use them
(`source/string_internal.hxx:245-254`). -/
def charClass (v : Version) : CharClass where
  assigned16 := (isUnicodeAssigned16 v).eval
  assigned32 := (isUnicodeAssigned32 v).eval
  private16 := (isUnicodePrivate16 v).eval
  private32 := (isUnicodePrivate32 v).eval
  control8 := (isControlChar8 v).eval
  control16 := (isControlChar16 v).eval
  control32 := (isControlChar32 v).eval
  white8 := (isWhitespaceChar8 v).eval
  white16 := (isWhitespaceChar16 v).eval
  white32 := (isWhitespaceChar32 v).eval

/-- `source/bits*/char_to_lower.cxx`, `char32_t toLower(char32_t c)`. -/
def toLowerChar (v : Version) (c : U32) : U32 := BitVec.ofNat 32 ((toLower v).eval c.toNat)

/-- `source/bits*/char_to_lower.cxx`, `char32_t turkicToLower(char32_t c)`. -/
def turkicToLowerChar (v : Version) (c : U32) : U32 :=
  BitVec.ofNat 32 ((turkicToLower v).eval c.toNat)

/-- source/string.cxx:331-334 `getUnicodeVersionSupported()`. -/
def getUnicodeVersionSupported (v : Version) : String := supportedUnicodeVersion v

end Unicode

end Ansak
