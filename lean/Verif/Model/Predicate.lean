import Verif.Model.Base

/-!
# Model of source/encoding_check_predicate.cxx and `class EncodingCheckPredicate`

The character classification functions of source/bitsNN/char_is_unicode.cxx differ between the ten
selectable Unicode versions; they are a parameter here (`CharClass`), instantiated from the
translated sources in `Verif/Model/Unicode.lean`.
-/

namespace Ansak

/-- The classification functions of source/bitsNN/char_is_unicode.cxx for one Unicode version.
Arguments are the unsigned values of the `char16_t` or `char32_t` argument. -/
structure CharClass where
  /-- `bool isUnicodeAssigned(char16_t)` -/
  assigned16 : Nat → Bool
  /-- `bool isUnicodeAssigned(char32_t)` -/
  assigned32 : Nat → Bool
  /-- `bool isUnicodePrivate(char16_t)` -/
  private16 : Nat → Bool
  /-- `bool isUnicodePrivate(char32_t)` -/
  private32 : Nat → Bool
  /-- `bool isControlChar(char)` -/
  control8 : Nat → Bool
  /-- `bool isControlChar(char16_t)` -/
  control16 : Nat → Bool
  /-- `bool isControlChar(char32_t)` -/
  control32 : Nat → Bool
  /-- `bool isWhitespaceChar(char)` -/
  white8 : Nat → Bool
  /-- `bool isWhitespaceChar(char16_t)` -/
  white16 : Nat → Bool
  /-- `bool isWhitespaceChar(char32_t)` -/
  white32 : Nat → Bool

/-- interface/string.hxx:94-102 `enum EncodingType : int`. Any `int` can be cast to it, hence `Int`. -/
abbrev EncodingType := Int
/-- interface/string.hxx:95. -/
def kIsNone : EncodingType := 0
/-- interface/string.hxx:96. -/
def kIsAssigned : EncodingType := 1
/-- interface/string.hxx:97. -/
def kIsPrivate : EncodingType := 2
/-- interface/string.hxx:98. -/
def kIsControl : EncodingType := 3
/-- interface/string.hxx:99. -/
def kIsWhitespace : EncodingType := 4
/-- interface/string.hxx:101. -/
def kFirstInvalidEncoding : EncodingType := 5

/-- source/string_internal.hxx:82-88 `enum EncodingTypeFlags`. -/
def kIsAssignedFlag : Nat := 0x0001
/-- source/string_internal.hxx:85. -/
def kIsPrivateFlag : Nat := 0x0002
/-- source/string_internal.hxx:86. -/
def kIsControlFlag : Nat := 0x0004
/-- source/string_internal.hxx:87. -/
def kIsWhiteSpaceFlag : Nat := 0x0008

/-- source/encoding_check_predicate.cxx:55-56 `encodingTypeToEncodingFlag[]`; only indexed with
`kIsNone < t < kFirstInvalidEncoding`. -/
def encodingTypeToEncodingFlag (t : EncodingType) : Nat :=
  if t = 1 then kIsAssignedFlag
  else if t = 2 then kIsPrivateFlag
  else if t = 3 then kIsControlFlag
  else if t = 4 then kIsWhiteSpaceFlag
  else 0

/-- interface/string.hxx:161-162, the two `uint32_t` members. -/
structure Pred where
  mask : U32
  value : U32
  deriving Repr, DecidableEq

namespace Pred

/-- interface/string.hxx:123, the default constructor. -/
def none : Pred := ⟨0, 0⟩

/-- source/encoding_check_predicate.cxx:66-81, the private constructor. -/
def mk' (t : EncodingType) (checkForIt : Bool := true) : Pred :=
  if t > kIsNone ∧ t < kFirstInvalidEncoding then
    let f := BitVec.ofNat 32 (encodingTypeToEncodingFlag t)
    let value := if checkForIt then f else f &&& ~~~f
    ⟨f, value⟩
  else ⟨0, 0⟩

/-- interface/string.hxx:126-129 `checkIf` and :192-195 `validIf`. -/
def validIf (t : EncodingType) : Pred := mk' t

/-- interface/string.hxx:131-134 `checkIfNot` and :197-200 `validIfNot`. -/
def validIfNot (t : EncodingType) : Pred := mk' t false

/-- source/encoding_check_predicate.cxx:86-95 `andIf`. The C++ function stores the result in `*this`
and returns a copy; the model returns the new `*this`, which is also the returned copy. -/
def andIf (p : Pred) (t : EncodingType) : Pred :=
  let other := mk' t
  ⟨p.mask ||| other.mask, p.value ||| other.value⟩

/-- source/encoding_check_predicate.cxx:100-109 `andIfNot`; `*this` is updated as in `andIf`. -/
def andIfNot (p : Pred) (t : EncodingType) : Pred :=
  let other := mk' t false
  ⟨p.mask ||| other.mask, p.value ||| other.value⟩

/-- source/encoding_check_predicate.cxx:114-122 `operator==`. -/
def eq (p q : Pred) : Bool := p.mask == q.mask && p.value == q.value

end Pred

/-- source/string_internal.hxx:245-254 `charToEncodingTypeMask`, from the four class tests. -/
def encodingTypeMask (assigned priv control white : Bool) : U32 :=
  (if assigned then BitVec.ofNat 32 kIsAssignedFlag else 0) |||
  (if priv then BitVec.ofNat 32 kIsPrivateFlag else 0) |||
  (if control then BitVec.ofNat 32 kIsControlFlag else 0) |||
  (if white then BitVec.ofNat 32 kIsWhiteSpaceFlag else 0)

/-- source/string_internal.hxx:245-254 for `char`; source/string_internal.hxx:118, 122:
`isUnicodeAssigned(char)` is `true` and `isUnicodePrivate(char)` is `false`. -/
def charToEncodingTypeMask8 (U : CharClass) (c : Nat) : U32 :=
  encodingTypeMask true false (U.control8 c) (U.white8 c)

/-- source/string_internal.hxx:245-254 for `char16_t`. -/
def charToEncodingTypeMask16 (U : CharClass) (c : Nat) : U32 :=
  encodingTypeMask (U.assigned16 c) (U.private16 c) (U.control16 c) (U.white16 c)

/-- source/string_internal.hxx:245-254 for `char32_t`. -/
def charToEncodingTypeMask32 (U : CharClass) (c : Nat) : U32 :=
  encodingTypeMask (U.assigned32 c) (U.private32 c) (U.control32 c) (U.white32 c)

namespace Pred

/-- source/encoding_check_predicate.cxx:127-135, 140-148, 153-161 `operator()`, from the mask of
the character. -/
def test (p : Pred) (cEncodingMask : U32) : Bool :=
  if p.mask = 0 then true else (cEncodingMask &&& p.mask) == p.value

/-- source/encoding_check_predicate.cxx:127-135 `operator()(char)`. -/
def call8 (U : CharClass) (p : Pred) (c : Nat) : Bool := p.test (charToEncodingTypeMask8 U c)
/-- source/encoding_check_predicate.cxx:140-148 `operator()(char16_t)`. -/
def call16 (U : CharClass) (p : Pred) (c : Nat) : Bool := p.test (charToEncodingTypeMask16 U c)
/-- source/encoding_check_predicate.cxx:153-161 `operator()(char32_t)`. -/
def call32 (U : CharClass) (p : Pred) (c : Nat) : Bool := p.test (charToEncodingTypeMask32 U c)

end Pred

end Ansak
