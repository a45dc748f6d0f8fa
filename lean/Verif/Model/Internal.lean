import Verif.Model.Base

/-!
# Model of source/string_internal.hxx

Values of every character type are passed as `Nat` (their unsigned value): the templates of this
header are instantiated for unsigned types only, except where a comment says otherwise, and all
their arithmetic is done after promotion to `int` or `unsigned int` without overflow.
-/

namespace Ansak

/-! ## Range flags -/

/-- source/string_internal.hxx:59-61 `enum RangeTypeFlags`, single flags. -/
def kAsciiFlag : Nat := 0x0001
/-- source/string_internal.hxx:62. -/
def kUtf8Flag : Nat := 0x0002
/-- source/string_internal.hxx:63. -/
def kUcs2Flag : Nat := 0x0004
/-- source/string_internal.hxx:64. -/
def kUtf16Flag : Nat := 0x0008
/-- source/string_internal.hxx:65. -/
def kUcs4Flag : Nat := 0x0010
/-- source/string_internal.hxx:66. -/
def kUnicodeFlag : Nat := 0x0020
/-- source/string_internal.hxx:67. -/
def kInvalidRangeFlag : Nat := 0x8000

/-- source/string_internal.hxx:69. -/
def k7BitFlags : Nat :=
  kAsciiFlag ||| kUtf8Flag ||| kUcs2Flag ||| kUtf16Flag ||| kUcs4Flag ||| kUnicodeFlag
/-- source/string_internal.hxx:70. -/
def k16BitFlags : Nat := kUtf8Flag ||| kUcs2Flag ||| kUtf16Flag ||| kUcs4Flag ||| kUnicodeFlag
/-- source/string_internal.hxx:71. -/
def k21BitFlags : Nat := kUtf8Flag ||| kUtf16Flag ||| kUcs4Flag
/-- source/string_internal.hxx:73. -/
def k21BitUnicodeFlags : Nat := k21BitFlags ||| kUnicodeFlag
/-- source/string_internal.hxx:74. -/
def k31BitFlags : Nat := kUtf8Flag ||| kUcs4Flag
/-- source/string_internal.hxx:75. -/
def k32BitFlags : Nat := kUcs4Flag

/-- source/string_internal.hxx:137-147 `getUnicodeEncodableRangeFlag`, for `sizeof(C) > 1`. -/
def getUnicodeEncodableRangeFlag (c : Nat) : Nat :=
  if c ≠ 0 ∧ (c < 0xd800 ∨ c > 0xdfff) ∧ c < 0x110000 then kUnicodeFlag else 0

/-- source/string_internal.hxx:153-182 `getCharEncodableRangeFlags` for `char16_t` and `char32_t`
(the library never instantiates it for `char`). -/
def getCharEncodableRangeFlags (c : Nat) : Nat :=
  if c ≤ 0x7f then k7BitFlags
  else if c ≥ 0xd800 ∧ c ≤ 0xdfff then kInvalidRangeFlag
  else if c < 0x10000 then k16BitFlags
  else if c < 0x200000 then k21BitFlags ||| getUnicodeEncodableRangeFlag c
  else if c &&& 0x80000000 = 0 then k31BitFlags else k32BitFlags

/-- source/string_internal.hxx:188-217 `getRangeFlag(char)`. -/
def getRangeFlag8 (f : Nat) : Nat :=
  if f ≤ 0x7f then k7BitFlags
  else if f ≤ 0xbf then kInvalidRangeFlag
  else if f ≤ 0xef then k16BitFlags
  else if f ≥ 0xf0 ∧ f ≤ 0xf4 then k21BitUnicodeFlags
  else if f ≥ 0xf5 ∧ f ≤ 0xfd then k31BitFlags
  else kInvalidRangeFlag

/-- source/string_internal.hxx:223-240 `getRangeFlag(char16_t)`. -/
def getRangeFlag16 (c : Nat) : Nat :=
  if c ≥ 0xd800 ∧ c ≤ 0xdbff then k21BitUnicodeFlags
  else if c ≥ 0xdc00 ∧ c ≤ 0xdfff then kInvalidRangeFlag
  else if c ≤ 0x7f then k7BitFlags
  else k16BitFlags

/-! ## Surrogates -/

/-- source/string_internal.hxx:262-271 `isFirstHalfUtf16`. -/
def isFirstHalfUtf16 (c : Nat) : Bool := decide (c ≥ 0xd800) && decide (c ≤ 0xdbff)

/-- source/string_internal.hxx:279-288 `isSecondHalfUtf16`. -/
def isSecondHalfUtf16 (c : Nat) : Bool := decide (c ≥ 0xdc00) && decide (c ≤ 0xdfff)

/-! ## Raw UTF-8 decoding -/

/-- source/string_internal.hxx:293-297; the result is narrowed to `char16_t`. -/
def rawDecodeUtf8_2 (c0 c1 : Byte) : U16 :=
  BitVec.ofNat 16 (((c0.toNat &&& 0x1f) <<< 6) + (c1.toNat &&& 0x3f))

/-- source/string_internal.hxx:303-307; the result is narrowed to `char16_t`. -/
def rawDecodeUtf8_3 (c0 c1 c2 : Byte) : U16 :=
  BitVec.ofNat 16
    (((c0.toNat &&& 0x0f) <<< 12) + ((c1.toNat &&& 0x3f) <<< 6) + (c2.toNat &&& 0x3f))

/-- source/string_internal.hxx:313-318. -/
def rawDecodeUtf8_4 (c0 c1 c2 c3 : Byte) : U32 :=
  BitVec.ofNat 32
    (((c0.toNat &&& 0x07) <<< 18) + ((c1.toNat &&& 0x3f) <<< 12) + ((c2.toNat &&& 0x3f) <<< 6) +
      (c3.toNat &&& 0x3f))

/-- source/string_internal.hxx:324-330. -/
def rawDecodeUtf8_5 (c0 c1 c2 c3 c4 : Byte) : U32 :=
  BitVec.ofNat 32
    (((c0.toNat &&& 0x03) <<< 24) + ((c1.toNat &&& 0x3f) <<< 18) + ((c2.toNat &&& 0x3f) <<< 12) +
      ((c3.toNat &&& 0x3f) <<< 6) + (c4.toNat &&& 0x3f))

/-- source/string_internal.hxx:336-342. -/
def rawDecodeUtf8_6 (c0 c1 c2 c3 c4 c5 : Byte) : U32 :=
  BitVec.ofNat 32
    (((c0.toNat &&& 0x01) <<< 30) + ((c1.toNat &&& 0x3f) <<< 24) + ((c2.toNat &&& 0x3f) <<< 18) +
      ((c3.toNat &&& 0x3f) <<< 12) + ((c4.toNat &&& 0x3f) <<< 6) + (c5.toNat &&& 0x3f))

/-! ## Encoding -/

/-- source/string_internal.hxx:354-402 `encodeUtf8`: the bytes handed to the adder, in order.
`static_cast<char>` keeps the low 8 bits. Values with bit 31 set add nothing. -/
def encodeUtf8 (c : Nat) : List Byte :=
  if c &&& 0xffffff80 = 0 then
    [BitVec.ofNat 8 c]
  else if c ≤ 0x7ff then
    [BitVec.ofNat 8 (((c >>> 6) &&& 0x1f) ||| 0xc0),
     BitVec.ofNat 8 ((c &&& 0x3f) ||| 0x80)]
  else if c ≤ 0xffff then
    [BitVec.ofNat 8 (((c >>> 12) &&& 0x0f) ||| 0xe0),
     BitVec.ofNat 8 (((c >>> 6) &&& 0x3f) ||| 0x80),
     BitVec.ofNat 8 ((c &&& 0x3f) ||| 0x80)]
  else if c ≤ 0x1fffff then
    [BitVec.ofNat 8 (((c >>> 18) &&& 0x07) ||| 0xf0),
     BitVec.ofNat 8 (((c >>> 12) &&& 0x3f) ||| 0x80),
     BitVec.ofNat 8 (((c >>> 6) &&& 0x3f) ||| 0x80),
     BitVec.ofNat 8 ((c &&& 0x3f) ||| 0x80)]
  else if c ≤ 0x3ffffff then
    [BitVec.ofNat 8 (((c >>> 24) &&& 0x03) ||| 0xf8),
     BitVec.ofNat 8 (((c >>> 18) &&& 0x3f) ||| 0x80),
     BitVec.ofNat 8 (((c >>> 12) &&& 0x3f) ||| 0x80),
     BitVec.ofNat 8 (((c >>> 6) &&& 0x3f) ||| 0x80),
     BitVec.ofNat 8 ((c &&& 0x3f) ||| 0x80)]
  else if c ≤ 0x7fffffff then
    [BitVec.ofNat 8 (((c >>> 30) &&& 0x01) ||| 0xfc),
     BitVec.ofNat 8 (((c >>> 24) &&& 0x3f) ||| 0x80),
     BitVec.ofNat 8 (((c >>> 18) &&& 0x3f) ||| 0x80),
     BitVec.ofNat 8 (((c >>> 12) &&& 0x3f) ||| 0x80),
     BitVec.ofNat 8 (((c >>> 6) &&& 0x3f) ||| 0x80),
     BitVec.ofNat 8 ((c &&& 0x3f) ||| 0x80)]
  else []

/-- source/string_internal.hxx:412-420 `rawDecodeUtf16`. -/
def rawDecodeUtf16 (c0 c1 : U16) : U32 :=
  BitVec.ofNat 32 (0x10000 + ((c0.toNat &&& 0x3ff) <<< 10) + (c1.toNat &&& 0x3ff))

/-- source/string_internal.hxx:426-445 `rawEncodeUtf16` for `char32_t`: the units handed to the
adder, in order. -/
def rawEncodeUtf16 (c : Nat) : List U16 :=
  if c < 0x10000 then [BitVec.ofNat 16 c]
  else
    [BitVec.ofNat 16 (0xd800 + (((c - 0x10000) >>> 10) &&& 0x3ff)),
     BitVec.ofNat 16 (0xdc00 + ((c - 0x10000) &&& 0x3ff))]

end Ansak
