import Verif.Lemmas.Cpp.Link
import Verif.Props.Safety

/-!
# C67: the library as it is written

Every function of the library, called in every way that `interface/string.hxx` allows: what is called is the text of the
library. Its outcome is that of the hand-written model, of which the other files speak.
-/

namespace Ansak.Props

open Cpp
open Spec (Arg Runs RunsMember enough bytesOf)

/-! ## Validation -/

/-- `isUtf8(const std::…string&)`. -/
theorem C67_isUtf8_S1 (v : Version) (s : List Byte) :
    Runs v (name% "isUtf8") [.str8 s]
      ((isUtf8S1 (Unicode.charClass v) s).map .bool) :=
  runs_of fun w sc n hn => by linked isUtf8_S1 (E := Sealed.real) (d := d + 3) (link_are v sc) s (by fits)

/-- `isUtf8(const std::…string&, RangeType)`. -/
theorem C67_isUtf8_SR (v : Version) (s : List Byte) (t : Int) :
    Runs v (name% "isUtf8") [.str8 s, .range t]
      ((isUtf8S (Unicode.charClass v) s t Pred.none).map .bool) :=
  runs_of fun w sc n hn => by linked isUtf8_SR (E := Sealed.real) (d := d + 3) (link_are v sc) s t (by fits)

/-- `isUtf8(const std::…string&, const EncodingCheckPredicate&)`. -/
theorem C67_isUtf8_S2 (v : Version) (s : List Byte) (q : Pred) :
    Runs v (name% "isUtf8") [.str8 s, .pred q]
      ((isUtf8S2 (Unicode.charClass v) s q).map .bool) :=
  runs_of fun w sc n hn => by linked isUtf8_S2 (E := Sealed.real) (d := d + 2) (link_are v sc) s q (by fits)

/-- `isUtf8(const std::…string&, RangeType, const EncodingCheckPredicate&)`. -/
theorem C67_isUtf8_S3 (v : Version) (s : List Byte) (t : Int) (q : Pred) :
    Runs v (name% "isUtf8") [.str8 s, .range t, .pred q]
      ((isUtf8S (Unicode.charClass v) s t q).map .bool) :=
  runs_of fun w sc n hn => by linked isUtf8_S3 (E := Sealed.real) (d := d + 3) (link_are v sc) s t q (by fits)

/-- `isUtf8` of a pointer. -/
theorem C67_isUtf8_P1 (v : Version) (p : Ptr Byte) :
    Runs v (name% "isUtf8") [.ptr8 p]
      ((isUtf8P1 (Unicode.charClass v) p).map .bool) :=
  runs_of fun w sc n hn => by linked isUtf8_P1 (E := Sealed.real) (d := d + 3) (link_are v sc) p (by fits)

theorem C67_isUtf8_PR (v : Version) (p : Ptr Byte) (t : Int) :
    Runs v (name% "isUtf8") [.ptr8 p, .range t]
      ((isUtf8 (Unicode.charClass v) p t Pred.none).map .bool) :=
  runs_of fun w sc n hn => by linked isUtf8_PR (E := Sealed.real) (d := d + 3) (link_are v sc) p t (by fits)

theorem C67_isUtf8_P2 (v : Version) (p : Ptr Byte) (q : Pred) :
    Runs v (name% "isUtf8") [.ptr8 p, .pred q]
      ((isUtf8P2 (Unicode.charClass v) p q).map .bool) :=
  runs_of fun w sc n hn => by linked isUtf8_P2 (E := Sealed.real) (d := d + 2) (link_are v sc) p q (by fits)

theorem C67_isUtf8_P3 (v : Version) (p : Ptr Byte) (t : Int) (q : Pred) :
    Runs v (name% "isUtf8") [.ptr8 p, .range t, .pred q]
      ((isUtf8 (Unicode.charClass v) p t q).map .bool) :=
  runs_of fun w sc n hn => by linked isUtf8_P3 (E := Sealed.real) (d := d + 3) (link_are v sc) p t q (by fits)

/-- `isUtf8` of a pointer and a length. -/
theorem C67_isUtf8_L2 (v : Version) (p : Ptr Byte) (len : U32) :
    Runs v (name% "isUtf8") [.ptr8 p, .uint len]
      ((isUtf8Len (Unicode.charClass v) p len Pred.none).map .bool) :=
  runs_of fun w sc n hn => by linked isUtf8_L2 (E := Sealed.real) (d := d + 3) (link_are v sc) p len (by fits)

theorem C67_isUtf8_L3 (v : Version) (p : Ptr Byte) (len : U32) (q : Pred) :
    Runs v (name% "isUtf8") [.ptr8 p, .uint len, .pred q]
      ((isUtf8Len (Unicode.charClass v) p len q).map .bool) :=
  runs_of fun w sc n hn => by linked isUtf8_L3 (E := Sealed.real) (d := d + 3) (link_are v sc) p len q (by fits)

/-- `isUtf16(const std::…string&)`. -/
theorem C67_isUtf16_S1 (v : Version) (s : List U16) :
    Runs v (name% "isUtf16") [.str16 s]
      ((isUtf16S1 (Unicode.charClass v) s).map .bool) :=
  runs_of fun w sc n hn => by linked isUtf16_S1 (E := Sealed.real) (d := d + 3) (link_are v sc) s (by fits)

/-- `isUtf16(const std::…string&, RangeType)`. -/
theorem C67_isUtf16_SR (v : Version) (s : List U16) (t : Int) :
    Runs v (name% "isUtf16") [.str16 s, .range t]
      ((isUtf16S (Unicode.charClass v) s t Pred.none).map .bool) :=
  runs_of fun w sc n hn => by linked isUtf16_SR (E := Sealed.real) (d := d + 3) (link_are v sc) s t (by fits)

/-- `isUtf16(const std::…string&, const EncodingCheckPredicate&)`. -/
theorem C67_isUtf16_S2 (v : Version) (s : List U16) (q : Pred) :
    Runs v (name% "isUtf16") [.str16 s, .pred q]
      ((isUtf16S2 (Unicode.charClass v) s q).map .bool) :=
  runs_of fun w sc n hn => by linked isUtf16_S2 (E := Sealed.real) (d := d + 2) (link_are v sc) s q (by fits)

/-- `isUtf16(const std::…string&, RangeType, const EncodingCheckPredicate&)`. -/
theorem C67_isUtf16_S3 (v : Version) (s : List U16) (t : Int) (q : Pred) :
    Runs v (name% "isUtf16") [.str16 s, .range t, .pred q]
      ((isUtf16S (Unicode.charClass v) s t q).map .bool) :=
  runs_of fun w sc n hn => by linked isUtf16_S3 (E := Sealed.real) (d := d + 3) (link_are v sc) s t q (by fits)

/-- `isUtf16` of a pointer. -/
theorem C67_isUtf16_P1 (v : Version) (p : Ptr U16) :
    Runs v (name% "isUtf16") [.ptr16 p]
      ((isUtf16P1 (Unicode.charClass v) p).map .bool) :=
  runs_of fun w sc n hn => by linked isUtf16_P1 (E := Sealed.real) (d := d + 3) (link_are v sc) p (by fits)

theorem C67_isUtf16_PR (v : Version) (p : Ptr U16) (t : Int) :
    Runs v (name% "isUtf16") [.ptr16 p, .range t]
      ((isUtf16 (Unicode.charClass v) p t Pred.none).map .bool) :=
  runs_of fun w sc n hn => by linked isUtf16_PR (E := Sealed.real) (d := d + 3) (link_are v sc) p t (by fits)

theorem C67_isUtf16_P2 (v : Version) (p : Ptr U16) (q : Pred) :
    Runs v (name% "isUtf16") [.ptr16 p, .pred q]
      ((isUtf16P2 (Unicode.charClass v) p q).map .bool) :=
  runs_of fun w sc n hn => by linked isUtf16_P2 (E := Sealed.real) (d := d + 2) (link_are v sc) p q (by fits)

theorem C67_isUtf16_P3 (v : Version) (p : Ptr U16) (t : Int) (q : Pred) :
    Runs v (name% "isUtf16") [.ptr16 p, .range t, .pred q]
      ((isUtf16 (Unicode.charClass v) p t q).map .bool) :=
  runs_of fun w sc n hn => by linked isUtf16_core (E := Sealed.real) (d := d + 4) (link_are v sc) p t q (by fits)

/-- `isUcs2(const std::…string&)`. -/
theorem C67_isUcs2_S1 (v : Version) (s : List U16) :
    Runs v (name% "isUcs2") [.str16 s]
      ((isUcs2S1 (Unicode.charClass v) s).map .bool) :=
  runs_of fun w sc n hn => by linked isUcs2_S1 (E := Sealed.real) (d := d + 3) (link_are v sc) s (by fits)

/-- `isUcs2(const std::…string&, RangeType)`. -/
theorem C67_isUcs2_SR (v : Version) (s : List U16) (t : Int) :
    Runs v (name% "isUcs2") [.str16 s, .range t]
      ((isUcs2S (Unicode.charClass v) s t Pred.none).map .bool) :=
  runs_of fun w sc n hn => by linked isUcs2_SR (E := Sealed.real) (d := d + 3) (link_are v sc) s t (by fits)

/-- `isUcs2(const std::…string&, const EncodingCheckPredicate&)`. -/
theorem C67_isUcs2_S2 (v : Version) (s : List U16) (q : Pred) :
    Runs v (name% "isUcs2") [.str16 s, .pred q]
      ((isUcs2S2 (Unicode.charClass v) s q).map .bool) :=
  runs_of fun w sc n hn => by linked isUcs2_S2 (E := Sealed.real) (d := d + 2) (link_are v sc) s q (by fits)

/-- `isUcs2(const std::…string&, RangeType, const EncodingCheckPredicate&)`. -/
theorem C67_isUcs2_S3 (v : Version) (s : List U16) (t : Int) (q : Pred) :
    Runs v (name% "isUcs2") [.str16 s, .range t, .pred q]
      ((isUcs2S (Unicode.charClass v) s t q).map .bool) :=
  runs_of fun w sc n hn => by linked isUcs2_S3 (E := Sealed.real) (d := d + 3) (link_are v sc) s t q (by fits)

/-- `isUcs2` of a pointer. -/
theorem C67_isUcs2_P1 (v : Version) (p : Ptr U16) :
    Runs v (name% "isUcs2") [.ptr16 p]
      ((isUcs2P1 (Unicode.charClass v) p).map .bool) :=
  runs_of fun w sc n hn => by linked isUcs2_P1 (E := Sealed.real) (d := d + 3) (link_are v sc) p (by fits)

theorem C67_isUcs2_PR (v : Version) (p : Ptr U16) (t : Int) :
    Runs v (name% "isUcs2") [.ptr16 p, .range t]
      ((isUcs2 (Unicode.charClass v) p t Pred.none).map .bool) :=
  runs_of fun w sc n hn => by linked isUcs2_PR (E := Sealed.real) (d := d + 3) (link_are v sc) p t (by fits)

theorem C67_isUcs2_P2 (v : Version) (p : Ptr U16) (q : Pred) :
    Runs v (name% "isUcs2") [.ptr16 p, .pred q]
      ((isUcs2P2 (Unicode.charClass v) p q).map .bool) :=
  runs_of fun w sc n hn => by linked isUcs2_P2 (E := Sealed.real) (d := d + 2) (link_are v sc) p q (by fits)

theorem C67_isUcs2_P3 (v : Version) (p : Ptr U16) (t : Int) (q : Pred) :
    Runs v (name% "isUcs2") [.ptr16 p, .range t, .pred q]
      ((isUcs2 (Unicode.charClass v) p t q).map .bool) :=
  runs_of fun w sc n hn => by linked isUcs2_core (E := Sealed.real) (d := d + 4) (link_are v sc) p t q (by fits)

/-- `isUcs4(const std::…string&)`. -/
theorem C67_isUcs4_S1 (v : Version) (s : List U32) :
    Runs v (name% "isUcs4") [.str32 s]
      ((isUcs4S1 (Unicode.charClass v) s).map .bool) :=
  runs_of fun w sc n hn => by linked isUcs4_S1 (E := Sealed.real) (d := d + 3) (link_are v sc) s (by fits)

/-- `isUcs4(const std::…string&, RangeType)`. -/
theorem C67_isUcs4_SR (v : Version) (s : List U32) (t : Int) :
    Runs v (name% "isUcs4") [.str32 s, .range t]
      ((isUcs4S (Unicode.charClass v) s t Pred.none).map .bool) :=
  runs_of fun w sc n hn => by linked isUcs4_SR (E := Sealed.real) (d := d + 3) (link_are v sc) s t (by fits)

/-- `isUcs4(const std::…string&, const EncodingCheckPredicate&)`. -/
theorem C67_isUcs4_S2 (v : Version) (s : List U32) (q : Pred) :
    Runs v (name% "isUcs4") [.str32 s, .pred q]
      ((isUcs4S2 (Unicode.charClass v) s q).map .bool) :=
  runs_of fun w sc n hn => by linked isUcs4_S2 (E := Sealed.real) (d := d + 2) (link_are v sc) s q (by fits)

/-- `isUcs4(const std::…string&, RangeType, const EncodingCheckPredicate&)`. -/
theorem C67_isUcs4_S3 (v : Version) (s : List U32) (t : Int) (q : Pred) :
    Runs v (name% "isUcs4") [.str32 s, .range t, .pred q]
      ((isUcs4S (Unicode.charClass v) s t q).map .bool) :=
  runs_of fun w sc n hn => by linked isUcs4_S3 (E := Sealed.real) (d := d + 3) (link_are v sc) s t q (by fits)

/-- `isUcs4` of a pointer. -/
theorem C67_isUcs4_P1 (v : Version) (p : Ptr U32) :
    Runs v (name% "isUcs4") [.ptr32 p]
      ((isUcs4P1 (Unicode.charClass v) p).map .bool) :=
  runs_of fun w sc n hn => by linked isUcs4_P1 (E := Sealed.real) (d := d + 3) (link_are v sc) p (by fits)

theorem C67_isUcs4_PR (v : Version) (p : Ptr U32) (t : Int) :
    Runs v (name% "isUcs4") [.ptr32 p, .range t]
      ((isUcs4 (Unicode.charClass v) p t Pred.none).map .bool) :=
  runs_of fun w sc n hn => by linked isUcs4_PR (E := Sealed.real) (d := d + 3) (link_are v sc) p t (by fits)

theorem C67_isUcs4_P2 (v : Version) (p : Ptr U32) (q : Pred) :
    Runs v (name% "isUcs4") [.ptr32 p, .pred q]
      ((isUcs4P2 (Unicode.charClass v) p q).map .bool) :=
  runs_of fun w sc n hn => by linked isUcs4_P2 (E := Sealed.real) (d := d + 2) (link_are v sc) p q (by fits)

theorem C67_isUcs4_P3 (v : Version) (p : Ptr U32) (t : Int) (q : Pred) :
    Runs v (name% "isUcs4") [.ptr32 p, .range t, .pred q]
      ((isUcs4 (Unicode.charClass v) p t q).map .bool) :=
  runs_of fun w sc n hn => by linked isUcs4_core (E := Sealed.real) (d := d + 4) (link_are v sc) p t q (by fits)

/-! ## Conversion -/

/-- `toUtf8(const std::…string&)`. -/
theorem C67_toUtf8_S16 (v : Version) (s : List U16) :
    Runs v (name% "toUtf8") [.str16 s]
      ((toUtf8From16S s).map .str8) :=
  runs_of fun w sc n hn => by linked toUtf8_S16 (E := Sealed.real) (d := d + 3) s (by fits)

theorem C67_toUtf8_P16 (v : Version) (p : Ptr U16) :
    Runs v (name% "toUtf8") [.ptr16 p]
      ((toUtf8From16 p).map .str8) :=
  runs_of fun w sc n hn => by linked toUtf8_16_core (E := Sealed.real) (d := d + 4) p (by fits)

/-- `toUtf8(const std::…string&)`. -/
theorem C67_toUtf8_S32 (v : Version) (s : List U32) :
    Runs v (name% "toUtf8") [.str32 s]
      ((toUtf8From32S s).map .str8) :=
  runs_of fun w sc n hn => by linked toUtf8_S32 (E := Sealed.real) (d := d + 3) s (by fits)

theorem C67_toUtf8_P32 (v : Version) (p : Ptr U32) :
    Runs v (name% "toUtf8") [.ptr32 p]
      ((toUtf8From32 p).map .str8) :=
  runs_of fun w sc n hn => by linked toUtf8_32_core (E := Sealed.real) (d := d + 4) p (by fits)

/-- `toUcs2(const std::…string&)`. -/
theorem C67_toUcs2_S8 (v : Version) (s : List Byte) :
    Runs v (name% "toUcs2") [.str8 s]
      ((toUcs2From8S s).map .str16) :=
  runs_of fun w sc n hn => by linked toUcs2_S8 (E := Sealed.real) (d := d + 3) s (by fits)

theorem C67_toUcs2_P8 (v : Version) (p : Ptr Byte) :
    Runs v (name% "toUcs2") [.ptr8 p]
      ((toUcs2From8 p).map .str16) :=
  runs_of fun w sc n hn => by linked toUcs2_8_core (E := Sealed.real) (d := d + 4) p (by fits)

/-- `toUcs2(const std::…string&)`. -/
theorem C67_toUcs2_S32 (v : Version) (s : List U32) :
    Runs v (name% "toUcs2") [.str32 s]
      ((toUcs2From32S s).map .str16) :=
  runs_of fun w sc n hn => by linked toUcs2_S32 (E := Sealed.real) (d := d + 3) s (by fits)

theorem C67_toUcs2_P32 (v : Version) (p : Ptr U32) :
    Runs v (name% "toUcs2") [.ptr32 p]
      ((toUcs2From32 p).map .str16) :=
  runs_of fun w sc n hn => by linked toUcs2_32_core (E := Sealed.real) (d := d + 4) p (by fits)

/-- `toUtf16(const std::…string&)`. -/
theorem C67_toUtf16_S8 (v : Version) (s : List Byte) :
    Runs v (name% "toUtf16") [.str8 s]
      ((toUtf16From8S s).map .str16) :=
  runs_of fun w sc n hn => by linked toUtf16_S8 (E := Sealed.real) (d := d + 3) s (by fits)

theorem C67_toUtf16_P8 (v : Version) (p : Ptr Byte) :
    Runs v (name% "toUtf16") [.ptr8 p]
      ((toUtf16From8 p).map .str16) :=
  runs_of fun w sc n hn => by linked toUtf16_8_core (E := Sealed.real) (d := d + 4) p (by fits)

/-- `toUtf16(const std::…string&)`. -/
theorem C67_toUtf16_S32 (v : Version) (s : List U32) :
    Runs v (name% "toUtf16") [.str32 s]
      ((toUtf16From32S s).map .str16) :=
  runs_of fun w sc n hn => by linked toUtf16_S32 (E := Sealed.real) (d := d + 3) s (by fits)

theorem C67_toUtf16_P32 (v : Version) (p : Ptr U32) :
    Runs v (name% "toUtf16") [.ptr32 p]
      ((toUtf16From32 p).map .str16) :=
  runs_of fun w sc n hn => by linked toUtf16_32_core (E := Sealed.real) (d := d + 4) p (by fits)

/-- `toUcs4(const std::…string&)`. -/
theorem C67_toUcs4_S8 (v : Version) (s : List Byte) :
    Runs v (name% "toUcs4") [.str8 s]
      ((toUcs4From8S s).map .str32) :=
  runs_of fun w sc n hn => by linked toUcs4_S8 (E := Sealed.real) (d := d + 3) s (by fits)

theorem C67_toUcs4_P8 (v : Version) (p : Ptr Byte) :
    Runs v (name% "toUcs4") [.ptr8 p]
      ((toUcs4From8 p).map .str32) :=
  runs_of fun w sc n hn => by linked toUcs4_8_core (E := Sealed.real) (d := d + 4) p (by fits)

/-- `toUcs4(const std::…string&)`. -/
theorem C67_toUcs4_S16 (v : Version) (s : List U16) :
    Runs v (name% "toUcs4") [.str16 s]
      ((toUcs4From16S s).map .str32) :=
  runs_of fun w sc n hn => by linked toUcs4_S16 (E := Sealed.real) (d := d + 3) s (by fits)

theorem C67_toUcs4_P16 (v : Version) (p : Ptr U16) :
    Runs v (name% "toUcs4") [.ptr16 p]
      ((toUcs4From16 p).map .str32) :=
  runs_of fun w sc n hn => by linked toUcs4_16_core (E := Sealed.real) (d := d + 4) p (by fits)

/-- `toUtf8(const char*, SourceEncoding)`. -/
theorem C67_toUtf8_page (v : Version) (p : Ptr Byte) (t : Int) :
    Runs v (name% "toUtf8") [.ptr8 p, .page t]
      ((toUtf8FromPage p t).map .str8) :=
  runs_of fun w sc n hn => by linked toUtf8_page_core (E := Sealed.real) (d := d + 4) p t (by fits)

/-! ## Counting -/

theorem C67_unicodeLength_S8 (v : Version) (s : List Byte) :
    Runs v (name% "unicodeLength") [.str8 s]
      ((unicodeLength8S s).map .uint) :=
  runs_of fun w sc n hn => by linked unicodeLength_S8 (E := Sealed.real) (d := d + 3) s (by fits)

theorem C67_unicodeLength_P8 (v : Version) (p : Ptr Byte) :
    Runs v (name% "unicodeLength") [.ptr8 p]
      ((unicodeLength8 p 0).map .uint) :=
  runs_of fun w sc n hn => by linked unicodeLength_P8 (E := Sealed.real) (d := d + 4) p (by fits)

theorem C67_unicodeLength_L8 (v : Version) (p : Ptr Byte) (len : U32) :
    Runs v (name% "unicodeLength") [.ptr8 p, .uint len]
      ((unicodeLength8 p len).map .uint) :=
  runs_of fun w sc n hn => by linked unicodeLength_8_core (E := Sealed.real) (d := d + 4) p len (by fits)

theorem C67_unicodeLength_S16 (v : Version) (s : List U16) :
    Runs v (name% "unicodeLength") [.str16 s]
      ((unicodeLength16S s).map .uint) :=
  runs_of fun w sc n hn => by linked unicodeLength_S16 (E := Sealed.real) (d := d + 3) s (by fits)

theorem C67_unicodeLength_P16 (v : Version) (p : Ptr U16) :
    Runs v (name% "unicodeLength") [.ptr16 p]
      ((unicodeLength16 p 0).map .uint) :=
  runs_of fun w sc n hn => by linked unicodeLength_P16 (E := Sealed.real) (d := d + 4) p (by fits)

theorem C67_unicodeLength_L16 (v : Version) (p : Ptr U16) (len : U32) :
    Runs v (name% "unicodeLength") [.ptr16 p, .uint len]
      ((unicodeLength16 p len).map .uint) :=
  runs_of fun w sc n hn => by linked unicodeLength_16_core (E := Sealed.real) (d := d + 4) p len (by fits)

theorem C67_unicodeLength_S32 (v : Version) (s : List U32) :
    Runs v (name% "unicodeLength") [.str32 s]
      ((unicodeLength32S s).map .uint) :=
  runs_of fun w sc n hn => by linked unicodeLength_S32 (E := Sealed.real) (d := d + 3) s (by fits)

theorem C67_unicodeLength_P32 (v : Version) (p : Ptr U32) :
    Runs v (name% "unicodeLength") [.ptr32 p]
      ((unicodeLength32 p 0).map .uint) :=
  runs_of fun w sc n hn => by linked unicodeLength_P32 (E := Sealed.real) (d := d + 4) p (by fits)

theorem C67_unicodeLength_L32 (v : Version) (p : Ptr U32) (len : U32) :
    Runs v (name% "unicodeLength") [.ptr32 p, .uint len]
      ((unicodeLength32 p len).map .uint) :=
  runs_of fun w sc n hn => by linked unicodeLength_32_core (E := Sealed.real) (d := d + 4) p len (by fits)

/-! ## Lower case -/

theorem C67_toLower_S8 (v : Version) (s : List Byte) :
    Runs v (name% "toLower") [.str8 s]
      ((toLower8S v s none).map .str8) :=
  runs_of fun w sc n hn => by linked toLower_S8_1 (E := Sealed.real) (d := d) (link_are v sc) s (by fits)

theorem C67_toLower_S8_lang (v : Version) (s : List Byte) (lang : Ptr Byte) :
    Runs v (name% "toLower") [.str8 s, .ptr8 lang]
      ((toLower8S v s lang).map .str8) :=
  runs_of fun w sc n hn => by linked toLower_S8 (E := Sealed.real) (d := d) (link_are v sc) s lang (by fits)

theorem C67_toLower_S16 (v : Version) (s : List U16) :
    Runs v (name% "toLower") [.str16 s]
      ((toLower16S v s none).map .str16) :=
  runs_of fun w sc n hn => by linked toLower_S16_1 (E := Sealed.real) (d := d) (link_are v sc) s (by fits)

theorem C67_toLower_S16_lang (v : Version) (s : List U16) (lang : Ptr Byte) :
    Runs v (name% "toLower") [.str16 s, .ptr8 lang]
      ((toLower16S v s lang).map .str16) :=
  runs_of fun w sc n hn => by linked toLower_S16 (E := Sealed.real) (d := d) (link_are v sc) s lang (by fits)

theorem C67_toLower_S32 (v : Version) (s : List U32) :
    Runs v (name% "toLower") [.str32 s]
      ((toLower32S v s none).map .str32) :=
  runs_of fun w sc n hn => by linked toLower_S32_1 (E := Sealed.real) (d := d + 6) (link_are v sc) s

theorem C67_toLower_S32_lang (v : Version) (s : List U32) (lang : Ptr Byte) :
    Runs v (name% "toLower") [.str32 s, .ptr8 lang]
      ((toLower32S v s lang).map .str32) :=
  runs_of fun w sc n hn => by linked toLower_32_core (E := Sealed.real) (d := d + 6) (link_are v sc) s lang

/-! ## Predicates -/

theorem C67_validIf (v : Version) (t : Int) :
    Runs v (name% "validIf") [.encoding t] (.ok (.pred (Pred.validIf t))) :=
  runs_of (x := Res.ok (Pred.validIf t)) (f := .pred) fun w sc n hn => by
    linked validIf_call (E := Sealed.real) (d := d + 5) t

theorem C67_validIfNot (v : Version) (t : Int) :
    Runs v (name% "validIfNot") [.encoding t] (.ok (.pred (Pred.validIfNot t))) :=
  runs_of (x := Res.ok (Pred.validIfNot t)) (f := .pred) fun w sc n hn => by
    linked validIfNot_call (E := Sealed.real) (d := d + 5) t

theorem C67_checkIf (v : Version) (t : Int) :
    Runs v (name% "checkIf") [.encoding t] (.ok (.pred (Pred.validIf t))) :=
  runs_of (x := Res.ok (Pred.validIf t)) (f := .pred) fun w sc n hn => by
    linked checkIf_call (E := Sealed.real) (d := d + 6) t

theorem C67_checkIfNot (v : Version) (t : Int) :
    Runs v (name% "checkIfNot") [.encoding t] (.ok (.pred (Pred.validIfNot t))) :=
  runs_of (x := Res.ok (Pred.validIfNot t)) (f := .pred) fun w sc n hn => by
    linked checkIfNot_call (E := Sealed.real) (d := d + 6) t

/-- `andIf` changes the object as well. -/
theorem C67_andIf (v : Version) (p : Pred) (t : Int) :
    RunsMember v (name% "andIf") p [.encoding t] (.pred (p.andIf t)) (p.andIf t) :=
  runsMember_of fun w sc n hn => by linked andIf_call (E := Sealed.real) (d := d + 6) p t

theorem C67_andIfNot (v : Version) (p : Pred) (t : Int) :
    RunsMember v (name% "andIfNot") p [.encoding t] (.pred (p.andIfNot t)) (p.andIfNot t) :=
  runsMember_of fun w sc n hn => by linked andIfNot_call (E := Sealed.real) (d := d + 6) p t

theorem C67_equals (v : Version) (p q : Pred) :
    RunsMember v (name% "operator==") p [.pred q] (.bool (p.eq q)) p :=
  runsMember_of fun w sc n hn => by linked equals_call (E := Sealed.real) (d := d + 7) p q

theorem C67_differs (v : Version) (p q : Pred) :
    RunsMember v (name% "operator!=") p [.pred q] (.bool (!p.eq q)) p :=
  runsMember_of fun w sc n hn => by linked differs_call (E := Sealed.real) (d := d + 6) p q

/-- `x == x` -/
theorem C67_equals_itself (v : Version) (p : Pred) : Spec.RunsOnItself v (name% "operator==") p (.bool true) := by
  intro w sc n hn
  rw [Cpp.callText_eq (Cpp.link_str v sc)]
  obtain ⟨d, rfl⟩ : ∃ d, n = d + 8 := ⟨n - 8, by omega⟩
  exact Cpp.equals_itself (E := Cpp.Sealed.real) (d := d + 7) p

/-- `x != x` -/
theorem C67_differs_itself (v : Version) (p : Pred) : Spec.RunsOnItself v (name% "operator!=") p (.bool false) := by
  intro w sc n hn
  rw [Cpp.callText_eq (Cpp.link_str v sc)]
  obtain ⟨d, rfl⟩ : ∃ d, n = d + 8 := ⟨n - 8, by omega⟩
  exact Cpp.differs_itself (E := Cpp.Sealed.real) (d := d + 6) p

theorem C67_apply8 (v : Version) (p : Pred) (c : Byte) :
    RunsMember v (name% "operator()") p [.char8 c] (.bool (p.call8 (Unicode.charClass v) c.toNat)) p :=
  runsMember_of fun w sc n hn => by linked apply_char (E := Sealed.real) (d := d + 5) (link_are v sc) p c

theorem C67_apply16 (v : Version) (p : Pred) (c : U16) :
    RunsMember v (name% "operator()") p [.char16 c] (.bool (p.call16 (Unicode.charClass v) c.toNat)) p :=
  runsMember_of fun w sc n hn => by linked apply_c16 (E := Sealed.real) (d := d + 5) (link_are v sc) p c

theorem C67_apply32 (v : Version) (p : Pred) (c : U32) :
    RunsMember v (name% "operator()") p [.char32 c] (.bool (p.call32 (Unicode.charClass v) c.toNat)) p :=
  runsMember_of fun w sc n hn => by linked apply_c32 (E := Sealed.real) (d := d + 5) (link_are v sc) p c

/-! ## The version -/

theorem C67_version (v : Version) :
    Runs v (name% "getUnicodeVersionSupported") [] (.ok (.str8 (bytesOf (Unicode.getUnicodeVersionSupported v)))) :=
  runs_of (x := Res.ok ()) (f := fun _ => .str8 (bytesOf (Unicode.getUnicodeVersionSupported v))) fun w sc n hn => by
    linked getUnicodeVersionSupported_call (E := Sealed.real) (d := d + 7)

end Ansak.Props
