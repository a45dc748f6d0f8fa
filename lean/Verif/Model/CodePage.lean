import Verif.Model.StringTo

/-!
# Model of source/string_toutf8.cxx
-/

namespace Ansak

/-- interface/string.hxx:209-213 `enum SourceEncoding : int`; other values can be passed by a cast. -/
abbrev SourceEncoding := Int

/-- interface/string.hxx:210 -/
def kSrcUnicode : SourceEncoding := 0
/-- interface/string.hxx:211 -/
def kSrcCP1252 : SourceEncoding := 1
/-- interface/string.hxx:212 -/
def kSrcCP1250 : SourceEncoding := 2

/-- source/string_toutf8.cxx:75-79 `cp125280_9F`. -/
def cp125280_9F : List U16 := [
  0x20ac, 0, 0x201a, 0x0192, 0x201e, 0x2026, 0x2020, 0x2021,
  0x02c6, 0x2030, 0x0160, 0x2039, 0x0152, 0, 0x017d, 0,
  0, 0x2018, 0x2019, 0x201c, 0x201d, 0x2022, 0x2013, 0x2014,
  0x02dc, 0x2122, 0x0161, 0x203a, 0x0153, 0, 0x017e, 0x0178]

/-- source/string_toutf8.cxx:111-128 `cp125080_FF`. -/
def cp125080_FF : List U16 := [
  0x20ac, 0, 0x201a, 0, 0x201e, 0x2026, 0x2020, 0x2021,
  0, 0x2030, 0x0160, 0x2039, 0x015a, 0x0164, 0x017d, 0x0179,
  0, 0x2018, 0x2019, 0x201c, 0x201d, 0x2022, 0x2013, 0x2014,
  0, 0x2122, 0x0161, 0x203a, 0x015b, 0x0165, 0x017e, 0x017a,
  0xa0, 0x02c7, 0x02d8, 0x0141, 0xa4, 0x0104, 0xa6, 0xa7,
  0xa8, 0xa9, 0x015e, 0xab, 0xac, 0xad, 0xae, 0x017b,
  0xb0, 0xb1, 0x02db, 0x0142, 0xb4, 0xb5, 0xb6, 0xb7,
  0xb8, 0x0105, 0x015f, 0xbb, 0x013d, 0x02dd, 0x013e, 0x017c,
  0x0154, 0xc1, 0xc2, 0x0102, 0xc4, 0x0139, 0x0106, 0xc7,
  0x010c, 0xc9, 0x0118, 0xcb, 0x011a, 0xcd, 0xce, 0x010e,
  0x0110, 0x0143, 0x0147, 0xd3, 0xd4, 0x0150, 0xd6, 0xd7,
  0x0158, 0x016e, 0xda, 0x0170, 0xdc, 0xdd, 0x0162, 0xdf,
  0x0155, 0xe1, 0xe2, 0x0103, 0xe4, 0x013a, 0x0107, 0xe7,
  0x010d, 0xe9, 0x0119, 0xeb, 0x011b, 0xed, 0xee, 0x010f,
  0x0111, 0x0144, 0x0148, 0xf3, 0xf4, 0x0151, 0xf6, 0xf7,
  0x0159, 0x016f, 0xfa, 0x0171, 0xfc, 0xfd, 0x0163, 0x02d9]

/-- source/string_toutf8.cxx:66-95, the loop for `kSrcCP1252`. -/
def toUtf8From1252Loop : List Byte → List Byte → Res (List Byte)
  | [], _ => .ub
  | uc :: p, result =>
    if uc = 0 then .ok result
    else if uc.toNat ≤ 0x7f then toUtf8From1252Loop p (result ++ [uc])
    else if uc.toNat ≤ 0x9f then
      (readAt cp125280_9F (uc.toNat - 0x80)).bind fun uniP =>
        if uniP = 0 then .ok [] else toUtf8From1252Loop p (result ++ encodeUtf8 uniP.toNat)
    else toUtf8From1252Loop p (result ++ encodeUtf8 uc.toNat)

/-- source/string_toutf8.cxx:102-139, the loop for `kSrcCP1250`. -/
def toUtf8From1250Loop : List Byte → List Byte → Res (List Byte)
  | [], _ => .ub
  | uc :: p, result =>
    if uc = 0 then .ok result
    else if uc.toNat ≤ 0x7f then toUtf8From1250Loop p (result ++ [uc])
    else
      (readAt cp125080_FF (uc.toNat - 0x80)).bind fun uniP =>
        if uniP = 0 then .ok [] else toUtf8From1250Loop p (result ++ encodeUtf8 uniP.toNat)

/-- source/string_toutf8.cxx:51-146 `toUtf8(const char*, SourceEncoding)`. -/
def toUtf8FromPage (src : Ptr Byte) (srcType : SourceEncoding) : Res (List Byte) :=
  ifNonEmpty src fun p =>
    if srcType = kSrcUnicode then stringOfPtr (some p)
    else if srcType = kSrcCP1252 then toUtf8From1252Loop p []
    else if srcType = kSrcCP1250 then toUtf8From1250Loop p []
    else .ok []

end Ansak
