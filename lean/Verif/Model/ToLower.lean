import Verif.Model.StringTo
import Verif.Model.Unicode

/-!
# Model of source/string_tolower.cxx

The Unicode version of the build is a parameter, as in `Verif/Model/Unicode.lean`. `lang` is a
`const char*` that may be null.
-/

namespace Ansak

/-- A character literal of the source as the `char` it denotes (ASCII). -/
def lit (c : Char) : Byte := BitVec.ofNat 8 c.toNat

/-- source/string_tolower.cxx:63-85 `isTurkicLang(const char*)`. Each `lang[k]` is read only when
the earlier units were not NUL. -/
def isTurkicLang : Ptr Byte → Res Bool
  | none => .ok false
  | some lang =>
    (readAt lang 0).bind fun c0 =>
    if c0 = 0 then .ok false else
    (readAt lang 1).bind fun c1 =>
    if c1 = 0 then .ok false else
    (readAt lang 2).bind fun c2 =>
    if c2 = 0 then
      .ok ((c0 == lit 't' && c1 == lit 'r') ||
           (c0 == lit 'a' && c1 == lit 'z') ||
           (c0 == lit 't' && c1 == lit 't') ||
           (c0 == lit 'k' && c1 == lit 'k'))
    else
    (readAt lang 3).bind fun c3 =>
    if c3 = 0 then
      .ok ((c0 == lit 't' && c1 == lit 'u' && c2 == lit 'r') ||
           (c0 == lit 't' && c1 == lit 'a' && c2 == lit 't') ||
           (c0 == lit 'k' && c1 == lit 'a' && c2 == lit 'z') ||
           (c0 == lit 'a' && c1 == lit 'z' && (c2 == lit 'e' || c2 == lit 'b' || c2 == lit 'j')))
    else .ok false

/-- source/string_tolower.cxx:136-144, the loop; `adder` appends to `result`
(source/string_internal.hxx, `CharacterAdder`). -/
def toLowerLoop (toLowerFunc : U32 → U32) : List U32 → List U32 → List U32
  | [], result => result
  | c :: src, result => toLowerLoop toLowerFunc src (result ++ [toLowerFunc c])

/-- source/string_tolower.cxx:128-145 `toLower(const ucs4String&, const char*)`. The whole string is
mapped, embedded NULs included. -/
def toLower32S (v : Version) (src : List U32) (lang : Ptr Byte) : Res (List U32) :=
  (isTurkicLang lang).bind fun turkic =>
  let toLowerFunc := if turkic then Unicode.turkicToLowerChar v else Unicode.toLowerChar v
  .ok (toLowerLoop toLowerFunc src [])

/-- source/string_tolower.cxx:96-108 `toLower(const utf8String&, const char*)`. -/
def toLower8S (v : Version) (src : List Byte) (lang : Ptr Byte) : Res (List Byte) :=
  (toUcs4From8S src).bind fun src4 =>
  if src4 = [] then .ok [] else (toLower32S v src4 lang).bind toUtf8From32S

/-- source/string_tolower.cxx:112-124 `toLower(const utf16String&, const char*)`. -/
def toLower16S (v : Version) (src : List U16) (lang : Ptr Byte) : Res (List U16) :=
  (toUcs4From16S src).bind fun src4 =>
  if src4 = [] then .ok [] else (toLower32S v src4 lang).bind toUtf16From32S

end Ansak
