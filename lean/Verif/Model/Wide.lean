import Verif.Model.StringIs
import Verif.Model.StringTo

/-!
# Model of the wchar_t and TCHAR functions of interface/string.hxx

The header has two sets of functions, one for 16-bit and one for 32-bit `wchar_t`
(interface/string.hxx:479, 864); namespaces `W16` and `W32` model them. A `wchar_t` is the bit
vector of its width and `reinterpret_cast` between `wchar_t` and the character type of that width
changes nothing. (That reading through the cast pointer is an aliasing violation is not modelled.)

Functions whose names collide only by C++ overloading get a suffix: `W` for an argument of type
`wchar_t` and `8`, `16`, `32` for `char`, `char16_t`, `char32_t`; a final `S` is the overload for a
`basic_string`. `std::wstring(const wchar_t*)` is `stringOfPtr`.
-/

namespace Ansak

/-! ## 16-bit wchar_t -/

namespace W16

/-- interface/string.hxx:484-487. -/
def isUtf8W (U : CharClass) (test : Ptr U16) : Res Bool := isUtf16 U test kUtf8 Pred.none
/-- interface/string.hxx:488. -/
def isUtf8WS (U : CharClass) (test : List U16) : Res Bool := isUtf8W U (cStr test)

/-- interface/string.hxx:490-493. -/
def isUtf16W (U : CharClass) (test : Ptr U16) : Res Bool := isUtf16 U test kUtf8 Pred.none
/-- interface/string.hxx:494. -/
def isUtf16WS (U : CharClass) (test : List U16) : Res Bool := isUtf16W U (cStr test)

/-- interface/string.hxx:496-499. -/
def isUcs2W (U : CharClass) (test : Ptr U16) : Res Bool := isUtf16 U test kUcs2 Pred.none
/-- interface/string.hxx:500. -/
def isUcs2WS (U : CharClass) (test : List U16) : Res Bool := isUcs2W U (cStr test)

/-- interface/string.hxx:502-505. -/
def isUcs4W (U : CharClass) (test : Ptr U16) : Res Bool := isUtf16 U test kUcs4 Pred.none
/-- interface/string.hxx:506. -/
def isUcs4WS (U : CharClass) (test : List U16) : Res Bool := isUcs4W U (cStr test)

/-- interface/string.hxx:508-511. -/
def isWstring8S (U : CharClass) (test : List Byte) : Res Bool := isUtf8S U test kUtf16 Pred.none
/-- interface/string.hxx:513-516. -/
def isWstring8 (U : CharClass) (test : Ptr Byte) : Res Bool := isUtf8 U test kUtf16 Pred.none
/-- interface/string.hxx:518-521. -/
def isWstring16S (U : CharClass) (test : List U16) : Res Bool := isUtf16S U test kUtf16 Pred.none
/-- interface/string.hxx:530-533. -/
def isWstring16 (U : CharClass) (test : Ptr U16) : Res Bool := isUtf16 U test kUtf16 Pred.none
/-- interface/string.hxx:535-538. -/
def isWstring32S (U : CharClass) (test : List U32) : Res Bool := isUcs4S U test kUtf16 Pred.none
/-- interface/string.hxx:540-543. -/
def isWstring32 (U : CharClass) (test : Ptr U32) : Res Bool := isUcs4 U test kUtf16 Pred.none

/-- interface/string.hxx:659-660. -/
def toUtf8W (src : Ptr U16) : Res (List Byte) := toUtf8From16 src
/-- interface/string.hxx:662-663. -/
def toUtf8WS (src : List U16) : Res (List Byte) := toUtf8W (cStr src)

/-- interface/string.hxx:665-676. -/
def toUtf16W (U : CharClass) (src : Ptr U16) : Res (List U16) :=
  (isUtf16 U src kUtf16 Pred.none).bind fun b => if b then stringOfPtr src else .ok []
/-- interface/string.hxx:678-679. -/
def toUtf16WS (U : CharClass) (src : List U16) : Res (List U16) := toUtf16W U (cStr src)

/-- interface/string.hxx:681-692. -/
def toUcs2W (U : CharClass) (src : Ptr U16) : Res (List U16) :=
  (isUcs2 U src kUcs2 Pred.none).bind fun b => if b then stringOfPtr src else .ok []
/-- interface/string.hxx:694-695. -/
def toUcs2WS (U : CharClass) (src : List U16) : Res (List U16) := toUcs2W U (cStr src)

/-- interface/string.hxx:697-698. -/
def toUcs4W (src : Ptr U16) : Res (List U32) := toUcs4From16 src
/-- interface/string.hxx:700-701. -/
def toUcs4WS (src : List U16) : Res (List U32) := toUcs4W (cStr src)

/-- interface/string.hxx:703-706. -/
def toWstring8 (src : Ptr Byte) : Res (List U16) :=
  (toUtf16From8 src).bind fun s => stringOfPtr (cStr s)
/-- interface/string.hxx:707-710. -/
def toWstring8S (src : List Byte) : Res (List U16) := toWstring8 (cStr src)

/-- interface/string.hxx:712-722. -/
def toWstring16 (U : CharClass) (src : Ptr U16) : Res (List U16) :=
  (isUtf16 U src kUtf16 Pred.none).bind fun b => if b then stringOfPtr src else .ok []
/-- interface/string.hxx:723-726. -/
def toWstring16S (U : CharClass) (src : List U16) : Res (List U16) := toWstring16 U (cStr src)

/-- interface/string.hxx:734-737. -/
def toWstring32 (src : Ptr U32) : Res (List U16) :=
  (toUtf16From32 src).bind fun s => stringOfPtr (cStr s)
/-- interface/string.hxx:738-741. -/
def toWstring32S (src : List U32) : Res (List U16) := toWstring32 (cStr src)

/-! ### Windows (`WIN32` defined) -/

/-- interface/string.hxx:556-559 `isUtf16(const char*)`. -/
def isUtf16From8 (U : CharClass) (test : Ptr Byte) : Res Bool := isUtf8 U test kUtf16 Pred.none
/-- interface/string.hxx:560. -/
def isUtf16From8S (U : CharClass) (test : List Byte) : Res Bool := isUtf16From8 U (cStr test)

/-- interface/string.hxx:562-565 `isUcs2(const char*)`. -/
def isUcs2From8 (U : CharClass) (test : Ptr Byte) : Res Bool := isUtf8 U test kUcs2 Pred.none
/-- interface/string.hxx:566. -/
def isUcs2From8S (U : CharClass) (test : List Byte) : Res Bool := isUcs2From8 U (cStr test)

/-- interface/string.hxx:568-571 `isUcs4(const char*)`. -/
def isUcs4From8 (U : CharClass) (test : Ptr Byte) : Res Bool := isUtf8 U test kUcs4 Pred.none
/-- interface/string.hxx:572. -/
def isUcs4From8S (U : CharClass) (test : List Byte) : Res Bool := isUcs4From8 U (cStr test)

/-- interface/string.hxx:576-579 (`_MBCS`), 615-618 (`_UNICODE`). -/
def isTstring8S (U : CharClass) (test : List Byte) : Res Bool := isUtf8S U test kUtf16 Pred.none
/-- interface/string.hxx:581-584, 620-623. -/
def isTstring8 (U : CharClass) (test : Ptr Byte) : Res Bool := isUtf8 U test kUtf16 Pred.none
/-- interface/string.hxx:586-589, 625-628. -/
def isTstring16S (U : CharClass) (test : List U16) : Res Bool := isUtf16S U test kUtf16 Pred.none
/-- interface/string.hxx:598-601, 637-640. -/
def isTstring16 (U : CharClass) (test : Ptr U16) : Res Bool := isUtf16 U test kUtf16 Pred.none
/-- interface/string.hxx:603-606, 642-645. -/
def isTstring32S (U : CharClass) (test : List U32) : Res Bool := isUcs4S U test kUtf16 Pred.none
/-- interface/string.hxx:608-611, 647-650. -/
def isTstring32 (U : CharClass) (test : Ptr U32) : Res Bool := isUcs4 U test kUtf16 Pred.none

/-- interface/string.hxx:747-757 `toUtf8(const char*)`. -/
def toUtf8From8 (U : CharClass) (src : Ptr Byte) : Res (List Byte) :=
  (isUtf8 U src kUtf8 Pred.none).bind fun b => if b then stringOfPtr src else .ok []
/-- interface/string.hxx:759 `toUtf8(const std::string&)`. -/
def toUtf8From8S (U : CharClass) (src : List Byte) : Res (List Byte) := toUtf8From8 U (cStr src)

/-! ### TCHAR is `char` (`_MBCS`)

The overloads for `basic_string` call `toTstring(test.c_str())` before the overload for the pointer
is declared (interface/string.hxx:763-766 precedes 768, 780-783 precedes 792, 804-807 precedes 809).
The only overload visible that takes such a pointer is the function itself, after the implicit
construction of a string from the pointer. So they call themselves. They are modelled with a bound
on the depth of the recursion: `none` is a computation that has not returned within the bound. -/

namespace Mbcs

/-- interface/string.hxx:763-766 `toTstring(const utf8String&)`. -/
def toTstring8S : Nat → List Byte → Option (Res (List Byte))
  | 0, _ => none
  | n + 1, test =>
    match stringOfPtr (cStr test) with
    | .ub => some .ub
    | .ok converted => toTstring8S n converted

/-- interface/string.hxx:780-783 `toTstring(const utf16String&)`. -/
def toTstring16S : Nat → List U16 → Option (Res (List Byte))
  | 0, _ => none
  | n + 1, test =>
    match stringOfPtr (cStr test) with
    | .ub => some .ub
    | .ok converted => toTstring16S n converted

/-- interface/string.hxx:804-807 `toTstring(const ucs4String&)`. -/
def toTstring32S : Nat → List U32 → Option (Res (List Byte))
  | 0, _ => none
  | n + 1, test =>
    match stringOfPtr (cStr test) with
    | .ub => some .ub
    | .ok converted => toTstring32S n converted

/-- interface/string.hxx:768-778 `toTstring(const char*)`. -/
def toTstring8 (U : CharClass) (test : Ptr Byte) : Res (List Byte) :=
  (isUtf8 U test kAscii Pred.none).bind fun b => if b then stringOfPtr test else .ok []

/-- interface/string.hxx:792-802 `toTstring(const char16_t*)`. -/
def toTstring16 (U : CharClass) (test : Ptr U16) : Res (List Byte) :=
  (isUtf16 U test kAscii Pred.none).bind fun b =>
  if b then (toUtf8From16 test).bind fun s => stringOfPtr (cStr s) else .ok []

/-- interface/string.hxx:809-819 `toTstring(const char32_t*)`. -/
def toTstring32 (U : CharClass) (test : Ptr U32) : Res (List Byte) :=
  (isUcs4 U test kAscii Pred.none).bind fun b =>
  if b then (toUtf8From32 test).bind fun s => stringOfPtr (cStr s) else .ok []

end Mbcs

/-! ### TCHAR is `wchar_t` (`_UNICODE`) -/

namespace Tchar

/-- interface/string.hxx:823-826 `toTstring(const utf8String&)`. -/
def toTstring8S (test : List Byte) : Res (List U16) :=
  (toUtf16From8S test).bind fun s => stringOfPtr (cStr s)

/-- interface/string.hxx:828-831 `toTstring(const char*)`. -/
def toTstring8 (test : Ptr Byte) : Res (List U16) :=
  (toUtf16From8 test).bind fun s => stringOfPtr (cStr s)

/-- interface/string.hxx:833-836 `toTstring(const utf16String&)`. -/
def toTstring16S (test : List U16) : Res (List U16) := stringOfPtr (cStr test)

/-- interface/string.hxx:845-848 `toTstring(const char16_t*)`. -/
def toTstring16 (test : Ptr U16) : Res (List U16) := stringOfPtr test

/-- interface/string.hxx:850-853 `toTstring(const ucs4String&)`. -/
def toTstring32S (test : List U32) : Res (List U16) :=
  (toUtf16From32S test).bind fun s => stringOfPtr (cStr s)

/-- interface/string.hxx:855-858 `toTstring(const char32_t*)`. -/
def toTstring32 (test : Ptr U32) : Res (List U16) :=
  (toUtf16From32 test).bind fun s => stringOfPtr (cStr s)

end Tchar

end W16

/-! ## 32-bit wchar_t -/

namespace W32

/-- interface/string.hxx:871-877. -/
def isUtf8W (U : CharClass) (test : Ptr U32) : Res Bool := isUcs4 U test kUtf16 Pred.none
/-- interface/string.hxx:878. -/
def isUtf8WS (U : CharClass) (test : List U32) : Res Bool := isUtf8W U (cStr test)

/-- interface/string.hxx:880-883. -/
def isUtf16W (U : CharClass) (test : Ptr U32) : Res Bool := isUcs4 U test kUtf16 Pred.none
/-- interface/string.hxx:884. -/
def isUtf16WS (U : CharClass) (test : List U32) : Res Bool := isUtf16W U (cStr test)

/-- interface/string.hxx:886-889. -/
def isUcs2W (U : CharClass) (test : Ptr U32) : Res Bool := isUcs4 U test kUcs2 Pred.none
/-- interface/string.hxx:890. -/
def isUcs2WS (U : CharClass) (test : List U32) : Res Bool := isUcs2W U (cStr test)

/-- interface/string.hxx:892-898. -/
def isUcs4W (U : CharClass) (test : Ptr U32) : Res Bool := isUcs4 U test kUtf16 Pred.none
/-- interface/string.hxx:899. -/
def isUcs4WS (U : CharClass) (test : List U32) : Res Bool := isUcs4W U (cStr test)

/-- interface/string.hxx:901-904. -/
def isWstring8S (U : CharClass) (test : List Byte) : Res Bool := isUtf8S U test kUtf16 Pred.none
/-- interface/string.hxx:906-909. -/
def isWstring8 (U : CharClass) (test : Ptr Byte) : Res Bool := isUtf8 U test kUtf16 Pred.none
/-- interface/string.hxx:911-914. -/
def isWstring16S (U : CharClass) (test : List U16) : Res Bool := isUtf16S U test kUcs4 Pred.none
/-- interface/string.hxx:923-926. -/
def isWstring16 (U : CharClass) (test : Ptr U16) : Res Bool := isUtf16 U test kUcs4 Pred.none
/-- interface/string.hxx:928-931. -/
def isWstring32S (U : CharClass) (test : List U32) : Res Bool := isUcs4S U test kUtf16 Pred.none
/-- interface/string.hxx:933-936. -/
def isWstring32 (U : CharClass) (test : Ptr U32) : Res Bool := isUcs4 U test kUtf16 Pred.none

/-- interface/string.hxx:941-942. -/
def toUtf8W (src : Ptr U32) : Res (List Byte) := toUtf8From32 src
/-- interface/string.hxx:944-945. -/
def toUtf8WS (src : List U32) : Res (List Byte) := toUtf8W (cStr src)

/-- interface/string.hxx:947-948. -/
def toUtf16W (src : Ptr U32) : Res (List U16) := toUtf16From32 src
/-- interface/string.hxx:950-951. -/
def toUtf16WS (src : List U32) : Res (List U16) := toUtf16W (cStr src)

/-- interface/string.hxx:953-954. -/
def toUcs2W (src : Ptr U32) : Res (List U16) := toUcs2From32 src
/-- interface/string.hxx:956-957. -/
def toUcs2WS (src : List U32) : Res (List U16) := toUcs2W (cStr src)

/-- interface/string.hxx:959-969. -/
def toUcs4W (U : CharClass) (src : Ptr U32) : Res (List U32) :=
  (isUcs4 U src kUtf16 Pred.none).bind fun b => if b then stringOfPtr src else .ok []
/-- interface/string.hxx:971-972. -/
def toUcs4WS (U : CharClass) (src : List U32) : Res (List U32) := toUcs4W U (cStr src)

/-- interface/string.hxx:974-977. -/
def toWstring8 (src : Ptr Byte) : Res (List U32) :=
  (toUcs4From8 src).bind fun s => stringOfPtr (cStr s)
/-- interface/string.hxx:978-981. -/
def toWstring8S (src : List Byte) : Res (List U32) := toWstring8 (cStr src)

/-- interface/string.hxx:983-986. -/
def toWstring16 (src : Ptr U16) : Res (List U32) :=
  (toUcs4From16 src).bind fun s => stringOfPtr (cStr s)
/-- interface/string.hxx:987-990. -/
def toWstring16S (src : List U16) : Res (List U32) := toWstring16 (cStr src)

/-- interface/string.hxx:998-1008. -/
def toWstring32 (U : CharClass) (src : Ptr U32) : Res (List U32) :=
  (isUcs4 U src kUtf16 Pred.none).bind fun b => if b then stringOfPtr src else .ok []
/-- interface/string.hxx:1010-1013. -/
def toWstring32S (U : CharClass) (src : List U32) : Res (List U32) := toWstring32 U (cStr src)

end W32

end Ansak
