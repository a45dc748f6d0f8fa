import Verif.Model.StringIs

/-!
# Model of the inline overloads and default arguments of the validators in interface/string.hxx

The library has two ways of leaving the target range out: the default arguments, and the inline overloads
that take a string and a predicate.
-/

namespace Ansak

/-- interface/string.hxx:245-251, called with one argument. -/
def isUtf8S1 (U : CharClass) (test : List Byte) : Res Bool := isUtf8S U test kUtf8 Pred.none
/-- interface/string.hxx:253-257 `isUtf8(const utf8String&, pred)`. -/
def isUtf8S2 (U : CharClass) (test : List Byte) (pred : Pred) : Res Bool := isUtf8S U test kUtf8 pred
/-- interface/string.hxx:259-265, called with one argument. -/
def isUtf8P1 (U : CharClass) (test : Ptr Byte) : Res Bool := isUtf8 U test kUtf8 Pred.none
/-- interface/string.hxx:267-271 `isUtf8(const char*, pred)`. -/
def isUtf8P2 (U : CharClass) (test : Ptr Byte) (pred : Pred) : Res Bool := isUtf8 U test kUtf8 pred

/-- interface/string.hxx:285-287, called with one argument. -/
def isUtf16S1 (U : CharClass) (test : List U16) : Res Bool := isUtf16S U test kUtf16 Pred.none
/-- interface/string.hxx:292-293 `isUtf16(const utf16String&, pred)`. -/
def isUtf16S2 (U : CharClass) (test : List U16) (pred : Pred) : Res Bool := isUtf16S U test kUtf16 pred
/-- interface/string.hxx:288-290, called with one argument. -/
def isUtf16P1 (U : CharClass) (test : Ptr U16) : Res Bool := isUtf16 U test kUtf16 Pred.none
/-- interface/string.hxx:294-295 `isUtf16(const char16_t*, pred)`. -/
def isUtf16P2 (U : CharClass) (test : Ptr U16) (pred : Pred) : Res Bool := isUtf16 U test kUtf16 pred

/-- interface/string.hxx:300-302, called with one argument. -/
def isUcs2S1 (U : CharClass) (test : List U16) : Res Bool := isUcs2S U test kUcs2 Pred.none
/-- interface/string.hxx:307-308 `isUcs2(const utf16String&, pred)`. -/
def isUcs2S2 (U : CharClass) (test : List U16) (pred : Pred) : Res Bool := isUcs2S U test kUcs2 pred
/-- interface/string.hxx:303-305, called with one argument. -/
def isUcs2P1 (U : CharClass) (test : Ptr U16) : Res Bool := isUcs2 U test kUcs2 Pred.none
/-- interface/string.hxx:309-310 `isUcs2(const char16_t*, pred)`. -/
def isUcs2P2 (U : CharClass) (test : Ptr U16) (pred : Pred) : Res Bool := isUcs2 U test kUcs2 pred

/-- interface/string.hxx:315-317, called with one argument. -/
def isUcs4S1 (U : CharClass) (test : List U32) : Res Bool := isUcs4S U test kUcs4 Pred.none
/-- interface/string.hxx:322-323 `isUcs4(const ucs4String&, pred)`. -/
def isUcs4S2 (U : CharClass) (test : List U32) (pred : Pred) : Res Bool := isUcs4S U test kUcs4 pred
/-- interface/string.hxx:318-320, called with one argument. -/
def isUcs4P1 (U : CharClass) (test : Ptr U32) : Res Bool := isUcs4 U test kUcs4 Pred.none
/-- interface/string.hxx:324-325 `isUcs4(const char32_t*, pred)`. -/
def isUcs4P2 (U : CharClass) (test : Ptr U32) (pred : Pred) : Res Bool := isUcs4 U test kUcs4 pred

end Ansak
