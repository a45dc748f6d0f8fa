import Verif.Spec.Library

/-!
# Specification: calls before the globals of the library are initialised

The library has one global that a constructor initialises: `supportedUnicodeVersion` (`source/bits*/char_is_unicode.cxx:52`), of type
`std::string`. The tables are arrays of constants and need no initialisation at run time. Other globals of a program can call the
library from their initialisers, and in C++ the order of initialisation across files is not determined. So there are calls for which
`supportedUnicodeVersion` is not what it will be; here it is any string.
-/

namespace Ansak.Spec

/-- What is linked to the library while `supportedUnicodeVersion` has the content `u`. -/
def unready (v : Version) (sc : Bool) (u : List Int) : Cpp.Externals where
  fn := (Cpp.link v sc).fn
  str _ := some u

/-- The outcome of a call is this one, whatever `supportedUnicodeVersion` is at that time. As `RunsOn`. -/
def EarlyOn (w : Bool) (v : Version) (name : Nat) (args : List Arg) (out : Res Arg) : Prop :=
  ∀ u sc n, enough args ≤ n →
    Yields sc (Cpp.callText (unready v sc u) sc (Cpp.wideType w) (Cpp.Source.pieces w) n (nat_lit 0) name
      (args.map (Arg.val sc))) out

/-- As `Runs`. -/
def Early (v : Version) (name : Nat) (args : List Arg) (out : Res Arg) : Prop := ∀ w, EarlyOn w v name args out

/-- As `Changes`. -/
def EarlyChanges (v : Version) (name : Nat) (victim : Arg) (args : List Arg) (out : Res Arg) : Prop :=
  ∀ w u sc n, enough (victim :: args) ≤ n →
    Cpp.callText (unready v sc u) sc (Cpp.wideType w) (Cpp.Source.pieces w) n (nat_lit 0) name
      ((victim :: args).map (Arg.val sc)) =
    match out with
    | .ok a => .done .void (some (a.val sc) :: args.map fun _ => none)
    | .ub => .ub

/-- As `RunsMember`. -/
def EarlyMember (v : Version) (name : Nat) (self : Pred) (args : List Arg) (result : Arg) (self' : Pred) : Prop :=
  ∀ w u sc n, enough args ≤ n →
    Cpp.callText (unready v sc u) sc (Cpp.wideType w) (Cpp.Source.pieces w) n (name% "EncodingCheckPredicate") name
        ((Arg.pred self).val sc :: args.map (Arg.val sc)) =
      .done (result.val sc) (some ((Arg.pred self').val sc) :: args.map fun _ => none)

/-- As `Constructs`. -/
def EarlyConstructs (v : Version) (p : Pred) : Prop :=
  ∀ w u sc n, 8 ≤ n →
    Cpp.callText (unready v sc u) sc (Cpp.wideType w) (Cpp.Source.pieces w) n (name% "EncodingCheckPredicate")
      (name% "EncodingCheckPredicate") [] = .done ((Arg.pred p).val sc) []

/-- As `RunsOnItself`. -/
def EarlyOnItself (v : Version) (name : Nat) (self : Pred) (result : Arg) : Prop :=
  ∀ w u sc n, 8 ≤ n →
    Cpp.callText (unready v sc u) sc (Cpp.wideType w) (Cpp.Source.pieces w) n (name% "EncodingCheckPredicate") name
        [(Arg.pred self).val sc, .self] =
      .done (result.val sc) [some ((Arg.pred self).val sc), none]

/-- The variables that a program declares and that are defined in other files. -/
def definedElsewhere (is : List Cpp.Item) : List Nat :=
  is.flatMap fun i =>
    match i with
    | .extern _ x => [x]
    | _ => []

/-! ## The functions of the library -/

/-- A string or a pointer. -/
inductive Chars8 : Arg → Prop
  | str (s : List Byte) : Chars8 (.str8 s)
  | ptr (p : Ptr Byte) : Chars8 (.ptr8 p)

@[inherit_doc Chars8]
inductive Chars16 : Arg → Prop
  | str (s : List U16) : Chars16 (.str16 s)
  | ptr (p : Ptr U16) : Chars16 (.ptr16 p)

@[inherit_doc Chars8]
inductive Chars32 : Arg → Prop
  | str (s : List U32) : Chars32 (.str32 s)
  | ptr (p : Ptr U32) : Chars32 (.ptr32 p)

/-- A wide string or a pointer, where `wchar_t` has 32 bits or 16. -/
inductive CharsW : Bool → Arg → Prop
  | str32 (s : List U32) : CharsW true (.wstr s)
  | ptr32 (p : Ptr U32) : CharsW true (.wptr p)
  | str16 (s : List U16) : CharsW false (.wstr16 s)
  | ptr16 (p : Ptr U16) : CharsW false (.wptr16 p)

/-- All calls of functions that are not members, with whatever arguments, apart from `getUnicodeVersionSupported`, the functions
for `wchar_t`, and those that change their argument. The lengths of strings to split are those that a string can have. -/
inductive Overload : Nat → List Arg → Prop
  | isUtf8 {a : Arg} {as : List Arg} : Chars8 a → Options as → Overload (name% "isUtf8") (a :: as)
  | isUtf8Len (p : Ptr Byte) (len : U32) : Overload (name% "isUtf8") [.ptr8 p, .uint len]
  | isUtf8LenPred (p : Ptr Byte) (len : U32) (q : Pred) : Overload (name% "isUtf8") [.ptr8 p, .uint len, .pred q]
  | isUtf16 {a : Arg} {as : List Arg} : Chars16 a → Options as → Overload (name% "isUtf16") (a :: as)
  | isUcs2 {a : Arg} {as : List Arg} : Chars16 a → Options as → Overload (name% "isUcs2") (a :: as)
  | isUcs4 {a : Arg} {as : List Arg} : Chars32 a → Options as → Overload (name% "isUcs4") (a :: as)
  | toUtf8_16 {a : Arg} : Chars16 a → Overload (name% "toUtf8") [a]
  | toUtf8_32 {a : Arg} : Chars32 a → Overload (name% "toUtf8") [a]
  | toUcs2_8 {a : Arg} : Chars8 a → Overload (name% "toUcs2") [a]
  | toUcs2_32 {a : Arg} : Chars32 a → Overload (name% "toUcs2") [a]
  | toUtf16_8 {a : Arg} : Chars8 a → Overload (name% "toUtf16") [a]
  | toUtf16_32 {a : Arg} : Chars32 a → Overload (name% "toUtf16") [a]
  | toUcs4_8 {a : Arg} : Chars8 a → Overload (name% "toUcs4") [a]
  | toUcs4_16 {a : Arg} : Chars16 a → Overload (name% "toUcs4") [a]
  | page (p : Ptr Byte) (t : Int) : Overload (name% "toUtf8") [.ptr8 p, .page t]
  | unicodeLength8 {a : Arg} : Chars8 a → Overload (name% "unicodeLength") [a]
  | unicodeLength16 {a : Arg} : Chars16 a → Overload (name% "unicodeLength") [a]
  | unicodeLength32 {a : Arg} : Chars32 a → Overload (name% "unicodeLength") [a]
  | unicodeLength8Len (p : Ptr Byte) (len : U32) : Overload (name% "unicodeLength") [.ptr8 p, .uint len]
  | unicodeLength16Len (p : Ptr U16) (len : U32) : Overload (name% "unicodeLength") [.ptr16 p, .uint len]
  | unicodeLength32Len (p : Ptr U32) (len : U32) : Overload (name% "unicodeLength") [.ptr32 p, .uint len]
  | toLower8 (s : List Byte) : Overload (name% "toLower") [.str8 s]
  | toLower16 (s : List U16) : Overload (name% "toLower") [.str16 s]
  | toLower32 (s : List U32) : Overload (name% "toLower") [.str32 s]
  | toLower8Lang (s : List Byte) (p : Ptr Byte) : Overload (name% "toLower") [.str8 s, .ptr8 p]
  | toLower16Lang (s : List U16) (p : Ptr Byte) : Overload (name% "toLower") [.str16 s, .ptr8 p]
  | toLower32Lang (s : List U32) (p : Ptr Byte) : Overload (name% "toLower") [.str32 s, .ptr8 p]
  | validIf (t : Int) : Overload (name% "validIf") [.encoding t]
  | validIfNot (t : Int) : Overload (name% "validIfNot") [.encoding t]
  | checkIf (t : Int) : Overload (name% "checkIf") [.encoding t]
  | checkIfNot (t : Int) : Overload (name% "checkIfNot") [.encoding t]
  | split8 {s : List Byte} (c : Byte) : s.length < 18446744073709551615 → Overload (name% "split") [.str8 s, .char8 c]
  | split16 {s : List U16} (c : U16) : s.length < 18446744073709551615 → Overload (name% "split") [.str16 s, .char16 c]
  | split32 {s : List U32} (c : U32) : s.length < 18446744073709551615 → Overload (name% "split") [.str32 s, .char32 c]
  | join8 (l : List (List Byte)) (c : Byte) : Overload (name% "join") [.vec8 l, .char8 c]
  | join16 (l : List (List U16)) (c : U16) : Overload (name% "join") [.vec16 l, .char16 c]
  | join32 (l : List (List U32)) (c : U32) : Overload (name% "join") [.vec32 l, .char32 c]

/-- The calls of the functions for `wchar_t`. -/
inductive OverloadW : Bool → Nat → List Arg → Prop
  | isUtf8 {w : Bool} {a : Arg} : CharsW w a → OverloadW w (name% "isUtf8") [a]
  | isUtf16 {w : Bool} {a : Arg} : CharsW w a → OverloadW w (name% "isUtf16") [a]
  | isUcs2 {w : Bool} {a : Arg} : CharsW w a → OverloadW w (name% "isUcs2") [a]
  | isUcs4 {w : Bool} {a : Arg} : CharsW w a → OverloadW w (name% "isUcs4") [a]
  | isWstring8 {w : Bool} {a : Arg} : Chars8 a → OverloadW w (name% "isWstring") [a]
  | isWstring16 {w : Bool} {a : Arg} : Chars16 a → OverloadW w (name% "isWstring") [a]
  | isWstring32 {w : Bool} {a : Arg} : Chars32 a → OverloadW w (name% "isWstring") [a]
  | toUtf8 {w : Bool} {a : Arg} : CharsW w a → OverloadW w (name% "toUtf8") [a]
  | toUtf16 {w : Bool} {a : Arg} : CharsW w a → OverloadW w (name% "toUtf16") [a]
  | toUcs2 {w : Bool} {a : Arg} : CharsW w a → OverloadW w (name% "toUcs2") [a]
  | toUcs4 {w : Bool} {a : Arg} : CharsW w a → OverloadW w (name% "toUcs4") [a]
  | toWstring8 {w : Bool} {a : Arg} : Chars8 a → OverloadW w (name% "toWstring") [a]
  | toWstring16 {w : Bool} {a : Arg} : Chars16 a → OverloadW w (name% "toWstring") [a]
  | toWstring32 {w : Bool} {a : Arg} : Chars32 a → OverloadW w (name% "toWstring") [a]

/-- The calls of the functions that change their first argument. -/
inductive Changer : Nat → Arg → List Arg → Prop
  | trim8 {s : List Byte} : s.length < 18446744073709551615 → Changer (name% "trim") (.str8 s) []
  | trim16 {s : List U16} : s.length < 18446744073709551615 → Changer (name% "trim") (.str16 s) []
  | trim32 {s : List U32} : s.length < 18446744073709551615 → Changer (name% "trim") (.str32 s) []
  | trimOf8 {s t : List Byte} : s.length < 18446744073709551615 → t.length < 18446744073709551615 →
      Changer (name% "trim") (.str8 s) [.str8 t]
  | trimOf16 {s t : List U16} : s.length < 18446744073709551615 → t.length < 18446744073709551615 →
      Changer (name% "trim") (.str16 s) [.str16 t]
  | trimOf32 {s t : List U32} : s.length < 18446744073709551615 → t.length < 18446744073709551615 →
      Changer (name% "trim") (.str32 s) [.str32 t]
  | trimAscii7 {s : List Byte} : s.length < 18446744073709551615 → Changer (name% "trimAscii7WhiteSpace") (.str8 s) []
  | trimWhite8 {s : List Byte} : s.length < 18446744073709551615 → Changer (name% "trimWhiteSpace") (.str8 s) []
  | trimWhite16 {s : List U16} : s.length < 18446744073709551615 → Changer (name% "trimWhiteSpace") (.str16 s) []
  | trimWhite32 {s : List U32} : s.length < 18446744073709551615 → Changer (name% "trimWhiteSpace") (.str32 s) []

/-- The calls of member functions of `EncodingCheckPredicate`. -/
inductive Member : Nat → List Arg → Prop
  | andIf (t : Int) : Member (name% "andIf") [.encoding t]
  | andIfNot (t : Int) : Member (name% "andIfNot") [.encoding t]
  | equals (q : Pred) : Member (name% "operator==") [.pred q]
  | differs (q : Pred) : Member (name% "operator!=") [.pred q]
  | apply8 (c : Byte) : Member (name% "operator()") [.char8 c]
  | apply16 (c : U16) : Member (name% "operator()") [.char16 c]
  | apply32 (c : U32) : Member (name% "operator()") [.char32 c]

end Ansak.Spec
