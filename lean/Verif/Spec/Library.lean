import Verif.Model.Cpp.Link
import Verif.Model.Predicate

/-!
# Calls of the library as it is written

`Runs v name args out`: call the function `name` of the library with these arguments. The function is the one in the
text of the library (`Cpp.Source.pieces`), run by the definitions of `Verif.Model.Cpp`, and linked with the text of the
tables for the version `v` of Unicode. Then the outcome is `out`: a value or undefined behaviour. If there is a value the
arguments have not changed. It is this outcome whether `char` is signed or not, and whether `wchar_t` has 32 bits or 16.

`RunsOn w v name args out` says this for a `wchar_t` of 32 bits (`w` is `true`) or 16 bits: the header has different
functions for `std::wstring`. `Changes v name victim args out` is for functions that change their first argument.

The functions of the semantics are total because the number of calls inside each other, and of rounds of a loop, is
limited. `Runs` says that the length of the arguments and 8 more are enough, and that a greater limit changes nothing:
the call terminates.
-/

namespace Ansak.Spec

/-- An argument or a result of a function of the library. -/
inductive Arg where
  | bool (b : Bool)
  /-- `unsigned int` -/
  | uint (n : U32)
  | char8 (c : Byte)
  | char16 (c : U16)
  | char32 (c : U32)
  /-- `std::string` -/
  | str8 (s : List Byte)
  /-- `std::u16string` -/
  | str16 (s : List U16)
  /-- `std::u32string` -/
  | str32 (s : List U32)
  /-- `const char*`: to the beginning of a buffer, or null -/
  | ptr8 (p : Ptr Byte)
  /-- `const char16_t*` -/
  | ptr16 (p : Ptr U16)
  /-- `const char32_t*` -/
  | ptr32 (p : Ptr U32)
  /-- `std::wstring`; the characters are extended to 32 bits if `wchar_t` has 16 -/
  | wstr (s : List U32)
  /-- `const wchar_t*` -/
  | wptr (p : Ptr U32)
  /-- `std::vector<std::string>` -/
  | vec8 (l : List (List Byte))
  /-- `std::vector<std::u16string>` -/
  | vec16 (l : List (List U16))
  /-- `std::vector<std::u32string>` -/
  | vec32 (l : List (List U32))
  /-- `RangeType` -/
  | range (t : Int)
  /-- `EncodingType` -/
  | encoding (t : Int)
  /-- `SourceEncoding` -/
  | page (t : Int)
  /-- `EncodingCheckPredicate` -/
  | pred (p : Pred)

/-- The values of the semantics of C++. -/
def Arg.val (sc : Bool) : Arg → Cpp.Val
  | .bool b => .int .bool (Cpp.bit b)
  | .uint n => .int .uint n.toNat
  | .char8 c => .int .char (Cpp.charVal sc c)
  | .char16 c => .int .c16 c.toNat
  | .char32 c => .int .c32 c.toNat
  | .str8 s => .str .char (Cpp.units8 sc s)
  | .str16 s => .str .c16 (Cpp.units16 s)
  | .str32 s => .str .c32 (Cpp.units32 s)
  | .ptr8 p => .ptr .char (p.map fun l => (Cpp.units8 sc l, ((0 : Nat) : Int)))
  | .ptr16 p => .ptr .c16 (p.map fun l => (Cpp.units16 l, ((0 : Nat) : Int)))
  | .ptr32 p => .ptr .c32 (p.map fun l => (Cpp.units32 l, ((0 : Nat) : Int)))
  | .wstr s => .str .wchar (Cpp.units32 s)
  | .wptr p => .ptr .wchar (p.map fun l => (Cpp.units32 l, ((0 : Nat) : Int)))
  | .vec8 l => .vec .char (l.map (Cpp.units8 sc))
  | .vec16 l => .vec .c16 (l.map Cpp.units16)
  | .vec32 l => .vec .c32 (l.map Cpp.units32)
  | .range t => .int (.enum (name% "RangeType")) t
  | .encoding t => .int (.enum (name% "EncodingType")) t
  | .page t => .int (.enum (name% "SourceEncoding")) t
  | .pred p => .obj (name% "EncodingCheckPredicate")
      [(name% "m_mask", .uint, p.mask.toNat), (name% "m_value", .uint, p.value.toNat)]

/-- The length of a string or a buffer. -/
def Arg.size : Arg → Nat
  | .str8 s => s.length
  | .str16 s => s.length
  | .str32 s => s.length
  | .ptr8 p => (p.getD []).length
  | .ptr16 p => (p.getD []).length
  | .ptr32 p => (p.getD []).length
  | .wstr s => s.length
  | .wptr p => (p.getD []).length
  | _ => 0

/-- A `std::wstring` if `wchar_t` has 16 bits. -/
abbrev Arg.wstr16 (s : List U16) : Arg := .wstr (s.map (BitVec.setWidth 32))

/-- A `const wchar_t*` if `wchar_t` has 16 bits. -/
abbrev Arg.wptr16 (p : Ptr U16) : Arg := .wptr (p.map (List.map (BitVec.setWidth 32)))

/-- How much is enough. -/
def enough : List Arg → Nat
  | [] => 8
  | a :: as => a.size + enough as

/-- The outcome `o` of a call returns this value and nothing comes back by reference (the arguments keep their values), or it is
undefined behaviour. -/
def Yields (sc : Bool) (o : Cpp.Out) : Res Arg → Prop
  | .ok a => ∃ refs, o = .done (a.val sc) refs ∧ ∀ r ∈ refs, r = none
  | .ub => o = .ub

/-- A call of a function that is not a member of a class, where `wchar_t` has 32 bits or 16. -/
def RunsOn (w : Bool) (v : Version) (name : Nat) (args : List Arg) (out : Res Arg) : Prop :=
  ∀ sc n, enough args ≤ n →
    Yields sc (Cpp.callText (Cpp.link v sc) sc (Cpp.wideType w) (Cpp.Source.pieces w) n (nat_lit 0) name
      (args.map (Arg.val sc))) out

/-- A call of a function that is not a member of a class. -/
def Runs (v : Version) (name : Nat) (args : List Arg) (out : Res Arg) : Prop := ∀ w, RunsOn w v name args out

/-- A call of a function that changes its first argument from `victim` to `out`, and does not change the others. -/
def Changes (v : Version) (name : Nat) (victim : Arg) (args : List Arg) (out : Res Arg) : Prop :=
  ∀ w sc n, enough (victim :: args) ≤ n →
    Cpp.callText (Cpp.link v sc) sc (Cpp.wideType w) (Cpp.Source.pieces w) n (nat_lit 0) name
      ((victim :: args).map (Arg.val sc)) =
    match out with
    | .ok a => .done .void (some (a.val sc) :: args.map fun _ => none)
    | .ub => .ub

/-- A call returns this value. -/
abbrev Returns (v : Version) (name : Nat) (args : List Arg) (r : Arg) : Prop := Runs v name args (.ok r)

/-- A call returns this value, where `wchar_t` has 32 bits or 16. -/
abbrev ReturnsOn (w : Bool) (v : Version) (name : Nat) (args : List Arg) (r : Arg) : Prop := RunsOn w v name args (.ok r)

/-- A call of a member function of `EncodingCheckPredicate` for the object `self`: it returns `result`, and afterwards
the object is `self'`. -/
def RunsMember (v : Version) (name : Nat) (self : Pred) (args : List Arg) (result : Arg) (self' : Pred) : Prop :=
  ∀ w sc n, enough args ≤ n →
    Cpp.callText (Cpp.link v sc) sc (Cpp.wideType w) (Cpp.Source.pieces w) n (name% "EncodingCheckPredicate") name
        ((Arg.pred self).val sc :: args.map (Arg.val sc)) =
      .done (result.val sc) (some ((Arg.pred self').val sc) :: args.map fun _ => none)

/-- A call of a member function of `EncodingCheckPredicate` for the object `self`, with that same object as its argument, as in
`x == x`: it returns `result` and does not change the object. -/
def RunsOnItself (v : Version) (name : Nat) (self : Pred) (result : Arg) : Prop :=
  ∀ w sc n, 8 ≤ n →
    Cpp.callText (Cpp.link v sc) sc (Cpp.wideType w) (Cpp.Source.pieces w) n (name% "EncodingCheckPredicate") name
        [(Arg.pred self).val sc, .self] =
      .done (result.val sc) [some ((Arg.pred self).val sc), none]

/-- The characters of a string of ASCII characters. -/
def bytesOf (s : String) : List Byte := s.toList.map fun c => BitVec.ofNat 8 c.toNat

/-! ## The calls that are allowed -/

/-- A string, a null pointer, or a pointer to a buffer in which there is a NUL. -/
inductive Text8 : Arg → Prop
  | string (s : List Byte) : Text8 (.str8 s)
  | null : Text8 (.ptr8 none)
  | buffer {l : List Byte} (h : 0 ∈ l) : Text8 (.ptr8 (some l))

@[inherit_doc Text8]
inductive Text16 : Arg → Prop
  | string (s : List U16) : Text16 (.str16 s)
  | null : Text16 (.ptr16 none)
  | buffer {l : List U16} (h : 0 ∈ l) : Text16 (.ptr16 (some l))

@[inherit_doc Text8]
inductive Text32 : Arg → Prop
  | string (s : List U32) : Text32 (.str32 s)
  | null : Text32 (.ptr32 none)
  | buffer {l : List U32} (h : 0 ∈ l) : Text32 (.ptr32 (some l))

/-- What can follow the text in a call of a validation function. -/
inductive Options : List Arg → Prop
  | none : Options []
  | range (t : Int) : Options [.range t]
  | pred (q : Pred) : Options [.pred q]
  | both (t : Int) (q : Pred) : Options [.range t, .pred q]

/-- The calls of the functions of `interface/string.hxx` with texts that end with a NUL. -/
inductive Allowed : Nat → List Arg → Prop
  | isUtf8 {a : Arg} {as : List Arg} : Text8 a → Options as → Allowed (name% "isUtf8") (a :: as)
  | isUtf16 {a : Arg} {as : List Arg} : Text16 a → Options as → Allowed (name% "isUtf16") (a :: as)
  | isUcs2 {a : Arg} {as : List Arg} : Text16 a → Options as → Allowed (name% "isUcs2") (a :: as)
  | isUcs4 {a : Arg} {as : List Arg} : Text32 a → Options as → Allowed (name% "isUcs4") (a :: as)
  | toUtf8_16 {a : Arg} : Text16 a → Allowed (name% "toUtf8") [a]
  | toUtf8_32 {a : Arg} : Text32 a → Allowed (name% "toUtf8") [a]
  | toUcs2_8 {a : Arg} : Text8 a → Allowed (name% "toUcs2") [a]
  | toUcs2_32 {a : Arg} : Text32 a → Allowed (name% "toUcs2") [a]
  | toUtf16_8 {a : Arg} : Text8 a → Allowed (name% "toUtf16") [a]
  | toUtf16_32 {a : Arg} : Text32 a → Allowed (name% "toUtf16") [a]
  | toUcs4_8 {a : Arg} : Text8 a → Allowed (name% "toUcs4") [a]
  | toUcs4_16 {a : Arg} : Text16 a → Allowed (name% "toUcs4") [a]
  | page {p : Ptr Byte} (t : Int) : Text8 (.ptr8 p) → Allowed (name% "toUtf8") [.ptr8 p, .page t]
  | unicodeLength8 {a : Arg} : Text8 a → Allowed (name% "unicodeLength") [a]
  -- a null pointer is not allowed here, although string.hxx does not say so
  | unicodeLength16 {a : Arg} : Text16 a → a ≠ .ptr16 none → Allowed (name% "unicodeLength") [a]
  | unicodeLength32 {a : Arg} : Text32 a → a ≠ .ptr32 none → Allowed (name% "unicodeLength") [a]
  | toLower8 (s : List Byte) : Allowed (name% "toLower") [.str8 s]
  | toLower16 (s : List U16) : Allowed (name% "toLower") [.str16 s]
  | toLower32 (s : List U32) : Allowed (name% "toLower") [.str32 s]
  | toLower8_lang (s : List Byte) {p : Ptr Byte} : Text8 (.ptr8 p) → Allowed (name% "toLower") [.str8 s, .ptr8 p]
  | toLower16_lang (s : List U16) {p : Ptr Byte} : Text8 (.ptr8 p) → Allowed (name% "toLower") [.str16 s, .ptr8 p]
  | toLower32_lang (s : List U32) {p : Ptr Byte} : Text8 (.ptr8 p) → Allowed (name% "toLower") [.str32 s, .ptr8 p]
  | validIf (t : Int) : Allowed (name% "validIf") [.encoding t]
  | validIfNot (t : Int) : Allowed (name% "validIfNot") [.encoding t]
  | checkIf (t : Int) : Allowed (name% "checkIf") [.encoding t]
  | checkIfNot (t : Int) : Allowed (name% "checkIfNot") [.encoding t]
  | version : Allowed (name% "getUnicodeVersionSupported") []

/-- A wide string, a null pointer, or a pointer to a buffer in which there is a NUL. -/
inductive TextW : Bool → Arg → Prop
  | string32 (s : List U32) : TextW true (.wstr s)
  | string16 (s : List U16) : TextW false (.wstr16 s)
  | null32 : TextW true (.wptr none)
  | null16 : TextW false (.wptr16 none)
  | buffer32 {l : List U32} (h : 0 ∈ l) : TextW true (.wptr (some l))
  | buffer16 {l : List U16} (h : 0 ∈ l) : TextW false (.wptr16 (some l))

/-- The calls of the functions for `wchar_t`. Where the encoding stays the same a null pointer is not allowed, although
string.hxx does not say so. -/
inductive AllowedW : Bool → Nat → List Arg → Prop
  | isUtf8 {w : Bool} {a : Arg} : TextW w a → AllowedW w (name% "isUtf8") [a]
  | isUtf16 {w : Bool} {a : Arg} : TextW w a → AllowedW w (name% "isUtf16") [a]
  | isUcs2 {w : Bool} {a : Arg} : TextW w a → AllowedW w (name% "isUcs2") [a]
  | isUcs4 {w : Bool} {a : Arg} : TextW w a → AllowedW w (name% "isUcs4") [a]
  | isWstring8 {w : Bool} {a : Arg} : Text8 a → AllowedW w (name% "isWstring") [a]
  | isWstring16 {w : Bool} {a : Arg} : Text16 a → AllowedW w (name% "isWstring") [a]
  | isWstring32 {w : Bool} {a : Arg} : Text32 a → AllowedW w (name% "isWstring") [a]
  | toUtf8 {w : Bool} {a : Arg} : TextW w a → AllowedW w (name% "toUtf8") [a]
  | toUtf16 {w : Bool} {a : Arg} : TextW w a → (w = false → a ≠ .wptr none) → AllowedW w (name% "toUtf16") [a]
  | toUcs2 {w : Bool} {a : Arg} : TextW w a → (w = false → a ≠ .wptr none) → AllowedW w (name% "toUcs2") [a]
  | toUcs4 {w : Bool} {a : Arg} : TextW w a → (w = true → a ≠ .wptr none) → AllowedW w (name% "toUcs4") [a]
  | toWstring8 {w : Bool} {a : Arg} : Text8 a → AllowedW w (name% "toWstring") [a]
  | toWstring16 {w : Bool} {a : Arg} : Text16 a → (w = false → a ≠ .ptr16 none) → AllowedW w (name% "toWstring") [a]
  | toWstring32 {w : Bool} {a : Arg} : Text32 a → (w = true → a ≠ .ptr32 none) → AllowedW w (name% "toWstring") [a]

end Ansak.Spec
