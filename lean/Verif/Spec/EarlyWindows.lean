import Verif.Spec.Early
import Verif.Spec.LibraryWindows

/-! # Specification: calls before the globals of the library are initialised, on Windows -/

namespace Ansak.Spec

open Cpp.Source (Tchar)

/-- The outcome of a call is this one, whatever `supportedUnicodeVersion` is at that time. As `RunsWindows`. -/
def EarlyWindows (t : Tchar) (v : Version) (name : Nat) (args : List Arg) (out : Res Arg) : Prop :=
  ∀ u sc n, enough args ≤ n →
    Yields sc (Cpp.callText (unready v sc u) sc .c16 (Cpp.Source.onWindows t) n (nat_lit 0) name
      (args.map (Arg.val sc))) out

/-- As `NeverReturns`. -/
def EarlyNever (i : Nat) (v : Version) (arg : Arg) : Prop :=
  ∀ u sc n, Cpp.callText (unready v sc u) sc .c16 (Cpp.Source.untilMbcs i) n (nat_lit 0) (name% "toTstring") [arg.val sc] =
    .timeout

/-- A string or a pointer, of characters of 8, 16 or 32 bits. -/
inductive CharsAny : Arg → Prop
  | chars8 {a : Arg} : Chars8 a → CharsAny a
  | chars16 {a : Arg} : Chars16 a → CharsAny a
  | chars32 {a : Arg} : Chars32 a → CharsAny a

/-- The calls of the functions that the library has on Windows only, apart from those of `EarlyNever`. -/
inductive OverloadWindows : Tchar → Nat → List Arg → Prop
  | isUtf16 {t : Tchar} {a : Arg} : Chars8 a → OverloadWindows t (name% "isUtf16") [a]
  | isUcs2 {t : Tchar} {a : Arg} : Chars8 a → OverloadWindows t (name% "isUcs2") [a]
  | isUcs4 {t : Tchar} {a : Arg} : Chars8 a → OverloadWindows t (name% "isUcs4") [a]
  | toUtf8 {t : Tchar} {a : Arg} : Chars8 a → OverloadWindows t (name% "toUtf8") [a]
  | isTstring {a : Arg} : CharsAny a → OverloadWindows .mbcs (name% "isTstring") [a]
  | isTstringW {a : Arg} : CharsAny a → OverloadWindows .unicode (name% "isTstring") [a]
  | toTstring8 (p : Ptr Byte) : OverloadWindows .mbcs (name% "toTstring") [.ptr8 p]
  | toTstring16 (p : Ptr U16) : OverloadWindows .mbcs (name% "toTstring") [.ptr16 p]
  | toTstring32 (p : Ptr U32) : OverloadWindows .mbcs (name% "toTstring") [.ptr32 p]
  | toTstringW {a : Arg} : CharsAny a → OverloadWindows .unicode (name% "toTstring") [a]

end Ansak.Spec
