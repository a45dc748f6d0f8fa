import Verif.Spec.Library
import Verif.Model.Cpp.SourceWindows

/-!
# Calls of the library as it is written for Windows

On Windows (`WIN32` is defined) `wchar_t` has 16 bits and `interface/string.hxx` has more functions. Some of them depend on
what `TCHAR` is: `char` (`_MBCS` is defined) or `wchar_t` (`_UNICODE` is defined).
-/

namespace Ansak.Spec

open Cpp.Source (Tchar)

/-- A call of a function of the library on Windows that is not a member of a class. Its body may only call functions that
are declared before it. (With `_MBCS` the overloads of `toTstring` for strings do not, see `NeverReturns`.) -/
def RunsWindows (t : Tchar) (v : Version) (name : Nat) (args : List Arg) (out : Res Arg) : Prop :=
  ∀ sc n, enough args ≤ n →
    Yields sc (Cpp.callText (Cpp.link v sc) sc .c16 (Cpp.Source.onWindows t) n (nat_lit 0) name
      (args.map (Arg.val sc))) out

/-- A call returns this value. -/
abbrev ReturnsWindows (t : Tchar) (v : Version) (name : Nat) (args : List Arg) (r : Arg) : Prop :=
  RunsWindows t v name args (.ok r)

/-- With `_MBCS`, a call of `toTstring` exceeds every limit on the number of calls inside each other. It is the function
number `i` (from 0) of this name, so it can call the functions up to this one: the text ends here. -/
def NeverReturns (i : Nat) (v : Version) (arg : Arg) : Prop :=
  ∀ sc n, Cpp.callText (Cpp.link v sc) sc .c16 (Cpp.Source.untilMbcs i) n (nat_lit 0) (name% "toTstring") [arg.val sc] = .timeout

end Ansak.Spec
