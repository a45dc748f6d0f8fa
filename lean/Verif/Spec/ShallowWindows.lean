import Verif.Spec.Shallow
import Verif.Spec.EarlyWindows

/-! # Specification: calls that need little of the stack, on Windows -/

namespace Ansak.Spec

open Cpp.Source (Tchar)

/-- The outcome of a call is this one, and eight calls inside each other are enough. As `RunsWindows`. -/
def ShallowWindows (t : Tchar) (v : Version) (name : Nat) (args : List Arg) (out : Res Arg) : Prop :=
  ∀ sc n d, enough args ≤ n → 8 ≤ d →
    Yields sc (callWithin (Cpp.link v sc) sc .c16 (Cpp.Source.onWindows t) n d (nat_lit 0) name
      (args.map (Arg.val sc))) out

/-- However many calls can be inside each other, they are not enough. As `NeverReturns`. -/
def Bottomless (i : Nat) (v : Version) (arg : Arg) : Prop :=
  ∀ sc n d, callWithin (Cpp.link v sc) sc .c16 (Cpp.Source.untilMbcs i) n d (nat_lit 0) (name% "toTstring") [arg.val sc] =
    .timeout

end Ansak.Spec
