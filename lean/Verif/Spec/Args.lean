import Verif.Model.StringIs
import Verif.Spec.Turkic

/-!
# Specification: arguments of the functions, as they are used in the statements of properties
-/

namespace Ansak

/-- The unsigned values of the units. -/
def vals {w : Nat} (s : List (BitVec w)) : List Nat := s.map BitVec.toNat

/-- The pointer passed for a language argument. -/
def langPtr : Spec.Lang → Ptr Byte
  | none => none
  | some l => cStr l

/-- Each range with the next wider one. -/
def nested : List (RangeType × RangeType) :=
  [(kAscii, kUcs2), (kUcs2, kUnicode), (kUnicode, kUtf16), (kUtf16, kUtf8), (kUtf8, kUcs4)]

end Ansak
