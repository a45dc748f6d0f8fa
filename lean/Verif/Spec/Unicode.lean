import Verif.Spec.UnicodeData.V7
import Verif.Spec.UnicodeData.V8
import Verif.Spec.UnicodeData.V9
import Verif.Spec.UnicodeData.V10
import Verif.Spec.UnicodeData.V11
import Verif.Spec.UnicodeData.V12
import Verif.Spec.UnicodeData.V13
import Verif.Spec.UnicodeData.V14
import Verif.Spec.UnicodeData.V15
import Verif.Spec.UnicodeData.V16
import Verif.Spec.Table
import Verif.Model.Unicode

/-!
# What the character functions ought to do

Assigned code points and lower-case mappings are those of the `UnicodeData.txt` kept beside the
sources of each version; private use, control and white space are listed from the Unicode
standard.
-/

namespace Ansak.Spec

/-- The ranges of code points listed in the version's UnicodeData.txt. -/
def assignedTable : Version → List (Nat × Nat)
  | .v7 => UnicodeData.V7.assigned
  | .v8 => UnicodeData.V8.assigned
  | .v9 => UnicodeData.V9.assigned
  | .v10 => UnicodeData.V10.assigned
  | .v11 => UnicodeData.V11.assigned
  | .v12 => UnicodeData.V12.assigned
  | .v13 => UnicodeData.V13.assigned
  | .v14 => UnicodeData.V14.assigned
  | .v15 => UnicodeData.V15.assigned
  | .v16 => UnicodeData.V16.assigned

/-- The simple lower-case mappings of the version's UnicodeData.txt. -/
def lowerTable : Version → List (Nat × Nat)
  | .v7 => UnicodeData.V7.lower
  | .v8 => UnicodeData.V8.lower
  | .v9 => UnicodeData.V9.lower
  | .v10 => UnicodeData.V10.lower
  | .v11 => UnicodeData.V11.lower
  | .v12 => UnicodeData.V12.lower
  | .v13 => UnicodeData.V13.lower
  | .v14 => UnicodeData.V14.lower
  | .v15 => UnicodeData.V15.lower
  | .v16 => UnicodeData.V16.lower

/-- The version's UnicodeData.txt lists the code point (outside surrogates and private use). -/
def Assigned (v : Version) (c : Nat) : Prop := InRanges (assignedTable v) c

/-- The simple lower-case mapping of a code point in the version's UnicodeData.txt; the code point
itself if it has none. -/
def lowerOf (v : Version) (c : Nat) : Nat := mapOf (lowerTable v) c

/-- The private use code points (Unicode standard, section 23.5). -/
def PrivateUse (c : Nat) : Prop :=
  (0xE000 ≤ c ∧ c ≤ 0xF8FF) ∨ (0xF0000 ≤ c ∧ c ≤ 0xFFFFD) ∨ (0x100000 ≤ c ∧ c ≤ 0x10FFFD)

/-- The control codes C0, DEL and C1 (Unicode standard, section 23.1). -/
def Control (c : Nat) : Prop := c ≤ 0x1F ∨ (0x7F ≤ c ∧ c ≤ 0x9F)

/-- The code points with the property White_Space (PropList.txt; the same in Unicode 7 to 16). -/
def WhiteSpace (c : Nat) : Prop :=
  c ∈ [0x9, 0xA, 0xB, 0xC, 0xD, 0x20, 0x85, 0xA0, 0x1680, 0x2000, 0x2001, 0x2002, 0x2003, 0x2004,
    0x2005, 0x2006, 0x2007, 0x2008, 0x2009, 0x200A, 0x2028, 0x2029, 0x202F, 0x205F, 0x3000]

/-- The number of a version. -/
def Version.number : Version → Nat
  | .v7 => 7
  | .v8 => 8
  | .v9 => 9
  | .v10 => 10
  | .v11 => 11
  | .v12 => 12
  | .v13 => 13
  | .v14 => 14
  | .v15 => 15
  | .v16 => 16

/-- `v` is `w` or an earlier version. -/
def Version.LE (v w : Version) : Prop := Version.number v ≤ Version.number w

end Ansak.Spec
