import Verif.Spec.Unicode

/-!
# Where lower-casing departs from UnicodeData.txt

The code points that `toLower` does not map as the version's UnicodeData.txt says, as ranges.
`C27` proves that these are all of them.
-/

namespace Ansak.Spec

/-- Departures present in every version: U+00D7 (multiplication sign) becomes U+00F7 (division
sign), and U+1E96, U+1E98, U+1E9A, U+1E9C, lower-case letters, become the letter after them. -/
def deviations8 : List (Nat × Nat) :=
  [(0xD7, 0xD7), (0x1E96, 0x1E96), (0x1E98, 0x1E98), (0x1E9A, 0x1E9A), (0x1E9C, 0x1E9C)]

/-- From version 11 on, the Georgian Mtavruli letters, U+A7B8 and the Medefaidrin capitals are not
lower-cased either. -/
def deviations11 : List (Nat × Nat) :=
  deviations8 ++ [(0x1C90, 0x1CBA), (0x1CBD, 0x1CBF), (0xA7B8, 0xA7B8), (0x16E40, 0x16E5F)]

/-- The departures of each version.  Version 7 lower-cases the Old Hungarian capitals, which
Unicode 8 introduced; versions 14 and 15 do not lower-case the Vithkuqi capitals; version 16 maps
the three unassigned code points between them as well. -/
def lowerDeviations : Version → List (Nat × Nat)
  | .v7 => deviations8 ++ [(0x10C80, 0x10CB2)]
  | .v8 => deviations8
  | .v9 => deviations8
  | .v10 => deviations8
  | .v11 => deviations11
  | .v12 => deviations11
  | .v13 => deviations11
  | .v14 => deviations11 ++
    [(0x10570, 0x1057A), (0x1057C, 0x1058A), (0x1058C, 0x10592), (0x10594, 0x10595)]
  | .v15 => deviations11 ++
    [(0x10570, 0x1057A), (0x1057C, 0x1058A), (0x1058C, 0x10592), (0x10594, 0x10595)]
  | .v16 => deviations11 ++ [(0x1057B, 0x1057B), (0x1058B, 0x1058B), (0x10593, 0x10593)]

end Ansak.Spec
