import Verif.Spec.LowerDeviations
import Verif.Spec.Turkic

/-!
# Specification: what lower-casing does to every code point

`Verif/Spec/LowerDeviations.lean` lists where `toLower` departs from UnicodeData.txt; this file says what it gives there.
-/

namespace Ansak.Spec

/-- What becomes of the code points of `lowerDeviations`. The multiplication sign becomes the division sign, the four small
letters become the letters after them, the capitals of Old Hungarian are 0x40 before the small letters, the gaps between the
capitals of Vithkuqi are mapped as the capitals are, and all the others stay as they are. -/
def lowerInstead (x : Nat) : Nat :=
  if x = 0xD7 then 0xF7
  else if x = 0x1E96 ∨ x = 0x1E98 ∨ x = 0x1E9A ∨ x = 0x1E9C then x + 1
  else if 0x10C80 ≤ x ∧ x ≤ 0x10CB2 then x + 0x40
  else if x = 0x1057B ∨ x = 0x1058B ∨ x = 0x10593 then x + 0x27
  else x

instance (rs : List (Nat × Nat)) (x : Nat) : Decidable (InRanges rs x) := by unfold InRanges; infer_instance

instance : (lang : Lang) → Decidable (Turkic lang)
  | none => isFalse id
  | some l => by unfold Turkic; infer_instance

/-- What lower-casing gives for the code point `x` in the language `lang`: UnicodeData.txt, apart from the code points of
`lowerDeviations` and the two letters that are different in Turkic languages. -/
def lowered (v : Version) (lang : Lang) (x : Nat) : Nat :=
  if Turkic lang ∧ x = 0x49 then 0x131
  else if Turkic lang ∧ x = 0x130 then 0x69
  else if InRanges (lowerDeviations v) x then lowerInstead x
  else lowerOf v x

end Ansak.Spec
