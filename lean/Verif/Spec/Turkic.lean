import Verif.Spec.Utf8

/-!
# Specification: Turkic languages (interface/string.hxx:416-434)
-/

namespace Ansak.Spec

/-- The ISO 639 codes of Turkish, Azerbaijani, Tatar and Kazakh that count as Turkic. -/
def turkicCodes : List (List Char) :=
  [['t', 'r'], ['a', 'z'], ['t', 't'], ['k', 'k'],
   ['t', 'u', 'r'], ['t', 'a', 't'], ['k', 'a', 'z'],
   ['a', 'z', 'e'], ['a', 'z', 'b'], ['a', 'z', 'j']]

/-- An ASCII text as bytes. -/
def ascii (s : List Char) : List (BitVec 8) := s.map fun c => BitVec.ofNat 8 c.toNat

/-- A language argument: absent (a null pointer), or a string. -/
abbrev Lang := Option (List (BitVec 8))

/-- The language argument names a Turkic language. -/
def Turkic : Lang → Prop
  | none => False
  | some l => ∃ code ∈ turkicCodes, textOf l = ascii code

end Ansak.Spec
