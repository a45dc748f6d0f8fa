import Verif.Spec.Utf8
import Verif.Spec.Args

/-!
# Specification: when two strings have the same text
-/

namespace Ansak.Spec

/-- The two texts are the same, but for a high surrogate that either may have at its very end. -/
def SameUtf16 (s t : List U16) : Prop := ∃ u a b, textOf s = u ++ a ∧ textOf t = u ++ b ∧
  (a = [] ∨ Utf16Incomplete a) ∧ (b = [] ∨ Utf16Incomplete b)

/-- The two texts have the same characters. -/
def SameUtf8 (s t : List Byte) : Prop := ∃ vs a b, Utf8Reads (textOf s) vs a ∧ Utf8Reads (textOf t) vs b

end Ansak.Spec
