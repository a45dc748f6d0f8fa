import Verif.Spec.Utf8

/-!
# Specification: the order of strings
-/

namespace Ansak.Spec

/-- The order in which `std::basic_string`'s `operator<` puts strings, for lists of numbers: `a` is a
proper beginning of `b`, or the first number in which they differ is less in `a`. (The traits class for
`char` compares bytes as unsigned numbers.) -/
def NatsBefore (a b : List Nat) : Prop :=
  (∃ t, t ≠ [] ∧ b = a ++ t) ∨
  ∃ p x y s t, a = p ++ x :: s ∧ b = p ++ y :: t ∧ x < y

/-- The order of strings. -/
def Before {w : Nat} (a b : List (BitVec w)) : Prop := NatsBefore (a.map BitVec.toNat) (b.map BitVec.toNat)

end Ansak.Spec
