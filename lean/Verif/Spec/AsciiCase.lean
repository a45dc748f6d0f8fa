import Verif.Spec.Utf8

/-!
# Specification: the case of ASCII letters
-/

namespace Ansak.Spec

/-- The lower case of a unit of ASCII text: A to Z become a to z, all others stay. -/
def asciiLower {w : Nat} (c : BitVec w) : BitVec w :=
  if 0x41 ≤ c.toNat ∧ c.toNat ≤ 0x5A then BitVec.ofNat w (c.toNat + 0x20) else c

end Ansak.Spec
