/-!
# Tables of code points

How the tables of `Verif.Spec.UnicodeData` are read.
-/

namespace Ansak.Spec

/-- `x` lies in one of the ranges (both ends included). -/
def InRanges (rs : List (Nat × Nat)) (x : Nat) : Prop := ∃ r ∈ rs, r.1 ≤ x ∧ x ≤ r.2

/-- The image of `x` in a list of mappings; `x` itself if the list has none for it. -/
def mapOf : List (Nat × Nat) → Nat → Nat
  | [], x => x
  | p :: ps, x => if x = p.1 then p.2 else mapOf ps x

end Ansak.Spec
