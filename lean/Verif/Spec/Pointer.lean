import Verif.Spec.Bounds

/-! # Specification: a pointer to the text of a string -/

namespace Ansak.Spec

/-- The characters at `p` up to the first NUL are those of `s` up to its first NUL; anything may follow. -/
def PointsTo {w : Nat} (p : Ptr (BitVec w)) (s : List (BitVec w)) : Prop := ∃ post, p = some (textOf s ++ 0 :: post)

end Ansak.Spec
