import Verif.Model.Base
import Verif.Spec.Utf8

/-!
# Specification: staying within a NUL-terminated buffer

Stated in terms of the outcomes and pointers of `Verif.Model.Base`.
-/

namespace Ansak.Spec

/-- `f` reads the text of a NUL-terminated buffer and its NUL and nothing else: it has a result on
the buffer that ends with the NUL, and the same result whatever memory follows. (A read outside the
buffer would be `Res.ub`; that `f` terminates is part of its being a Lean function.) -/
def StaysInBounds {w : Nat} {β : Type} (f : Ptr (BitVec w) → Res β) : Prop :=
  ∀ s : List (BitVec w), NulFree s →
    ∃ r, f (some (s ++ [0])) = .ok r ∧ ∀ post, f (some (s ++ 0 :: post)) = .ok r

/-- `f` only depends on what is before the first NUL of a `basic_string`. -/
def OnlyText {w : Nat} {β : Type} (f : List (BitVec w) → Res β) : Prop :=
  ∀ s, f s = f (textOf s)

end Ansak.Spec
