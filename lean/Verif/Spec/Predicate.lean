import Verif.Spec.Utf8

/-!
# Specification: character classes and conditions on them (interface/string.hxx:86-102, 170-190)
-/

namespace Ansak.Spec

/-- The four character classes a predicate can ask for. -/
inductive Class | assigned | privateUse | control | whiteSpace
  deriving Repr, DecidableEq

/-- The numerical value of the enumerator of `EncodingType`, interface/string.hxx:94-102. -/
def Class.code : Class → Int
  | .assigned => 1 | .privateUse => 2 | .control => 3 | .whiteSpace => 4

/-- One condition: the character is (`true`) or is not (`false`) in the class. -/
structure Cond where
  cls : Class
  want : Bool
  deriving Repr, DecidableEq

/-- The condition holds for a character that is in exactly the classes `c`. -/
def Cond.Holds (k : Cond) (c : Class → Bool) : Prop := c k.cls = k.want

instance (k : Cond) (c : Class → Bool) : Decidable (k.Holds c) := by
  unfold Cond.Holds; infer_instance

/-- No class is both asked for and asked not to be. -/
def Consistent (ks : List Cond) : Prop := ∀ k ∈ ks, ∀ k' ∈ ks, k.cls = k'.cls → k.want = k'.want

instance (ks : List Cond) : Decidable (Consistent ks) := by unfold Consistent; infer_instance

end Ansak.Spec
