import Verif.Model.Predicate

/-!
# Model of `EncodingCheckPredicate` objects and the statements that change them

`Verif/Model/Predicate.lean` models the values. The methods `andIf` and `andIfNot` are not `const`: they
change the object they are called on. Here objects are variables, and a program is a list of statements.
-/

namespace Ansak

/-- The variables of type `EncodingCheckPredicate` of a program. Not in /repo: the store of the C++ program
that uses the class of interface/string.hxx:111-163. -/
abbrev Objects := Nat → Pred

/-- Assignment to a variable (the implicit copy assignment of interface/string.hxx:111-163). -/
def Objects.set (σ : Objects) (x : Nat) (p : Pred) : Objects := fun y => if y = x then p else σ y

/-- source/encoding_check_predicate.cxx:90-93, 104-107: the two updates of `*this` and the copy that is
returned. -/
def Objects.narrow (σ : Objects) (this : Nat) (other : Pred) : Objects × Pred :=
  let σ := σ.set this { σ this with value := (σ this).value ||| other.value }
  let σ := σ.set this { σ this with mask := (σ this).mask ||| other.mask }
  (σ, σ this)

/-- source/encoding_check_predicate.cxx:86-94 `andIf` as a method of the variable `this`. -/
def Objects.andIf (σ : Objects) (this : Nat) (t : EncodingType) : Objects × Pred :=
  σ.narrow this (Pred.mk' t)

/-- source/encoding_check_predicate.cxx:99-108 `andIfNot` as a method of the variable `this`. -/
def Objects.andIfNot (σ : Objects) (this : Nat) (t : EncodingType) : Objects × Pred :=
  σ.narrow this (Pred.mk' t false)

end Ansak
