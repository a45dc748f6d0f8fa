import Verif.Spec.Writes

/-!
# Specification: results that stand on their own

A result stands on its own if it holds no pointer and no reference. Then nothing that happens to the arguments afterwards, or in
later calls, can change it. The syntax trees do not distinguish `const t&` from `t`, so this is also stated for the tokens.
-/

namespace Ansak.Spec

open Cpp (Item TyExpr Tok)

/-- Is this a class of the program that has only numbers as member variables? -/
def onlyNumbers (is : List Item) (c : Nat) : Bool :=
  (is.any fun | .field d _ _ => d == c | _ => false) &&
  is.all fun | .field _ (.prim _) _ => true | .field d _ _ => d != c | _ => true

/-- A type whose values hold no pointers and references: numbers, strings, vectors and lists of such values, and classes with such
member variables. -/
def HoldsNoPointer (is : List Item) : TyExpr → Prop
  | .prim _ | .void | .param => True
  | .str t | .vec t | .list t => HoldsNoPointer is t
  | .cls c => onlyNumbers is c = true
  | .auto | .named _ | .adder _ | .ptr _ | .ref _ => False

/-- Every function returns a value of such a type. -/
def ResultsHoldNoPointer (is : List Item) : Prop := ∀ f ∈ Cpp.functions is, HoldsNoPointer is f.ret

/-- What stands between the type and the name if a pointer or a reference is returned. -/
def marks : List Nat := [name% "&", name% "&&", name% "*"]

/-- Functions of `source/string.cxx` that others do not see, and that are called on the right of `&&` or `&`. -/
def calledOnTheRight : List Nat :=
  [name% "isSecondHalfUtf16AsUtf8", name% "isFirstHalfUtf16AsUtf8", name% "isSecondHalfUtf16", name% "getCharEncodableRangeFlags"]

/-- In these tokens no function is declared that returns a pointer or a reference: there is no `& f (` and no `& operator`. -/
def NoReferenceReturned (ts : List Tok) : Prop :=
  ∀ i < ts.length, ∀ m ∈ marks, ts[i]? = some (.sym m) → ∀ n, ts[i + 1]? = some (.id n) →
    n ≠ name% "operator" ∧ (ts[i + 2]? = some (.sym (name% "(")) → n ∈ calledOnTheRight)

def decideHolds (is : List Item) : (t : TyExpr) → Decidable (HoldsNoPointer is t)
  | .prim _ | .void | .param => .isTrue trivial
  | .str t | .vec t | .list t => decideHolds is t
  | .cls c => inferInstanceAs (Decidable (onlyNumbers is c = true))
  | .auto | .named _ | .adder _ | .ptr _ | .ref _ => .isFalse id

instance (is : List Item) (t : TyExpr) : Decidable (HoldsNoPointer is t) := decideHolds is t

instance (is : List Item) : Decidable (ResultsHoldNoPointer is) := by unfold ResultsHoldNoPointer; infer_instance

end Ansak.Spec
