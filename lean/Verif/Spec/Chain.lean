import Verif.Model.Predicate
import Verif.Spec.Predicate

/-!
# Specification: chains of conditions as a user of the library writes them
-/

namespace Ansak

open Spec (Class Cond)

/-- `validIf(X)` or `validIfNot(X)`. -/
def start (k : Cond) : Pred := if k.want then Pred.validIf k.cls.code else Pred.validIfNot k.cls.code

/-- `.andIf(X)` or `.andIfNot(X)`. -/
def also (p : Pred) (k : Cond) : Pred :=
  if k.want then p.andIf k.cls.code else p.andIfNot k.cls.code

/-- The whole chain, as it is written in C++. -/
def chain (k : Cond) (ks : List Cond) : Pred := ks.foldl also (start k)

/-- The classes of a `char32_t`, `char16_t` and `char`. -/
def classes32 (U : CharClass) (v : Nat) : Class → Bool
  | .assigned => U.assigned32 v
  | .privateUse => U.private32 v
  | .control => U.control32 v
  | .whiteSpace => U.white32 v

/-- The classes of a `char16_t`. -/
def classes16 (U : CharClass) (v : Nat) : Class → Bool
  | .assigned => U.assigned16 v
  | .privateUse => U.private16 v
  | .control => U.control16 v
  | .whiteSpace => U.white16 v

/-- The classes of a `char`: always assigned, never private. -/
def classes8 (U : CharClass) (v : Nat) : Class → Bool
  | .assigned => true
  | .privateUse => false
  | .control => U.control8 v
  | .whiteSpace => U.white8 v

end Ansak
