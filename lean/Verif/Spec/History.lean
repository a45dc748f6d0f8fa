import Verif.Model.PredicateObjects
import Verif.Spec.Predicate

/-!
# Specification: programs that make, copy and narrow predicates, and what each variable should mean
-/

namespace Ansak

open Spec (Class Cond)

/-- A statement of a C++ program with variables of type `EncodingCheckPredicate`. A longer chain such as
`x = y.andIf(A).andIfNot(B)` is `derive tmp y A; derive x tmp B` with a temporary. -/
inductive Stmt
  /-- `EncodingCheckPredicate x;` -/
  | declare (x : Nat)
  /-- `x = validIf(X);` or `x = validIfNot(X);` -/
  | make (x : Nat) (k : Cond)
  /-- `x = y;` -/
  | copy (x y : Nat)
  /-- `y.andIf(X);` or `y.andIfNot(X);` -/
  | narrow (y : Nat) (k : Cond)
  /-- `x = y.andIf(X);` or `x = y.andIfNot(X);` -/
  | derive (x y : Nat) (k : Cond)

/-- The call of the method that `k` stands for. -/
def Objects.call (σ : Objects) (y : Nat) (k : Cond) : Objects × Pred :=
  if k.want then σ.andIf y k.cls.code else σ.andIfNot y k.cls.code

/-- One statement, executed by the model of the library. -/
def Stmt.exec (σ : Objects) : Stmt → Objects
  | .declare x => σ.set x Pred.none
  | .make x k => σ.set x (if k.want then Pred.validIf k.cls.code else Pred.validIfNot k.cls.code)
  | .copy x y => σ.set x (σ y)
  | .narrow y k => (σ.call y k).1
  | .derive x y k => (σ.call y k).1.set x (σ.call y k).2

/-- A program, from the beginning, where all variables are default-constructed. -/
def execAll (ss : List Stmt) : Objects := ss.foldl Stmt.exec fun _ => Pred.none

/-- The variables a statement changes. -/
def Stmt.Writes : Stmt → Nat → Prop
  | .declare x, z => z = x
  | .make x _, z => z = x
  | .copy x _, z => z = x
  | .narrow y _, z => z = y
  | .derive x y _, z => z = x ∨ z = y

namespace Spec

/-- The conditions each variable should stand for after a statement. -/
def conditions (h : Nat → List Cond) : Stmt → Nat → List Cond
  | .declare x => fun z => if z = x then [] else h z
  | .make x k => fun z => if z = x then [k] else h z
  | .copy x y => fun z => if z = x then h y else h z
  | .narrow y k => fun z => if z = y then h y ++ [k] else h z
  | .derive x y k => fun z => if z = x ∨ z = y then h y ++ [k] else h z

/-- The conditions each variable should stand for after a program. -/
def conditionsOf (ss : List Stmt) : Nat → List Cond := ss.foldl conditions fun _ => []

end Spec

end Ansak
