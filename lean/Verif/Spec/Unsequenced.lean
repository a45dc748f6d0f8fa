import Verif.Spec.Writes

/-!
# Specification: expressions that do not depend on the order of evaluation

C++ leaves open which operand of an operator, or which argument of a call, is evaluated first (apart from `&&`, `||`, `?:` and the
comma). The order makes no difference if no operand changes what another one uses. What an expression uses and changes is read off
its text, on the safe side: the memory that pointers lead to is one thing, and a member function that is called without naming
an object uses and changes all member variables.
-/

namespace Ansak.Spec

open Cpp (Expr Args Stmt Fun Item)

/-- What stands for the memory that pointers lead to. -/
def memory : Nat := 1

/-- The member variables, if the call of `f` can be that of a member function. `ms` are all member variables. -/
def ofObject (fs : List Fun) (ms : List Nat) (f : Nat) : List Nat :=
  if fs.any fun g => g.name == f && g.cls != 0 && g.cls != g.name then ms else []

mutual

/-- What an expression uses: the variables that it names, and memory. -/
def uses (fs : List Fun) (ms : List Nat) : Expr → List Nat
  | .num _ | .chr _ | .lit _ _ | .npos | .bool _ | .null | .sizeof _ => []
  | .var x | .addr x | .field x _ | .incr x | .postIncr x => [x]
  | .this => ms
  | .deref e => memory :: uses fs ms e
  | .not e | .compl e | .neg e | .cast _ e | .reinterpret _ e => uses fs ms e
  | .bin _ a b | .comma a b => uses fs ms a ++ uses fs ms b
  | .index a b => memory :: uses fs ms a ++ uses fs ms b
  | .cond c a b => uses fs ms c ++ uses fs ms a ++ uses fs ms b
  | .set x e | .setOp _ x e => x :: uses fs ms e
  | .setAt x i e => memory :: x :: uses fs ms i ++ uses fs ms e
  | .call f as => memory :: f :: ofObject fs ms f ++ argsUse fs ms as
  | .method x _ as => memory :: x :: argsUse fs ms as
  | .valueMethod e _ as => memory :: uses fs ms e ++ argsUse fs ms as
  | .make _ as => memory :: argsUse fs ms as

/-- What the computation of arguments uses. -/
def argsUse (fs : List Fun) (ms : List Nat) : Args → List Nat
  | .nil => []
  | .cons e es => uses fs ms e ++ argsUse fs ms es

end

/-- What a function of the name `f` can change among its arguments. -/
def viaArguments (fs : List Fun) (f : Nat) (as : Args) : List Nat :=
  match lent fs f 0 as with
  | [] => []
  | xs => memory :: xs

mutual

/-- What an expression changes. -/
def alters (fs : List Fun) (ms : List Nat) : Expr → List Nat
  | .num _ | .chr _ | .lit _ _ | .npos | .bool _ | .null | .var _ | .this | .addr _ | .sizeof _ | .field _ _ => []
  | .deref e | .not e | .compl e | .neg e | .cast _ e | .reinterpret _ e => alters fs ms e
  | .incr x | .postIncr x => [x]
  | .bin _ a b | .comma a b | .index a b => alters fs ms a ++ alters fs ms b
  | .cond c a b => alters fs ms c ++ alters fs ms a ++ alters fs ms b
  | .set x e | .setOp _ x e => x :: alters fs ms e
  | .setAt x i e => memory :: x :: alters fs ms i ++ alters fs ms e
  -- what is not the name of a function is an object that is called like one
  | .call f as =>
    (if fs.any (·.name == f) then ofObject fs ms f else [memory, f]) ++ viaArguments fs f as ++ argsAlter fs ms as
  | .method x f as => (if readers.contains f then [] else [memory, x]) ++ viaArguments fs f as ++ argsAlter fs ms as
  | .valueMethod e f as => alters fs ms e ++ viaArguments fs f as ++ argsAlter fs ms as
  | .make (.cls c) as => viaArguments fs c as ++ argsAlter fs ms as
  | .make _ as => argsAlter fs ms as

/-- What the computation of arguments changes. -/
def argsAlter (fs : List Fun) (ms : List Nat) : Args → List Nat
  | .nil => []
  | .cons e es => alters fs ms e ++ argsAlter fs ms es

end

/-- Nothing of the first list is, or can share its storage with, something of the second. `sh` are the names that can stand for the same
storage, or for what a pointer leads to. -/
def noneIn (sh xs ys : List Nat) : Bool :=
  (xs.all fun x => !ys.contains x) && !((xs.any (memory :: sh).contains) && (ys.any (memory :: sh).contains))

/-- Neither expression changes what the other one uses. -/
def apart (fs : List Fun) (ms sh : List Nat) (a b : Expr) : Bool :=
  noneIn sh (alters fs ms a) (uses fs ms b) && noneIn sh (alters fs ms b) (uses fs ms a)

mutual

/-- Wherever the order of evaluation in this expression is open, it makes no difference. The change that an assignment or a call makes
itself comes after the evaluation of its operands. -/
def settled (fs : List Fun) (ms sh : List Nat) : Expr → Bool
  | .num _ | .chr _ | .lit _ _ | .npos | .bool _ | .null | .var _ | .this | .addr _ | .sizeof _ | .field _ _ | .incr _
  | .postIncr _ => true
  | .deref e | .not e | .compl e | .neg e | .cast _ e | .reinterpret _ e => settled fs ms sh e
  | .bin .and a b | .bin .or a b | .comma a b => settled fs ms sh a && settled fs ms sh b
  | .bin _ a b | .index a b => settled fs ms sh a && settled fs ms sh b && apart fs ms sh a b
  | .cond c a b => settled fs ms sh c && settled fs ms sh a && settled fs ms sh b
  | .set x e | .setOp _ x e => settled fs ms sh e && noneIn sh (alters fs ms e) [x]
  | .setAt x i e =>
    settled fs ms sh i && settled fs ms sh e && apart fs ms sh i e && noneIn sh (alters fs ms i ++ alters fs ms e) [x]
  -- an object that is called like a function is used by the call itself, after the arguments; a pointer to a function is used before
  | .call f as => argsSettled fs ms sh as && noneIn [] (argsAlter fs ms as) [f]
  | .method x _ as => argsSettled fs ms sh as && noneIn sh (argsAlter fs ms as) [x]
  | .valueMethod e _ as =>
    settled fs ms sh e && argsSettled fs ms sh as &&
      noneIn sh (alters fs ms e) (argsUse fs ms as) && noneIn sh (argsAlter fs ms as) (uses fs ms e)
  | .make _ as => argsSettled fs ms sh as

/-- The same for the arguments of a call. -/
def argsSettled (fs : List Fun) (ms sh : List Nat) : Args → Bool
  | .nil => true
  | .cons e es =>
    settled fs ms sh e && argsSettled fs ms sh es &&
      noneIn sh (alters fs ms e) (argsUse fs ms es) && noneIn sh (argsAlter fs ms es) (uses fs ms e)

end

/-- The same for all expressions of a statement. -/
def stmtSettled (fs : List Fun) (ms sh : List Nat) : Stmt → Bool
  | .skip | .typedef _ _ | .brk => true
  | .seq s t => stmtSettled fs ms sh s && stmtSettled fs ms sh t
  | .expr e | .ret e | .decl _ _ e => settled fs ms sh e
  | .make _ _ as | .array _ _ as | .arrayOf _ _ _ as => argsSettled fs ms sh as
  | .block s | .forIn _ _ s => stmtSettled fs ms sh s
  | .ite c s t | .loop c s t => settled fs ms sh c && stmtSettled fs ms sh s && stmtSettled fs ms sh t
  | .doWhile c s => settled fs ms sh c && stmtSettled fs ms sh s

mutual

/-- The variables whose address is taken. -/
def addressed : Expr → List Nat
  | .num _ | .chr _ | .lit _ _ | .npos | .bool _ | .null | .var _ | .this | .sizeof _ | .field _ _ | .incr _ | .postIncr _ => []
  | .addr x => [x]
  | .deref e | .not e | .compl e | .neg e | .cast _ e | .reinterpret _ e => addressed e
  | .bin _ a b | .comma a b | .index a b => addressed a ++ addressed b
  | .cond c a b => addressed c ++ addressed a ++ addressed b
  | .set _ e | .setOp _ _ e => addressed e
  | .setAt _ i e => addressed i ++ addressed e
  | .call _ as | .method _ _ as | .make _ as => argsAddressed as
  | .valueMethod e _ as => addressed e ++ argsAddressed as

/-- The same for arguments. -/
def argsAddressed : Args → List Nat
  | .nil => []
  | .cons e es => addressed e ++ argsAddressed es

end

/-- The names that a statement makes stand for the same storage as others, and those others: references, the objects that append to a
string, and pointers to a variable. -/
def shares : Stmt → List Nat
  | .skip | .typedef _ _ | .brk => []
  | .seq s t => shares s ++ shares t
  | .expr e | .ret e => addressed e
  | .decl (.ref _) x e => x :: referred (.cons e .nil) ++ addressed e
  | .decl _ _ e => addressed e
  | .make (.adder _) x as => x :: referred as ++ argsAddressed as
  | .make _ _ as | .array _ _ as | .arrayOf _ _ _ as => argsAddressed as
  | .block s | .forIn _ _ s => shares s
  | .ite c s t | .loop c s t => addressed c ++ shares s ++ shares t
  | .doWhile c s => addressed c ++ shares s

/-- The same for all expressions of a function. Its parameters may be references to the same object. -/
def funSettled (fs : List Fun) (ms : List Nat) (f : Fun) : Bool :=
  let sh := f.params.map (·.name) ++ (f.body.map shares).getD []
  (f.inits.all fun i => settled fs ms sh i.2) && (f.params.all fun p => (p.dflt.map (settled fs ms sh)).getD true) &&
    (f.body.map (stmtSettled fs ms sh)).getD true

/-- All member variables of a program. -/
def allMembers (is : List Item) : List Nat :=
  is.flatMap fun i =>
    match i with
    | .field _ _ x => [x]
    | _ => []

/-- No expression of the functions of a program depends on the order of evaluation. -/
def OrderFree (is : List Item) : Prop :=
  ∀ f ∈ Cpp.functions is, funSettled (Cpp.functions is) (allMembers is) f = true

instance (is : List Item) : Decidable (OrderFree is) := by unfold OrderFree; infer_instance

end Ansak.Spec
