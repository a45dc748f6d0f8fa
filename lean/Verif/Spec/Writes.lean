import Verif.Model.Cpp.Sem

/-!
# Specification: the variables that the text of a function changes

In the part of C++ that the library uses, a variable is changed by naming it: there is no assignment through a pointer. So what a
function changes can be read off its text.
-/

namespace Ansak.Spec

open Cpp (Expr Args Stmt Fun Item Param TyExpr)

/-- The methods of strings and lists that change nothing. -/
def readers : List Nat :=
  [name% "c_str", name% "empty", name% "size", name% "find", name% "find_first_of", name% "substr", name% "begin", name% "end"]

/-- Does one of the functions of this name take its argument number `i` by a reference through which it can be changed? -/
def byReference (fs : List Fun) (name i : Nat) : Bool :=
  fs.any fun f => f.name == name &&
    match f.params[i]? with
    | some p => p.ty.back
    | none => false

/-- The variables among the arguments, from number `i` on, that a function of this name can change. -/
def lent (fs : List Fun) (name : Nat) : Nat → Args → List Nat
  | _, .nil => []
  | i, .cons (.var x) es => if byReference fs name i then x :: lent fs name (i + 1) es else lent fs name (i + 1) es
  | i, .cons _ es => lent fs name (i + 1) es

mutual

/-- The variables that an expression changes. `fs` are the functions of the program. -/
def exprWrites (fs : List Fun) : Expr → List Nat
  | .num _ | .chr _ | .lit _ _ | .npos | .bool _ | .null | .var _ | .this | .addr _ | .sizeof _ | .field _ _ => []
  | .deref e | .not e | .compl e | .neg e | .cast _ e | .reinterpret _ e => exprWrites fs e
  | .incr x | .postIncr x => [x]
  | .bin _ a b | .comma a b | .index a b => exprWrites fs a ++ exprWrites fs b
  | .cond c a b => exprWrites fs c ++ exprWrites fs a ++ exprWrites fs b
  | .set x e | .setOp _ x e => x :: exprWrites fs e
  | .setAt x i e => x :: exprWrites fs i ++ exprWrites fs e
  -- what is not the name of a function is an object that is called like one, and may change
  | .call f as => (if fs.any (·.name == f) then [] else [f]) ++ lent fs f 0 as ++ argsWrite fs as
  | .method x f as => (if readers.contains f then [] else [x]) ++ lent fs f 0 as ++ argsWrite fs as
  | .valueMethod e f as => exprWrites fs e ++ lent fs f 0 as ++ argsWrite fs as
  | .make (.cls c) as => lent fs c 0 as ++ argsWrite fs as
  | .make _ as => argsWrite fs as

/-- The variables that the computation of arguments changes. -/
def argsWrite (fs : List Fun) : Args → List Nat
  | .nil => []
  | .cons e es => exprWrites fs e ++ argsWrite fs es

end

/-- The variables to which a reference is made. -/
def referred : Args → List Nat
  | .cons (.var x) .nil => [x]
  | _ => []

/-- The variables that a statement changes, or to which it makes references. -/
def stmtWrites (fs : List Fun) : Stmt → List Nat
  | .skip | .typedef _ _ | .brk => []
  | .seq s t => stmtWrites fs s ++ stmtWrites fs t
  | .expr e | .ret e => exprWrites fs e
  | .decl (.ref _) _ e => referred (.cons e .nil) ++ exprWrites fs e
  | .decl _ _ e => exprWrites fs e
  | .make (.adder _) _ as => referred as ++ argsWrite fs as
  | .make (.cls c) _ as => lent fs c 0 as ++ argsWrite fs as
  | .make _ _ as | .array _ _ as | .arrayOf _ _ _ as => argsWrite fs as
  | .block s => stmtWrites fs s
  | .ite c s t => exprWrites fs c ++ stmtWrites fs s ++ stmtWrites fs t
  | .loop c s t => exprWrites fs c ++ stmtWrites fs s ++ stmtWrites fs t
  | .doWhile c s => exprWrites fs c ++ stmtWrites fs s
  | .forIn _ _ s => stmtWrites fs s

/-- The variables that a statement declares, and the names of types that it defines (`t(x)` looks like the call of an object
`t`). -/
def declares : Stmt → List Nat
  | .seq s t | .ite _ s t | .loop _ s t => declares s ++ declares t
  | .decl _ x _ | .make _ x _ | .array _ x _ | .arrayOf _ x _ _ | .typedef _ x => [x]
  | .block s | .doWhile _ s => declares s
  | .forIn x _ s => x :: declares s
  | _ => []

/-- The variables that a function changes. -/
def funWrites (fs : List Fun) (f : Fun) : List Nat :=
  f.inits.flatMap (fun i => i.1 :: exprWrites fs i.2) ++
    f.params.flatMap (fun p => (p.dflt.map (exprWrites fs)).getD []) ++ (f.body.map (stmtWrites fs)).getD []

/-- The member variables of a class. -/
def membersOf (is : List Item) (cls : Nat) : List Nat :=
  is.flatMap fun i =>
    match i with
    | .field c _ x => if c = cls then [x] else []
    | _ => []

/-- The variables of a function itself: its parameters, its local variables, and the member variables of its object. -/
def ownVariables (is : List Item) (f : Fun) : List Nat :=
  f.params.map (·.name) ++ (f.body.map declares).getD [] ++ (if f.cls = 0 then [] else membersOf is f.cls)

/-- The variables and constants outside of functions. -/
def globalNames (is : List Item) : List Nat :=
  is.flatMap fun i =>
    match i with
    | .enum _ cs => cs.map (·.1)
    | .array _ x _ _ => [x]
    | .extern _ x => [x]
    | _ => []

/-- No function of a program changes anything but its own variables. -/
def ChangesOwnOnly (is : List Item) : Prop :=
  ∀ f ∈ Cpp.functions is, ∀ x ∈ funWrites (Cpp.functions is) f, x ∈ ownVariables is f ∧ x ∉ globalNames is

/-- In these tokens, everything that is `static` is an array of constants or a function: a local variable that keeps its value from one call
to the next cannot be changed. What is declared with `(`, two words, `)` and `{` is a function with one parameter and a body. -/
def StaticIsConstant (ts : List Cpp.Tok) : Prop :=
  ∀ i < ts.length, ts[i]? = some (.id (name% "static")) →
    (ts[i + 1]? = some (.id (name% "const")) ∧ ts[i + 4]? = some (.sym (name% "["))) ∨
    (ts[i + 3]? = some (.sym (name% "(")) ∧ ts[i + 6]? = some (.sym (name% ")")) ∧ ts[i + 7]? = some (.sym (name% "{")))

instance (is : List Item) : Decidable (ChangesOwnOnly is) := by unfold ChangesOwnOnly; infer_instance

end Ansak.Spec
