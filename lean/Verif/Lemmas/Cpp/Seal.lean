import Verif.Model.Cpp.Sem
import Lean.Elab.Tactic
import Verif.Lemmas.Cpp.Attr

/-!
# The functions of the semantics as unknown functions

In a long proof the kernel must not unfold the functions of the semantics by itself: it would begin to execute the
program in the wrong places. So the executions are followed with unknown functions `E.exec`, `E.eval` and so on, that
are equal to those of the semantics.
-/

namespace Ansak.Cpp

/-- Functions that are equal to those of the semantics. -/
structure Sealed where
  convertTo : Bool → Ty → Ty → Int → (Int → Out) → Out
  convertTo_eq : convertTo = Cpp.convertTo
  arith : Ty → Int → (Val → Out) → Out
  arith_eq : arith = Cpp.arith
  complement : Bool → Ty → Int → (Val → Out) → Out
  complement_eq : complement = Cpp.complement
  binaryInt : Bool → BinOp → Ty → Int → Ty → Int → (Val → Out) → Out
  binaryInt_eq : binaryInt = Cpp.binaryInt
  moved : Int → Int → (Int → Out) → Out
  moved_eq : moved = Cpp.moved
  movedBack : Int → Int → (Int → Out) → Out
  movedBack_eq : movedBack = Cpp.movedBack
  truth : Val → (Bool → Out) → Out
  truth_eq : truth = Cpp.truth
  read : List Int → Int → (Int → Out) → Out
  read_eq : read = Cpp.read
  readString : List Int → Int → (List Int → Out) → Out
  readString_eq : readString = Cpp.readString
  branch : Bool → Out → Out → Out
  branch_eq : branch = Cpp.branch
  binary : Bool → BinOp → Val → Val → (Val → Out) → Out
  binary_eq : binary = Cpp.binary
  coerce : Bool → Ty → TyExpr → Val → (Val → Out) → Out
  coerce_eq : coerce = Cpp.coerce
  assignable : Bool → Val → Val → (Val → Out) → Out
  assignable_eq : assignable = Cpp.assignable
  method : Ctx → Nat → Nat → List Nat → List Val → Env → (Val → Env → Out) → Out
  method_eq : method = Ctx.method
  apply : Ctx → Nat → List Nat → List Val → Env → (Val → Env → Out) → Out
  apply_eq : apply = Ctx.apply
  make : Ctx → TyExpr → List Val → (Val → Out) → Out
  make_eq : make = Ctx.make
  eval : Ctx → Expr → Env → (Val → Env → Out) → Out
  eval_eq : eval = Expr.eval
  args : Ctx → Args → Env → (List Val → Env → Out) → Out
  args_eq : args = Args.eval
  rounds : (Env → (Bool → Env → Out) → Out) → (Env → (End → Out) → Out) → (Env → (End → Out) → Out) →
    Nat → Env → (End → Out) → Out
  rounds_eq : rounds = Cpp.rounds
  each : Ty → Nat → (Env → (End → Out) → Out) → List Int → Env → (End → Out) → Out
  each_eq : each = Cpp.each
  eachVal : Nat → (Env → (End → Out) → Out) → List Val → Env → (End → Out) → Out
  eachVal_eq : eachVal = Cpp.eachVal
  exec : Ctx → TyExpr → Stmt → Env → (End → Out) → Out
  exec_eq : exec = Stmt.exec
  bind : Ctx → List Param → List Val → (Env → Out) → Out
  bind_eq : bind = Cpp.bind
  initialise : Ctx → List (Nat × Expr) → Env → (Env → Out) → Out
  initialise_eq : initialise = Cpp.initialise
  run : Program → Ctx → Fun → Stmt → List Val → (Val → List (Option Val) → Out) → Out
  run_eq : run = Fun.run
  call : Program → Externals → Bool → Nat → Nat → Call
  call_eq : call = Program.call

/-- The functions of the semantics themselves. -/
def Sealed.real : Sealed :=
  ⟨_, rfl, _, rfl, _, rfl, _, rfl, _, rfl, _, rfl, _, rfl, _, rfl, _, rfl, _, rfl, _, rfl, _, rfl, _, rfl, _, rfl,
   _, rfl, _, rfl, _, rfl, _, rfl, _, rfl, _, rfl, _, rfl, _, rfl, _, rfl, _, rfl, _, rfl, _, rfl⟩

/-- What the body of a function depends on, if it is called with at most `d` calls inside each other. -/
def Sealed.ctx (E : Sealed) (P : Program) (X : Externals) (sc : Bool) (r d : Nat) (T : Ty) : Ctx :=
  ⟨sc, r, P.globals, E.call P X sc r d, P.member, T, P.wide⟩

end Ansak.Cpp

namespace Ansak.Follow

open Lean Meta Elab Tactic Command

/-- The variable that says in a term which variant of the library the program is. -/
def variant? (e : Expr) : Option Expr :=
  match e.find? fun e => e.isAppOfArity `Ansak.Cpp.Ast.program 2 && e.appFn!.appArg!.isFVar with
  | some e => e.appFn!.appArg!
  | none => none

/-- A proof of `a = b` by reflexivity; only the kernel checks it. -/
def kernelRfl (t : Expr) : MetaM Expr := do
  let some (_, a, _) := t.consumeMData.eq? | throwError "not an equation"
  match variant? t with
  | none => mkEqRefl a
  | some x =>
    let proof (b : Name) : MetaM Expr := mkEqRefl (a.replaceFVar x (mkConst b))
    return mkApp4 (.const ``Bool.rec [.zero]) (← mkLambdaFVars #[x] t) (← proof ``Bool.false) (← proof ``Bool.true) x

/-- Close a goal `a = b` by reflexivity; only the kernel checks it. -/
elab "kernel_rfl" : tactic => do
  let g ← getMainGoal
  g.withContext do
    g.assign (← kernelRfl (← instantiateMVars (← g.getType)))

/-- The functions of the semantics and the unknown functions. -/
def sealedFuns : List (Name × Name) :=
  [(``Cpp.convertTo, ``Cpp.Sealed.convertTo), (``Cpp.arith, ``Cpp.Sealed.arith),
   (``Cpp.complement, ``Cpp.Sealed.complement), (``Cpp.binaryInt, ``Cpp.Sealed.binaryInt),
   (``Cpp.moved, ``Cpp.Sealed.moved), (``Cpp.movedBack, ``Cpp.Sealed.movedBack), (``Cpp.truth, ``Cpp.Sealed.truth),
   (``Cpp.read, ``Cpp.Sealed.read), (``Cpp.readString, ``Cpp.Sealed.readString), (``Cpp.branch, ``Cpp.Sealed.branch), (``Cpp.binary, ``Cpp.Sealed.binary),
   (``Cpp.coerce, ``Cpp.Sealed.coerce), (``Cpp.assignable, ``Cpp.Sealed.assignable),
   (``Cpp.Ctx.method, ``Cpp.Sealed.method), (``Cpp.Ctx.apply, ``Cpp.Sealed.apply),
   (``Cpp.Ctx.make, ``Cpp.Sealed.make), (``Cpp.Expr.eval, ``Cpp.Sealed.eval), (``Cpp.Args.eval, ``Cpp.Sealed.args),
   (``Cpp.rounds, ``Cpp.Sealed.rounds), (``Cpp.each, ``Cpp.Sealed.each),
   (``Cpp.eachVal, ``Cpp.Sealed.eachVal), (``Cpp.Stmt.exec, ``Cpp.Sealed.exec),
   (``Cpp.bind, ``Cpp.Sealed.bind), (``Cpp.initialise, ``Cpp.Sealed.initialise), (``Cpp.Fun.run, ``Cpp.Sealed.run),
   (``Cpp.Program.call, ``Cpp.Sealed.call)]

/-- A theorem about the functions of the semantics as one about unknown functions. -/
def sealTheorem (thm new : Name) : MetaM Unit := do
  let info ← getConstInfo thm
  withLocalDeclD `E (mkConst ``Cpp.Sealed) fun E => do
    let mut type := info.type
    let mut proof := mkConst thm
    for (c, f) in sealedFuns do
      if type.find? (·.isConstOf c) |>.isSome then
        let old := type
        let (p, q) ← withLocalDeclD `x (← inferType (mkConst c)) fun x => do
          let body := old.replace fun e => if e.isConstOf c then some x else none
          return (← mkLambdaFVars #[x] body, body.replaceFVar x (mkApp (mkConst f) E))
        let h ← mkEqSymm (mkApp (mkConst (f.appendAfter "_eq")) E)
        proof ← mkAppOptM ``Eq.mp #[none, none, ← mkCongrArg p h, proof]
        type := q
    addDecl (.thmDecl {
      name := new, levelParams := [], type := ← mkForallFVars #[E] type
      value := ← instantiateMVars (← mkLambdaFVars #[E] proof) })

/-- The equation that defines a function, for unknown functions. -/
elab "seal_defs" : command => liftTermElabM do
  for (c, f) in sealedFuns do
    unless [``Cpp.Program.call, ``Cpp.rounds, ``Cpp.each, ``Cpp.eachVal].contains c do
      let some eqn ← getUnfoldEqnFor? c (nonRec := true) | throwError "no equation for {c}"
      sealTheorem eqn (f.appendAfter "_def")

/-- Rules for unknown functions: for all that are marked with `cpp_rule`. -/
elab "seal_rules" : command => liftTermElabM do
  let done ← labelled `cpp_sealed
  for c in ← labelled `cpp_rule do
    let new := c ++ `sealed
    unless done.contains new do
      sealTheorem c new
      Attribute.add new `cpp_sealed (← `(attr| cpp_sealed))

seal_defs

end Ansak.Follow
