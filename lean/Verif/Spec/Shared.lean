import Verif.Spec.Library

/-!
# Specification: a call with the same object for both arguments

`Cpp.callText` gives every parameter a value of its own, and copies back what was passed by reference. In a call such as
`trim(s, s)` both parameters stand for the same object: what the function does to one of them happens to the other at once.
-/

namespace Ansak.Spec

open Cpp (Program Externals Val Out Ty Param Fun Item TyExpr)

/-- Call a function with two parameters, where the first is a reference through which the object can change and the second is
another name of that object. The function is the one that is chosen for two arguments of the type of `v`. -/
def sharedCall (P : Program) (X : Externals) (sc : Bool) (n name : Nat) (v : Val) : Out :=
  match Cpp.resolve P.funs (nat_lit 0) name [v, v] with
  | some f =>
    match f.params, f.body with
    | [p, q], some body =>
      Cpp.coerce sc (Cpp.deduce f.params [v, v]) p.ty v fun v =>
        body.exec ⟨sc, n, P.globals, P.call X sc n (n - 1), P.member, Cpp.deduce f.params [v, v], P.wide⟩ f.ret
          [(p.name, v), (q.name, .alias p.name)] fun e =>
            Cpp.finishCall f.ret [(p.name, v), (q.name, .alias p.name)]
              (fun r ρ => Cpp.refs ρ [p] fun vs => .done r vs) e
    | _, _ => .stuck
  | none => .stuck

/-- The same for a program that is given as text. -/
def sharedText (X : Externals) (sc : Bool) (wide : Ty) (pieces : List Cxx.Text) (n name : Nat) (v : Val) : Out :=
  match Cpp.parseAll pieces with
  | some is =>
    match Cpp.program X sc wide is with
    | some P => sharedCall P X sc n name v
    | none => .stuck
  | none => .stuck

/-- A call of a function of the library with one object for both arguments changes it from `victim` to `out`. -/
def ChangesShared (v : Version) (name : Nat) (victim out : Arg) : Prop :=
  ∀ w sc n, enough [victim, victim] ≤ n →
    sharedText (Cpp.link v sc) sc (Cpp.wideType w) (Cpp.Source.pieces w) n name (victim.val sc) =
      .done .void [some (out.val sc)]

/-- A parameter that can only be a number, which is passed by value. -/
def isNumber : TyExpr → Bool
  | .prim _ => true
  | .param => true
  | _ => false

/-- Can two parameters of the function stand for the same object, so that what is done to one of them changes the other? One of
them must be a reference through which an object can change, and another one must not be a number. -/
def CanShare (f : Fun) : Bool :=
  f.params.any fun p => p.ty.back && f.params.any fun q => q.name != p.name && !isNumber q.ty

end Ansak.Spec
