import Verif.Spec.Early

/-!
# Specification: calls that need little of the stack

How many calls of functions are inside each other, and how many rounds a loop has, are limited separately here. Eight calls inside
each other, the first one included, are to be enough whatever the length of the arguments: no function calls itself for the rest
of a text. A loop is to have no more rounds than the arguments have characters, and a few more.
-/

namespace Ansak.Spec

/-- As `Cpp.callText`; at most `d` calls can be inside each other, and a loop can have at most `n` rounds. -/
def callWithin (X : Cpp.Externals) (sc : Bool) (wide : Cpp.Ty) (pieces : List Cxx.Text) (n d cls name : Nat) (vs : List Cpp.Val) :
    Cpp.Out :=
  match Cpp.parseAll pieces with
  | some is =>
    match Cpp.program X sc wide is with
    | some P => P.call X sc n d cls name vs .done
    | none => .stuck
  | none => .stuck

/-- The outcome of a call is this one, and eight calls inside each other are enough. As `RunsOn`. -/
def ShallowOn (w : Bool) (v : Version) (name : Nat) (args : List Arg) (out : Res Arg) : Prop :=
  ∀ sc n d, enough args ≤ n → 8 ≤ d →
    Yields sc (callWithin (Cpp.link v sc) sc (Cpp.wideType w) (Cpp.Source.pieces w) n d (nat_lit 0) name
      (args.map (Arg.val sc))) out

/-- As `Runs`. -/
def Shallow (v : Version) (name : Nat) (args : List Arg) (out : Res Arg) : Prop := ∀ w, ShallowOn w v name args out

/-- As `Changes`. -/
def ShallowChanges (v : Version) (name : Nat) (victim : Arg) (args : List Arg) (out : Res Arg) : Prop :=
  ∀ w sc n d, enough (victim :: args) ≤ n → 8 ≤ d →
    callWithin (Cpp.link v sc) sc (Cpp.wideType w) (Cpp.Source.pieces w) n d (nat_lit 0) name
      ((victim :: args).map (Arg.val sc)) =
    match out with
    | .ok a => .done .void (some (a.val sc) :: args.map fun _ => none)
    | .ub => .ub

/-- As `RunsMember`. -/
def ShallowMember (v : Version) (name : Nat) (self : Pred) (args : List Arg) (result : Arg) (self' : Pred) : Prop :=
  ∀ w sc n d, enough args ≤ n → 8 ≤ d →
    callWithin (Cpp.link v sc) sc (Cpp.wideType w) (Cpp.Source.pieces w) n d (name% "EncodingCheckPredicate") name
        ((Arg.pred self).val sc :: args.map (Arg.val sc)) =
      .done (result.val sc) (some ((Arg.pred self').val sc) :: args.map fun _ => none)

/-- As `Constructs`. -/
def ShallowConstructs (v : Version) (p : Pred) : Prop :=
  ∀ w sc n d, 8 ≤ n → 8 ≤ d →
    callWithin (Cpp.link v sc) sc (Cpp.wideType w) (Cpp.Source.pieces w) n d (name% "EncodingCheckPredicate")
      (name% "EncodingCheckPredicate") [] = .done ((Arg.pred p).val sc) []

/-- As `RunsOnItself`. -/
def ShallowOnItself (v : Version) (name : Nat) (self : Pred) (result : Arg) : Prop :=
  ∀ w sc n d, 8 ≤ n → 8 ≤ d →
    callWithin (Cpp.link v sc) sc (Cpp.wideType w) (Cpp.Source.pieces w) n d (name% "EncodingCheckPredicate") name
        [(Arg.pred self).val sc, .self] =
      .done (result.val sc) [some ((Arg.pred self).val sc), none]

end Ansak.Spec
