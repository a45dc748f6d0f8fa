import Verif.Spec.Library
import Verif.Spec.Predicate
import Verif.Spec.Unicode

/-!
# Specification: predicates that a program has built by calling the library
-/

namespace Ansak.Spec

/-- The code point is in the class, by the data of the Unicode Consortium for the version. -/
def InClass (v : Version) : Class → Nat → Prop
  | .assigned => Assigned v
  | .privateUse => PrivateUse
  | .control => Control
  | .whiteSpace => WhiteSpace

/-- The condition is true of the code point. -/
def Cond.TrueOf (v : Version) (k : Cond) (c : Nat) : Prop := InClass v k.cls c ↔ k.want = true

/-- `validIf` or `validIfNot`. -/
def Cond.first (k : Cond) : Nat := if k.want then name% "validIf" else name% "validIfNot"

/-- `andIf` or `andIfNot`. -/
def Cond.further (k : Cond) : Nat := if k.want then name% "andIf" else name% "andIfNot"

/-- `EncodingCheckPredicate()`, run from the text of the library, makes the object `p`. -/
def Constructs (v : Version) (p : Pred) : Prop :=
  ∀ w sc n, 8 ≤ n →
    Cpp.callText (Cpp.link v sc) sc (Cpp.wideType w) (Cpp.Source.pieces w) n (name% "EncodingCheckPredicate")
      (name% "EncodingCheckPredicate") [] = .done ((Arg.pred p).val sc) []

/-- `EncodingCheckPredicate()` or `validIf(X)`, then `.andIfNot(Y).andIf(Z)…`, run from the text of the library, makes
the object `p`. -/
inductive Built (v : Version) : List Cond → Pred → Prop
  | fresh {p : Pred} : Constructs v p → Built v [] p
  | first {k : Cond} {p : Pred} : Returns v k.first [.encoding k.cls.code] (.pred p) → Built v [k] p
  | further {ks : List Cond} {p : Pred} {k : Cond} {result : Arg} {p' : Pred} : Built v ks p →
      RunsMember v k.further p [.encoding k.cls.code] result p' → Built v (ks ++ [k]) p'

end Ansak.Spec
