import Verif.Spec.Built
import Verif.Spec.History

/-!
# Specification: programs with variables of type `EncodingCheckPredicate`, run with the text of the library
-/

namespace Ansak.Spec

/-- One statement takes the variables from `σ` to `σ'`. The class declares no copy constructor and no assignment, so
that a copy has the members of the original. -/
inductive Step (v : Version) (σ : Nat → Pred) : Stmt → (Nat → Pred) → Prop
  | declare {x : Nat} {p : Pred} : Constructs v p → Step v σ (.declare x) (fun z => if z = x then p else σ z)
  | make {x : Nat} {k : Cond} {p : Pred} : Returns v k.first [.encoding k.cls.code] (.pred p) →
      Step v σ (.make x k) (fun z => if z = x then p else σ z)
  | copy {x y : Nat} : Step v σ (.copy x y) (fun z => if z = x then σ y else σ z)
  | narrow {y : Nat} {k : Cond} {result : Arg} {p : Pred} :
      RunsMember v k.further (σ y) [.encoding k.cls.code] result p →
      Step v σ (.narrow y k) (fun z => if z = y then p else σ z)
  | derive {x y : Nat} {k : Cond} {p q : Pred} : RunsMember v k.further (σ y) [.encoding k.cls.code] (.pred q) p →
      Step v σ (.derive x y k) (fun z => if z = x then q else if z = y then p else σ z)

/-- A program takes the variables, which are default-constructed at first, to `σ`. -/
inductive Ran (v : Version) : List Stmt → (Nat → Pred) → Prop
  | start {p : Pred} : Constructs v p → Ran v [] (fun _ => p)
  | step {ss : List Stmt} {σ σ' : Nat → Pred} {s : Stmt} : Ran v ss σ → Step v σ s σ' → Ran v (ss ++ [s]) σ'

end Ansak.Spec
