import Verif.Model.Tool.Link

/-!
# Runs of the tool as it is written

The text of mkUnicodeTestData/mkUnicodeTestData.cxx is run by the definitions of `Verif.Model.Tool`, and its calls of `split` by
those of `Verif.Model.Cpp` on the text of the library. The arguments include the name of the program. What holds for a run holds
whether `char` is signed or not, and whether `wchar_t` has 32 bits or 16.

The functions of the semantics are total because the number of rounds of a loop, and of calls inside each other, is limited. A run
that ends does so with every limit that is high enough (`Ansak.Props.C63_text_limit`).
-/

namespace Ansak.Spec

/-- A run ends and leaves this. -/
def Leaves (v : Version) (args : List (List Byte)) (d : Tool.Disk) (l : Tool.Left) : Prop :=
  ∀ w sc, ∃ n, Tool.runTool w v sc n args d = .done l

/-- A run leads to undefined behaviour. -/
def Undefined (v : Version) (args : List (List Byte)) (d : Tool.Disk) : Prop :=
  ∀ w sc, ∃ n, Tool.runTool w v sc n args d = .ub

/-- No run ends: a run goes on beyond every limit, or until it leads to undefined behaviour. -/
def NeverEnds (v : Version) (args : List (List Byte)) (d : Tool.Disk) : Prop :=
  ∀ w sc, ∃ m, ∀ n, m ≤ n → Tool.runTool w v sc n args d = .timeout ∨ Tool.runTool w v sc n args d = .ub

/-- The place that a run writes to. -/
def WritesTo (args : List (List Byte)) (d : Tool.Disk) (p : Nat) : Prop :=
  ∃ prog a b, args = [prog, a, b] ∧ p = d.place b ∧ (d.content (d.place a)).isSome = true ∧ d.writable p = true

/-- The disk with these limits. -/
def limited (d : Tool.Disk) (room : Nat → Option Nat) : Tool.Disk := { d with room := room }

end Ansak.Spec
