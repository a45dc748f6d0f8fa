import Verif.Spec.Unsequenced
import Verif.Lemmas.Cpp.Windows

/-! # The order of evaluation in the text of the library -/

namespace Ansak.Cpp

open Spec (OrderFree)

theorem order_pieces (w : Bool) : OrderFree (Ast.allItems w) := by cases w <;> decide +kernel

theorem order_onWindows (t : Source.Tchar) : OrderFree (Ast.allItems false ++ Ast.windowsItems t) := by
  cases t <;> decide +kernel

end Ansak.Cpp
