import Verif.Model.Tool.Source
import Verif.Model.Tool.Ast
import Verif.Lemmas.Cpp.Seal

namespace Ansak.Tool

theorem parse_source : parse source = some [Ast.process, Ast.main] := by kernel_rfl

end Ansak.Tool
