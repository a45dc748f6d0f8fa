import Verif.Model.Tool.Source
import Verif.Model.Tool.Sem
import Verif.Model.Cpp.Link

/-!
# The tool, linked with the library
-/

namespace Ansak.Tool

/-- `split` of the library as it is written (interface/string_splitjoin.hxx), where `wchar_t` has 32 bits or 16, `v` is the version
of Unicode of the library, and `sc` says whether `char` is signed. -/
def librarySplit (w : Bool) (v : Version) (sc : Bool) (n : Nat) (s : List Byte) (c : Byte) : R (List (List Byte)) :=
  match Cpp.callText (Cpp.link v sc) sc (Cpp.wideType w) (Cpp.Source.pieces w) n (nat_lit 0) (name% "split")
      [.str .char (Cpp.units8 sc s), .int .char (Cpp.charVal sc c)] with
  | .done (.vec .char l) _ => .done (l.map fun s => s.map (BitVec.ofInt 8))
  | .ub => .ub
  | .timeout => .timeout
  | _ => .stuck

/-- Run the tool. -/
def runTool (w : Bool) (v : Version) (sc : Bool) (n : Nat) (args : List (List Byte)) (d : Disk) : R Left :=
  run source (librarySplit w v sc n) n args d

end Ansak.Tool
