import Verif.Model.Cpp.Values
import Verif.Model.Cpp.Source
import Verif.Model.Cxx.Source

/-!
# The library and the files of one version of Unicode, linked

CMakeLists.txt:160-186 compiles `source/*.cxx` together with the two files of one directory `source/bits*`. Here the text
of the former is run by `Verif.Model.Cpp`, and where it calls a function that is defined in the directory of a version,
then the text of that file is run by `Verif.Model.Cxx`.
-/

namespace Ansak.Cpp

/-- The characters of a string that is written as a number with the first character highest; at most `k`. -/
def characters : Nat → Nat → List Byte → List Byte
  | 0, _, cs => cs
  | k + 1, n, cs => if n = 0 then cs else characters k (n / 256) (BitVec.ofNat 8 n :: cs)

/-- The file that defines a function: `source/bits*/char_to_lower.cxx` or `source/bits*/char_is_unicode.cxx`. -/
def definedIn (v : Version) (name : Nat) : List Cxx.Text :=
  if name = (name% "toLower") ∨ name = (name% "turkicToLower") then Cxx.toLowerSource v else Cxx.isUnicodeSource v

/-- What the two files in the directory of a version define. -/
def link (v : Version) (sc : Bool) : Externals where
  fn name t n :=
    match t with
    | .char => (Cxx.call8 sc (definedIn v name) name (BitVec.ofInt 8 n)).map fun w => (w.toNat : Int)
    | .c16 => (Cxx.call16 sc (definedIn v name) name (BitVec.ofInt 16 n)).map fun w => (w.toNat : Int)
    | .c32 => (Cxx.call32 sc (definedIn v name) name (BitVec.ofInt 32 n)).map fun w => (w.toNat : Int)
    | _ => none
  str name := (Cxx.constant (Cxx.isUnicodeSource v) name).map fun n => units8 sc (characters (n.log2 + 1) n [])

end Ansak.Cpp
