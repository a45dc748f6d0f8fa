import Verif.Model.MkTestData

/-!
# Model of `main` in mkUnicodeTestData/mkUnicodeTestData.cxx
-/

namespace Ansak.MkTestData

/-- What the tool finds when it is run. -/
structure Env where
  /-- the number of arguments, the name of the program included -/
  argc : Nat
  /-- whether `stat(argv[1])` succeeds -/
  exists1 : Bool
  /-- the content of the input file if it can be opened for reading -/
  input : Option (List Byte)
  /-- whether the output file can be created or truncated -/
  writable : Bool

/-- What the tool leaves: its exit code, and the new content of the output file if it was created or truncated. -/
structure Left where
  exit : Nat
  output : Option (List Byte)
  deriving DecidableEq

/-- mkUnicodeTestData/mkUnicodeTestData.cxx:109-166 `main`, without the messages on `cerr`.
`filebuf::open` returns a null pointer if it fails and does not throw; a stream on a `filebuf` that is not open
reads as an empty file and drops what is written; streams do not throw unless asked to by `exceptions`. So the
handler at lines 145-163 is never entered (allocation does not fail in the model), and the flags `opened1` and
`opened2` have no effect. `none`: `process` has not ended within the given number of iterations. -/
def main (fuel : Nat) (e : Env) : Option (Res Left) :=
  if e.argc ≠ 3 then some (.ok ⟨1, none⟩)
  else if ¬ e.exists1 then some (.ok ⟨2, none⟩)
  else (process fuel (e.input.getD [])).map fun r => r.map fun out =>
    ⟨0, if e.writable then some out else none⟩

end Ansak.MkTestData
