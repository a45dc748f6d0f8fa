import Verif.Model.SplitJoin

/-!
# Model of mkUnicodeTestData/mkUnicodeTestData.cxx

The tool makes the table `validUnicodeCodePoints` that the unit tests of the classification use, from
UnicodeData.txt. Files are lists of bytes. `main` is in MkTestDataMain.
-/

namespace Ansak.MkTestData

/-- A string literal of the source as the `char`s it denotes (ASCII). -/
def str (s : String) : List Byte := s.toList.map fun c => BitVec.ofNat 8 c.toNat

/-- The state of `inStream`: what has not been read, and `good()`. -/
structure In where
  rest : List Byte
  good : Bool
  deriving DecidableEq

/-- `std::getline(inStream, str)` ([string.io]): if the stream is not good, nothing happens, and `str` keeps its
value. Otherwise `str` is the text up to a newline, which is removed, or up to the end of the file, in which
case the stream is not good any more. -/
def getline (st : In) (old : List Byte) : In × List Byte :=
  if st.good then
    match st.rest.findIdx? (· = 0x0A) with
    | some n => (⟨st.rest.drop (n + 1), true⟩, st.rest.take n)
    | none => (⟨[], false⟩, st.rest)
  else (st, old)

/-- `field.find(word) != npos`. -/
def contains (word : List Byte) : List Byte → Bool
  | [] => word.isEmpty
  | c :: s => word.isPrefixOf (c :: s) || contains word s

/-- mkUnicodeTestData/mkUnicodeTestData.cxx:79-98, the loop, and line 100. `none`: it has not ended within the given number of
iterations. `fields[1]` is undefined behaviour if there is no such field; `nCount` is an `int`. -/
def processLoop : Nat → In → List Byte → List (List Byte) → Nat → List Byte → Option (Res (List Byte))
  | 0, _, _, _, _, _ => none
  | fuel + 1, st, oneLine, fields, nCount, out =>
    if oneLine.length > 10 then
      match readAt fields 1, readAt fields 0 with
      | .ok f1, .ok f0 =>
        let next := getline st oneLine
        match split next.2 0x3B with
        | .ub => some .ub
        | .ok fields =>
          if contains (str "Surrogate") f1 ∨ contains (str "Private") f1 then
            processLoop fuel next.1 next.2 fields nCount out
          else
            let out := out ++ str " 0x" ++ f0 ++ str ","
            match incInt nCount with
            | .ub => some .ub
            | .ok nCount =>
              let out := if next.2.length ≠ 0 ∧ nCount % 10 = 0 then out ++ str "\n   " else out
              processLoop fuel next.1 next.2 fields nCount out
      | _, _ => some .ub
    else some (.ok (out ++ str " 0xFFFFFFFF };\n"))

/-- mkUnicodeTestData/mkUnicodeTestData.cxx:67-104 `process`: from the content of the input file to the content of
the output file. -/
def process (fuel : Nat) (file : List Byte) : Option (Res (List Byte)) :=
  let first := getline ⟨file, true⟩ []
  match split first.2 0x3B with
  | .ub => some .ub
  | .ok fields =>
    if fields = [] then some (.ok [])
    else processLoop fuel first.1 first.2 fields 0 (str "char32_t validUnicodeCodePoints[] = {\n    ")

end Ansak.MkTestData
