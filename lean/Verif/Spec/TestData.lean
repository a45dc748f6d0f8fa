/-!
# Specification of the table of valid code points that the unit tests use

UnicodeData.txt has a line for each character: fields separated by semicolons, of which the first is the code
point in hexadecimal and the second the name.
-/

namespace Ansak.Spec

/-- A line of UnicodeData.txt: two fields, and perhaps more. -/
structure Row where
  code : List (BitVec 8)
  name : List (BitVec 8)
  others : Option (List (BitVec 8))

/-- The line as text, without its newline. -/
def Row.line (r : Row) : List (BitVec 8) :=
  r.code ++ 0x3B :: r.name ++ match r.others with
    | none => []
    | some s => 0x3B :: s

/-- The bytes of an ASCII text. -/
def bytes (s : String) : List (BitVec 8) := s.toList.map fun c => BitVec.ofNat 8 c.toNat

/-- The fields are fields, the text is one line, and it is long enough to be one of UnicodeData.txt: more than ten
characters. -/
structure Row.Ok (r : Row) : Prop where
  code : ∀ c ∈ r.code, c ≠ 0x3B ∧ c ≠ 0x0A
  name : ∀ c ∈ r.name, c ≠ 0x3B ∧ c ≠ 0x0A
  others : ∀ s ∈ r.others, ∀ c ∈ s, c ≠ 0x0A
  long : 10 < r.line.length
  short : r.line.length ≤ 0x7FFFFFFF

/-- The character is a surrogate or private, by its name. -/
def Row.Excluded (r : Row) : Prop := bytes "Surrogate" <:+: r.name ∨ bytes "Private" <:+: r.name

instance (r : Row) : Decidable r.Excluded := inferInstanceAs (Decidable (_ ∨ _))

/-- A file of such lines, each ended by a newline. -/
def fileOf (rows : List Row) : List (BitVec 8) := rows.flatMap fun r => r.line ++ [0x0A]

/-- What comes before the first newline. -/
def firstLine (s : List (BitVec 8)) : List (BitVec 8) := s.takeWhile fun c => c ≠ 0x0A

/-- The table in C++: each code point that is not excluded, in order, and a sentinel. -/
def table (rows : List Row) : List (BitVec 8) :=
  bytes "char32_t validUnicodeCodePoints[] = {" ++
  ((rows.filter fun r => ¬ r.Excluded).flatMap fun r => bytes " 0x" ++ r.code ++ bytes ",") ++
  bytes " 0xFFFFFFFF };"

/-- A space or a newline. -/
def Blank (c : BitVec 8) : Prop := c = 0x20 ∨ c = 0x0A

instance (c : BitVec 8) : Decidable (Blank c) := inferInstanceAs (Decidable (_ ∨ _))

/-- The words of a text of which `w` is the beginning of the first one. -/
def wordsFrom (w : List (BitVec 8)) : List (BitVec 8) → List (List (BitVec 8))
  | [] => if w = [] then [] else [w]
  | c :: s => if Blank c then (if w = [] then [] else [w]) ++ wordsFrom [] s else wordsFrom (w ++ [c]) s

/-- The words of a text: what is between spaces and newlines. Texts with the same words differ in their layout only. -/
def words (s : List (BitVec 8)) : List (List (BitVec 8)) := wordsFrom [] s

end Ansak.Spec
