import Verif.Model.StringTo

/-!
# Model of interface/string_trim.hxx

The functions modify their argument in place; the model returns the modified string.
-/

namespace Ansak

/-- interface/string_trim.hxx:56-59 and 71-75: `while (!victim.empty() && blank(victim[size - 1]))
victim.erase(size - 1)`. -/
def trimBack {α : Type} (blank : α → Bool) (victim : List α) : List α :=
  match _h : victim.getLast? with
  | none => victim
  | some c => if blank c then trimBack blank victim.dropLast else victim
termination_by victim.length
decreasing_by
  have : victim ≠ [] := by rintro rfl; simp at _h
  have := List.length_pos_iff.2 this
  rw [List.length_dropLast]; omega

/-- interface/string_trim.hxx:60-63 and 76-79: `while (!victim.empty() && blank(victim[0]))
victim.erase(0, 1)`. -/
def trimFront {α : Type} (blank : α → Bool) : List α → List α
  | [] => []
  | c :: victim => if blank c then trimFront blank victim else c :: victim

/-- interface/string_trim.hxx:51-64 `trim(victim)`. -/
def trim {w : Nat} (victim : List (BitVec w)) : List (BitVec w) :=
  let victim := trimBack (· = 0x20) victim
  trimFront (· = 0x20) victim

/-- `spaces.find_first_of(c) != npos` -/
def findFirstOf {w : Nat} (spaces : List (BitVec w)) (c : BitVec w) : Bool := decide (c ∈ spaces)

/-- interface/string_trim.hxx:66-80 `trim(victim, spaces)`. -/
def trimOf {w : Nat} (victim spaces : List (BitVec w)) : List (BitVec w) :=
  let victim := trimBack (findFirstOf spaces) victim
  trimFront (findFirstOf spaces) victim

/-- interface/string_trim.hxx:82-85 `trimAscii7WhiteSpace`. -/
def trimAscii7WhiteSpace (victim : List Byte) : List Byte := trimOf victim [0x09, 0x0a, 0x0d, 0x20]

/-- interface/string_trim.hxx:90-92 -/
def spaces32 : List U32 := [
  0x00000009, 0x0000000a, 0x0000000d, 0x20, 0x000000a0, 0x00002000, 0x00002001, 0x00002002, 0x00002003,
  0x00002004, 0x00002005, 0x00002006, 0x00002007, 0x00002008, 0x00002009, 0x0000200a, 0x0000202f,
  0x0000205f, 0x00003000]

/-- interface/string_trim.hxx:87-93 `trimWhiteSpace(ucs4String&)`. -/
def trimWhiteSpace32 (victim : List U32) : List U32 := trimOf victim spaces32

/-- interface/string_trim.hxx:98-99 -/
def spaces16 : List U16 := [
  0x0009, 0x000a, 0x000d, 0x20, 0x00a0, 0x2000, 0x2001, 0x2002, 0x2003, 0x2004, 0x2005, 0x2006, 0x2007,
  0x2008, 0x2009, 0x200a, 0x202f, 0x205f, 0x3000]

/-- interface/string_trim.hxx:95-100 `trimWhiteSpace(utf16String&)`. -/
def trimWhiteSpace16 (victim : List U16) : List U16 := trimOf victim spaces16

/-- interface/string_trim.hxx:102-107 `trimWhiteSpace(utf8String&)`. -/
def trimWhiteSpace8 (victim : List Byte) : Res (List Byte) :=
  (toUtf16From8S victim).bind fun v16 => toUtf8From16S (trimWhiteSpace16 v16)

end Ansak
