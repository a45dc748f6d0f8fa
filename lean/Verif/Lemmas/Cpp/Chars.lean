import Verif.Lemmas.Cpp.Rules
import Verif.Model.Cpp.Values

/-! # Rules for characters, buffers and negative numbers -/

namespace Ansak.Cpp

theorem byte_toInt (b : Byte) : b.toInt = if b.toNat < 128 then (b.toNat : Int) else b.toNat - 256 := by
  rw [BitVec.toInt_eq_toNat_cond]
  have := b.isLt
  split <;> split <;> omega

theorem byte_ext {a b : Byte} (h : (a.toNat : Int) % 256 = (b.toNat : Int) % 256) : a = b := by
  apply BitVec.eq_of_toNat_eq
  have := a.isLt
  have := b.isLt
  omega

theorem wrap_char (n : Int) : Ty.wrap true .char n = n.bmod 256 := by
  rw [Ty.wrap, Ty.signed, cond_true]
  · rw [Ty.count]
  · simp

/-- A conversion to `char` keeps the low bits. -/
theorem convert_char {sc : Bool} {s : Ty} (a : Nat) (h : Ty.includes sc .char s = false) :
    convert sc s .char (a : Int) = charVal sc (BitVec.ofNat 8 a) := by
  unfold convert
  rw [h, cond_false]
  cases sc
  · show (a : Int) % (256 : Nat) = ((BitVec.ofNat 8 a).toNat : Int)
    rw [BitVec.toNat_ofNat]; omega
  · rw [wrap_char, charVal, cond_true, BitVec.toInt_eq_toNat_bmod, BitVec.toNat_ofNat,
      show 2 ^ 8 = 256 from rfl, Int.natCast_emod]
    exact (Int.emod_bmod _ _).symm

/-- Are there values of the type that are not values of `char`, whether or not it is signed? -/
def Ty.notInChar : Ty → Bool
  | .bool => false
  | .char => false
  | .uchar => false
  | _ => true

theorem notInChar {s : Ty} (sc : Bool) (h : s.notInChar = true) : Ty.includes sc .char s = false := by
  unfold Ty.includes
  rw [decide_eq_false]
  cases s <;> first | exact absurd h Bool.false_ne_true | (cases sc <;> decide) | skip
  all_goals cases sc <;> simp [Ty.max, Ty.min]

@[cpp_rule] theorem convertTo_char_uchar {sc : Bool} (b : Byte) (k : Int → Out) :
    convertTo sc .char .uchar (charVal sc b) k = k b.toNat := by
  unfold convertTo
  congr 1
  cases sc
  · rfl
  · show b.toInt % (256 : Nat) = b.toNat
    rw [byte_toInt]
    have := b.isLt
    split <;> omega

@[cpp_rule] theorem convertTo_uchar_char {sc : Bool} (b : Byte) (k : Int → Out) :
    convertTo sc .uchar .char (b.toNat : Int) k = k (charVal sc b) := by
  unfold convertTo convert
  cases sc
  · rfl
  · rw [show Ty.includes true .char .uchar = false from rfl, cond_false, wrap_char, charVal, cond_true,
      BitVec.toInt_eq_toNat_bmod, show 2 ^ 8 = 256 from rfl]

@[cpp_rule] theorem convertTo_char {sc : Bool} {s : Ty} (a : Nat) (k : Int → Out) (h : s.notInChar = true) :
    convertTo sc s .char (a : Int) k = k (charVal sc (BitVec.ofNat 8 a)) := by
  unfold convertTo
  rw [convert_char a (notInChar sc h)]

theorem convert_char_int (sc : Bool) (n : Int) : convert sc .char .int n = n := by
  unfold convert
  rw [show Ty.includes sc .int .char = true by cases sc <;> decide]
  rfl

@[cpp_rule] theorem convertTo_char_int {sc : Bool} (b : Byte) (k : Int → Out) :
    convertTo sc .char .int (charVal sc b) k = k (charVal sc b) := by
  unfold convertTo
  rw [convert_char_int]

theorem charVal_bounds (sc : Bool) (b : Byte) : -128 ≤ charVal sc b ∧ charVal sc b < 256 := by
  have := b.isLt
  cases sc
  · show -128 ≤ (b.toNat : Int) ∧ (b.toNat : Int) < 256
    omega
  · show -128 ≤ b.toInt ∧ b.toInt < 256
    rw [byte_toInt]
    split <;> omega

theorem charVal_eq {sc : Bool} {b : Byte} {a : Nat} (h : a < 128) : charVal sc b = (a : Int) ↔ b.toNat = a := by
  have := b.isLt
  cases sc
  · show (b.toNat : Int) = a ↔ _
    omega
  · show b.toInt = a ↔ _
    rw [byte_toInt]
    split <;> omega

/-- Equality of a character and a small number. -/
@[cpp_rule] theorem eq_char {sc : Bool} {b : Byte} {t : Ty} {a m : Nat} (k : Val → Out) (hp : promote t = .int)
    (hm : (128 : Nat) = m) (h : a < m) :
    binaryInt sc .eq .char (charVal sc b) t (a : Int) k = k (ofBool (decide (b.toNat = a))) := by
  subst hm
  show arithmetic .eq (common .int (promote t)) (convert sc .char (common .int (promote t)) (charVal sc b))
    (convert sc t (common .int (promote t)) a) k = _
  rw [hp]
  show arithmetic .eq .int (convert sc .char .int (charVal sc b)) (convert sc t .int a) k = _
  rw [convert_nat (t := .int) (show a < 2147483648 by omega)]
  rw [convert_char_int]
  show k (ofBool (decide (charVal sc b = a))) = _
  simp only [charVal_eq h]

@[cpp_rule] theorem ne_char {sc : Bool} {b : Byte} {t : Ty} {a m : Nat} (k : Val → Out) (hp : promote t = .int)
    (hm : (128 : Nat) = m) (h : a < m) :
    binaryInt sc .ne .char (charVal sc b) t (a : Int) k = k (ofBool (!decide (b.toNat = a))) := by
  subst hm
  show arithmetic .ne (common .int (promote t)) (convert sc .char (common .int (promote t)) (charVal sc b))
    (convert sc t (common .int (promote t)) a) k = _
  rw [hp]
  show arithmetic .ne .int (convert sc .char .int (charVal sc b)) (convert sc t .int a) k = _
  rw [convert_nat (t := .int) (show a < 2147483648 by omega)]
  rw [convert_char_int]
  show k (ofBool (decide (charVal sc b ≠ a))) = _
  simp only [ne_eq, charVal_eq h, decide_not]

@[cpp_rule] theorem truth_char (t : Ty) {sc : Bool} (b : Byte) (k : Bool → Out) :
    truth (.int t (charVal sc b)) k = k (!decide (b.toNat = 0)) := by
  show k (decide (charVal sc b ≠ ((0 : Nat) : Int))) = _
  simp only [ne_eq, charVal_eq (show 0 < 128 by decide), decide_not]

/-! ## Narrowing -/

theorem convertTo_c16 {sc : Bool} {s : Ty} (a : Nat) (k : Int → Out) (h : Ty.includes sc .c16 s = false) :
    convertTo sc s .c16 (a : Int) k = k ((BitVec.ofNat 16 a).toNat : Int) := by
  unfold convertTo convert
  rw [h, cond_false]
  congr 1

/-- From a type with 32 bits or more to `char16_t`. -/
@[cpp_rule] theorem convertTo_c16_int {sc : Bool} (a : Nat) (k : Int → Out) :
    convertTo sc .int .c16 (a : Int) k = k ((BitVec.ofNat 16 a).toNat : Int) :=
  convertTo_c16 a k rfl
@[cpp_rule] theorem convertTo_c16_uint {sc : Bool} (a : Nat) (k : Int → Out) :
    convertTo sc .uint .c16 (a : Int) k = k ((BitVec.ofNat 16 a).toNat : Int) :=
  convertTo_c16 a k rfl
@[cpp_rule] theorem convertTo_c16_c32 {sc : Bool} (a : Nat) (k : Int → Out) :
    convertTo sc .c32 .c16 (a : Int) k = k ((BitVec.ofNat 16 a).toNat : Int) :=
  convertTo_c16 a k rfl

theorem convertTo_c32_int {sc : Bool} (a : Nat) (k : Int → Out) :
    convertTo sc .int .c32 (a : Int) k = k ((BitVec.ofNat 32 a).toNat : Int) := by
  unfold convertTo convert
  rw [show Ty.includes sc .c32 .int = false from rfl, cond_false]
  congr 1

/-! ## Buffers -/

theorem read_some {buf : List Int} {i : Nat} {n : Int} (k : Int → Out) (h : buf[i]? = some n) :
    read buf (i : Int) k = k n := by
  unfold read
  rw [if_pos (by omega), Int.toNat_natCast, h]

theorem read_none {buf : List Int} {i : Nat} (k : Int → Out) (h : buf[i]? = none) :
    read buf (i : Int) k = .ub := by
  unfold read
  rw [if_pos (by omega), Int.toNat_natCast, h]

@[cpp_rule] theorem read_units8 {sc : Bool} {l : List Byte} {i : Nat} {c : Byte} (k : Int → Out)
    (h : l[i]? = some c) : read (units8 sc l) (i : Int) k = k (charVal sc c) :=
  read_some k (by unfold units8; rw [List.getElem?_map, h]; rfl)

@[cpp_rule] theorem read_units8_none {sc : Bool} {l : List Byte} {i : Nat} (k : Int → Out)
    (h : l.length ≤ i) : read (units8 sc l) (i : Int) k = .ub :=
  read_none k (by unfold units8; rw [List.getElem?_map, List.getElem?_eq_none h]; rfl)

@[cpp_rule] theorem read_units16 {l : List U16} {i : Nat} {c : U16} (k : Int → Out)
    (h : l[i]? = some c) : read (units16 l) (i : Int) k = k c.toNat :=
  read_some k (by unfold units16; rw [List.getElem?_map, h]; rfl)

@[cpp_rule] theorem read_units16_none {l : List U16} {i : Nat} (k : Int → Out)
    (h : l.length ≤ i) : read (units16 l) (i : Int) k = .ub :=
  read_none k (by unfold units16; rw [List.getElem?_map, List.getElem?_eq_none h]; rfl)

@[cpp_rule] theorem read_units32 {l : List U32} {i : Nat} {c : U32} (k : Int → Out)
    (h : l[i]? = some c) : read (units32 l) (i : Int) k = k c.toNat :=
  read_some k (by unfold units32; rw [List.getElem?_map, h]; rfl)

@[cpp_rule] theorem read_units32_none {l : List U32} {i : Nat} (k : Int → Out)
    (h : l.length ≤ i) : read (units32 l) (i : Int) k = .ub :=
  read_none k (by unfold units32; rw [List.getElem?_map, List.getElem?_eq_none h]; rfl)

section
variable {sc : Bool} {i : Nat} {k : Int → Out} {R : Out}

@[cpp_split] theorem read_units8_split {E : Sealed} {l : List Byte} 
    (h1 : ∀ c, l[i]? = some c → i < l.length → k (charVal sc c) = R)
    (h2 : l.length ≤ i → Out.ub = R) : E.read (units8 sc l) (i : Int) k = R := by
  rw [E.read_eq]
  by_cases h : i < l.length
  · rw [read_units8 k (List.getElem?_eq_getElem h)]; exact h1 _ (List.getElem?_eq_getElem h) h
  · rw [read_units8_none k (by omega)]; exact h2 (by omega)

@[cpp_split] theorem read_units16_split {E : Sealed} {l : List U16} (h1 : ∀ c, l[i]? = some c → i < l.length → k c.toNat = R)
    (h2 : l.length ≤ i → Out.ub = R) : E.read (units16 l) (i : Int) k = R := by
  rw [E.read_eq]
  by_cases h : i < l.length
  · rw [read_units16 k (List.getElem?_eq_getElem h)]; exact h1 _ (List.getElem?_eq_getElem h) h
  · rw [read_units16_none k (by omega)]; exact h2 (by omega)

@[cpp_split] theorem read_units32_split {E : Sealed} {l : List U32} (h1 : ∀ c, l[i]? = some c → i < l.length → k c.toNat = R)
    (h2 : l.length ≤ i → Out.ub = R) : E.read (units32 l) (i : Int) k = R := by
  rw [E.read_eq]
  by_cases h : i < l.length
  · rw [read_units32 k (List.getElem?_eq_getElem h)]; exact h1 _ (List.getElem?_eq_getElem h) h
  · rw [read_units32_none k (by omega)]; exact h2 (by omega)

end

seal_rules

end Ansak.Cpp
