import Verif.Lemmas.Cpp.Chars
import Verif.Model.Internal

/-! # The functions of string_internal.hxx, executed from their syntax trees -/

namespace Ansak.Cpp

set_option hygiene false in
/-- A call of a function of the library at depth `d`: `call% d "name" [arguments] continuation`. -/
macro "call% " d:term:max n:str vs:term:max K:term:max : term =>
  `(E.call (Ast.program w s) X sc r $d (nat_lit 0) (name% $n) $vs $K)

variable {E : Sealed} {X : Externals} {sc : Bool} {r d : Nat} {K : Val → List (Option Val) → Out} {w : Bool} {s : List Int}

/-- The end of a proof: both sides are the same by definition. -/
macro "leaf" : tactic => `(tactic| first | done | rfl | (simp only [List.append_assoc]; rfl) |
  (simp only [units8, units16, units32, List.map_nil, List.append_nil]; done))

/-- An enumeration value of type `RangeTypeFlags`. -/
abbrev flags (n : Nat) : Val := .int (.enum (name% "RangeTypeFlags")) n

theorem unicodeFlag_le (c : Nat) : Ansak.getUnicodeEncodableRangeFlag c ≤ 32 := by
  unfold Ansak.getUnicodeEncodableRangeFlag
  split <;> decide

theorem isFirstHalfUtf16_c16 {c : Nat} (h : c < 65536) : call% (d + 1) "isFirstHalfUtf16" [.int .c16 c] K =
    K (ofBool (Ansak.isFirstHalfUtf16 c)) [none] := by
  enter Ast.isFirstHalfUtf16 with .c16
  run <;> simp [Ansak.isFirstHalfUtf16, *] <;> rfl

theorem isFirstHalfUtf16_c32 {c : Nat} (h : c < 4294967296) : call% (d + 1) "isFirstHalfUtf16" [.int .c32 c] K =
    K (ofBool (Ansak.isFirstHalfUtf16 c)) [none] := by
  enter Ast.isFirstHalfUtf16 with .c32
  run <;> simp [Ansak.isFirstHalfUtf16, *] <;> rfl

theorem isSecondHalfUtf16_c16 {c : Nat} (h : c < 65536) : call% (d + 1) "isSecondHalfUtf16" [.int .c16 c] K =
    K (ofBool (Ansak.isSecondHalfUtf16 c)) [none] := by
  enter Ast.isSecondHalfUtf16 with .c16
  run <;> simp [Ansak.isSecondHalfUtf16, *] <;> rfl

theorem isSecondHalfUtf16_c32 {c : Nat} (h : c < 4294967296) : call% (d + 1) "isSecondHalfUtf16" [.int .c32 c] K =
    K (ofBool (Ansak.isSecondHalfUtf16 c)) [none] := by
  enter Ast.isSecondHalfUtf16 with .c32
  run <;> simp [Ansak.isSecondHalfUtf16, *] <;> rfl

theorem rawDecodeUtf8_2_uchar (c0 c1 : Byte) :
    call% (d + 1) "rawDecodeUtf8" [.int .uchar c0.toNat, .int .uchar c1.toNat] K =
    K (.int .c16 (rawDecodeUtf8_2 c0 c1).toNat) [none, none] := by
  enter Ast.rawDecodeUtf8_8_8
  run [convertTo_c16_int.sealed]
  rfl

theorem rawDecodeUtf8_3_uchar (c0 c1 c2 : Byte) :
    call% (d + 1) "rawDecodeUtf8" [.int .uchar c0.toNat, .int .uchar c1.toNat, .int .uchar c2.toNat] K =
    K (.int .c16 (rawDecodeUtf8_3 c0 c1 c2).toNat) [none, none, none] := by
  enter Ast.rawDecodeUtf8_8_8_8
  run [convertTo_c16_int.sealed]
  rfl

theorem rawDecodeUtf8_4_uchar (c0 c1 c2 c3 : Byte) :
    call% (d + 1) "rawDecodeUtf8" [.int .uchar c0.toNat, .int .uchar c1.toNat, .int .uchar c2.toNat, .int .uchar c3.toNat] K =
    K (.int .c32 (rawDecodeUtf8_4 c0 c1 c2 c3).toNat) [none, none, none, none] := by
  enter Ast.rawDecodeUtf8_8_8_8_8
  run
  rw [rawDecodeUtf8_4, BitVec.toNat_ofNat, Nat.mod_eq_of_lt (by and_omega)]

theorem rawDecodeUtf8_5_uchar (c0 c1 c2 c3 c4 : Byte) :
    call% (d + 1) "rawDecodeUtf8" [.int .uchar c0.toNat, .int .uchar c1.toNat, .int .uchar c2.toNat, .int .uchar c3.toNat, .int .uchar c4.toNat] K =
    K (.int .c32 (rawDecodeUtf8_5 c0 c1 c2 c3 c4).toNat) [none, none, none, none, none] := by
  enter Ast.rawDecodeUtf8_8_8_8_8_8
  run
  rw [rawDecodeUtf8_5, BitVec.toNat_ofNat, Nat.mod_eq_of_lt (by and_omega)]

theorem rawDecodeUtf8_6_uchar (c0 c1 c2 c3 c4 c5 : Byte) :
    call% (d + 1) "rawDecodeUtf8" [.int .uchar c0.toNat, .int .uchar c1.toNat, .int .uchar c2.toNat, .int .uchar c3.toNat, .int .uchar c4.toNat, .int .uchar c5.toNat] K =
    K (.int .c32 (rawDecodeUtf8_6 c0 c1 c2 c3 c4 c5).toNat) [none, none, none, none, none, none] := by
  enter Ast.rawDecodeUtf8_8_8_8_8_8_8
  run
  rw [rawDecodeUtf8_6, BitVec.toNat_ofNat, Nat.mod_eq_of_lt (by and_omega)]

theorem getUnicodeEncodableRangeFlag_c16 {c : Nat} (h : c < 65536) :
    call% (d + 1) "getUnicodeEncodableRangeFlag" [.int .c16 c] K = K (flags (Ansak.getUnicodeEncodableRangeFlag c)) [none] := by
  enter Ast.getUnicodeEncodableRangeFlag with .c16
  run <;> unfold Ansak.getUnicodeEncodableRangeFlag <;> settle <;> leaf

theorem getCharEncodableRangeFlags_c16 {c : Nat} (h : c < 65536) :
    call% (d + 2) "getCharEncodableRangeFlags" [.int .c16 c] K = K (flags (Ansak.getCharEncodableRangeFlags c)) [none] := by
  have := unicodeFlag_le c
  enter Ast.getCharEncodableRangeFlags with .c16
  run [getUnicodeEncodableRangeFlag_c16] <;> unfold Ansak.getCharEncodableRangeFlags <;> settle <;> leaf

theorem encodeUtf8_c16 {c : Nat} (h : c < 65536) (l : List Int) :
    call% (d + 1) "encodeUtf8" [.int .c16 c, .str .char l] K =
      K .void [none, some (.str .char (l ++ units8 sc (Ansak.encodeUtf8 c)))] := by
  enter Ast.encodeUtf8 with .c16
  run <;> unfold Ansak.encodeUtf8 <;> settle <;> leaf

theorem getUnicodeEncodableRangeFlag_c32 {c : Nat} (h : c < 4294967296) :
    call% (d + 1) "getUnicodeEncodableRangeFlag" [.int .c32 c] K = K (flags (Ansak.getUnicodeEncodableRangeFlag c)) [none] := by
  enter Ast.getUnicodeEncodableRangeFlag with .c32
  run <;> unfold Ansak.getUnicodeEncodableRangeFlag <;> settle <;> leaf

theorem getCharEncodableRangeFlags_c32 {c : Nat} (h : c < 4294967296) :
    call% (d + 2) "getCharEncodableRangeFlags" [.int .c32 c] K = K (flags (Ansak.getCharEncodableRangeFlags c)) [none] := by
  have := unicodeFlag_le c
  enter Ast.getCharEncodableRangeFlags with .c32
  run [getUnicodeEncodableRangeFlag_c32] <;> unfold Ansak.getCharEncodableRangeFlags <;> settle <;> leaf

theorem encodeUtf8_c32 {c : Nat} (h : c < 4294967296) (l : List Int) :
    call% (d + 1) "encodeUtf8" [.int .c32 c, .str .char l] K =
      K .void [none, some (.str .char (l ++ units8 sc (Ansak.encodeUtf8 c)))] := by
  enter Ast.encodeUtf8 with .c32
  run <;> unfold Ansak.encodeUtf8 <;> settle <;> leaf

theorem getRangeFlag_char (b : Byte) :
    call% (d + 1) "getRangeFlag" [.int .char (charVal sc b)] K = K (flags (getRangeFlag8 b.toNat)) [none] := by
  enter Ast.getRangeFlag_8
  run <;> unfold getRangeFlag8 <;> settle <;> leaf

theorem getRangeFlag_c16 {c : Nat} (h : c < 65536) :
    call% (d + 1) "getRangeFlag" [.int .c16 c] K = K (flags (getRangeFlag16 c)) [none] := by
  enter Ast.getRangeFlag_16
  run <;> unfold getRangeFlag16 <;> settle <;> leaf

theorem rawDecodeUtf16_c16 (c0 c1 : U16) :
    call% (d + 1) "rawDecodeUtf16" [.int .c16 c0.toNat, .int .c16 c1.toNat] K =
    K (.int .c32 (rawDecodeUtf16 c0 c1).toNat) [none, none] := by
  enter Ast.rawDecodeUtf16_16_16
  run
  rw [Ansak.rawDecodeUtf16, BitVec.toNat_ofNat, Nat.mod_eq_of_lt (by and_omega)]

theorem rawEncodeUtf16_c32 {c : Nat} (h : c < 4294967296) (l : List Int) :
    call% (d + 1) "rawEncodeUtf16" [.int .c32 c, .str .c16 l] K =
      K .void [none, some (.str .c16 (l ++ units16 (Ansak.rawEncodeUtf16 c)))] := by
  enter Ast.rawEncodeUtf16 with .c32
  run <;> unfold Ansak.rawEncodeUtf16 <;> settle <;>
    simp only [units16, List.map_cons, List.map_nil, BitVec.toNat_ofNat, List.append_assoc, List.cons_append,
      List.nil_append]
  · rw [Nat.mod_eq_of_lt (by and_omega)]
  · rw [Nat.mod_eq_of_lt (by and_omega), Nat.mod_eq_of_lt (by and_omega)]

end Ansak.Cpp
