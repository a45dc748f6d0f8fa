import Verif.Lemmas.Cpp.Internal
import Verif.Model.DecodeUtf8

/-! # `decodeUtf8`, executed from its syntax tree -/

namespace Ansak.Cpp

variable {E : Sealed} {X : Externals} {sc : Bool} {r d : Nat} {K : Val → List (Option Val) → Out} {w : Bool} {s : List Int}

/-- What happens after a function of the hand-written model. -/
def _root_.Ansak.Res.out {α : Type} (x : Res α) (k : α → Out) : Out :=
  match x with
  | .ok a => k a
  | .ub => .ub

/-- A pointer into a buffer: a suffix of it as an offset. -/
def ptrTo (sc : Bool) (buf : List Byte) : Ptr Byte → Option (List Int × Int)
  | none => none
  | some q => some (units8 sc buf, (buf.length - q.length : Nat))

theorem ptrTo_drop {buf : List Byte} {i : Nat} {c : Byte} (h : buf[i]? = some c) :
    ptrTo sc buf (some (buf.drop i)) = some (units8 sc buf, (i : Int)) := by
  obtain ⟨hi, rfl⟩ := List.getElem?_eq_some_iff.1 h
  simp only [ptrTo, List.length_drop]
  congr 3
  omega

section
variable {buf : List Byte} {i lo hi : Nat} {c : Byte} {k : Byte → List Byte → Res Decoded}

theorem tail_drop : (buf.drop i).tail = buf.drop (i + 1) := by rw [List.tail_drop]

theorem nextByte_ub (h : buf.length ≤ i + 1) : nextByte lo hi (buf.drop i) k = .ub := by
  rw [nextByte, tail_drop, drop_none h]

theorem nextByte_zero (h : buf[i + 1]? = some c) (h0 : c.toNat = 0) :
    nextByte lo hi (buf.drop i) k = .ok (0, some (buf.drop (i + 1))) := by
  have : c = 0 := BitVec.eq_of_toNat_eq h0
  rw [nextByte, tail_drop, drop_some h]
  simp only [this, ite_true]

theorem nextByte_bad (h : buf[i + 1]? = some c) (h0 : ¬ c.toNat = 0) (hb : c.toNat < lo ∨ c.toNat > hi) :
    nextByte lo hi (buf.drop i) k = decodeFail := by
  have : ¬ c = 0 := fun h => h0 (by rw [h]; rfl)
  rw [nextByte, tail_drop, drop_some h]
  simp only [this, ite_false, hb, ite_true]

theorem nextByte_ok (h : buf[i + 1]? = some c) (h0 : ¬ c.toNat = 0) (hb : ¬ (c.toNat < lo ∨ c.toNat > hi)) :
    nextByte lo hi (buf.drop i) k = k c (buf.drop (i + 1)) := by
  have : ¬ c = 0 := fun h => h0 (by rw [h]; rfl)
  rw [nextByte, tail_drop, drop_some h]
  simp only [this, ite_false, hb]

end

/-- Follow the hand-written decoder. -/
macro "nextByte_step" : tactic => `(tactic| first
  | (rw [nextByte_ok]; rotate_left; with_reducible assumption; omega; omega)
  | (rw [nextByte_bad]; rotate_left; with_reducible assumption; omega; omega)
  | (rw [nextByte_zero]; rotate_left; with_reducible assumption; omega)
  | (rw [nextByte_ub]; rotate_left; omega))

theorem toNat_ofNat_32_of_16 (x : U16) : (BitVec.ofNat 32 x.toNat).toNat = x.toNat := by
  rw [BitVec.toNat_ofNat, Nat.mod_eq_of_lt (by have := x.isLt; omega)]

theorem toNat_ofNat_32 (x : U32) : (BitVec.ofNat 32 x.toNat).toNat = x.toNat := by
  rw [BitVec.toNat_ofNat, Nat.mod_eq_of_lt x.isLt]

theorem toNat_ofNat_32_of_8 (x : Byte) : (BitVec.ofNat 32 x.toNat).toNat = x.toNat := by
  rw [BitVec.toNat_ofNat, Nat.mod_eq_of_lt (by have := x.isLt; omega)]

theorem out_ok_some {buf : List Byte} {i : Nat} {c : Byte} {v : U32} {n : Nat}
    (hc : buf[i]? = some c) (hn : n = v.toNat) :
    K (.int .c32 n) [some (.ptr .char (some (units8 sc buf, (i : Int))))] =
    (Res.ok (v, some (buf.drop i)) : Res Decoded).out fun x => K (.int .c32 x.1.toNat) [some (.ptr .char (ptrTo sc buf x.2))] := by
  rw [Res.out, ptrTo_drop hc, hn]

/-- The end of a case. -/
macro "decode_leaf" : tactic => `(tactic| (
  repeat (nextByte_step; try simp only []; try settle)
  try simp only []
  try settle
  first
  | rfl
  | (apply out_ok_some; with_reducible assumption;
     first
     | rfl
     | (simp only [toNat_ofNat_32_of_16, toNat_ofNat_32_of_8, toNat_ofNat_32]; done)
     | (simp only [BitVec.toNat_ofNat]; rw [Nat.mod_eq_of_lt (by and_omega)]; done))))

theorem decode_one {buf : List Byte} {i : Nat} {c : Byte} (h : buf[i]? = some c) (h1 : c.toNat ≤ 0x7f) :
    call% (d + 2) "decodeUtf8" [.ptr .char (some (units8 sc buf, (i : Int)))] K =
    (Ansak.decodeUtf8 (buf.drop i)).out fun (c, q) => K (.int .c32 c.toNat) [some (.ptr .char (ptrTo sc buf q))] := by
  enter Ast.decodeUtf8
  have hd : Ansak.decodeUtf8 (buf.drop i) =
      .ok (BitVec.ofNat 32 c.toNat, some (buf.drop i)) := by
    rw [drop_some h, Ansak.decodeUtf8]
    settle
  rw [hd]
  clear hd
  run
  all_goals decode_leaf

theorem decode_bad {buf : List Byte} {i : Nat} {c : Byte} (h : buf[i]? = some c) (h1 : ¬ c.toNat ≤ 0x7f) (h2 : c.toNat ≤ 0xbf) :
    call% (d + 2) "decodeUtf8" [.ptr .char (some (units8 sc buf, (i : Int)))] K =
    (Ansak.decodeUtf8 (buf.drop i)).out fun (c, q) => K (.int .c32 c.toNat) [some (.ptr .char (ptrTo sc buf q))] := by
  enter Ast.decodeUtf8
  have hd : Ansak.decodeUtf8 (buf.drop i) =
      decodeFail := by
    rw [drop_some h, Ansak.decodeUtf8]
    settle
  rw [hd]
  clear hd
  run
  all_goals decode_leaf

theorem decode_two {buf : List Byte} {i : Nat} {c : Byte} (h : buf[i]? = some c) (h1 : ¬ c.toNat ≤ 0xbf) (h2 : c.toNat ≤ 0xdf) :
    call% (d + 2) "decodeUtf8" [.ptr .char (some (units8 sc buf, (i : Int)))] K =
    (Ansak.decodeUtf8 (buf.drop i)).out fun (c, q) => K (.int .c32 c.toNat) [some (.ptr .char (ptrTo sc buf q))] := by
  enter Ast.decodeUtf8
  have hd : Ansak.decodeUtf8 (buf.drop i) =
      nextByte 0x80 0xbf (buf.drop i) fun uc1 p =>
      let r := rawDecodeUtf8_2 c uc1
      if r.toNat < 0x80 then decodeFail
      else .ok (BitVec.ofNat 32 r.toNat, some p) := by
    rw [drop_some h, Ansak.decodeUtf8]
    settle
  rw [hd]
  clear hd
  run  [rawDecodeUtf8_2_uchar]
  all_goals decode_leaf

theorem decode_three {buf : List Byte} {i : Nat} {c : Byte} (h : buf[i]? = some c) (h1 : ¬ c.toNat ≤ 0xdf) (h2 : c.toNat ≤ 0xef) :
    call% (d + 2) "decodeUtf8" [.ptr .char (some (units8 sc buf, (i : Int)))] K =
    (Ansak.decodeUtf8 (buf.drop i)).out fun (c, q) => K (.int .c32 c.toNat) [some (.ptr .char (ptrTo sc buf q))] := by
  enter Ast.decodeUtf8
  have hd : Ansak.decodeUtf8 (buf.drop i) =
      nextByte 0x80 0xbf (buf.drop i) fun uc1 p =>
      nextByte 0x80 0xbf p fun uc2 p =>
      let w := (rawDecodeUtf8_3 c uc1 uc2).toNat
      if isFirstHalfUtf16 w then
        nextByte 0xe0 0xef p fun uc3 p =>
        nextByte 0x80 0xbf p fun uc4 p =>
        nextByte 0x80 0xbf p fun uc5 p =>
        let w2 := (rawDecodeUtf8_3 uc3 uc4 uc5).toNat
        if isSecondHalfUtf16 w2 then
          .ok (BitVec.ofNat 32 (0x10000 + ((w &&& 0x3ff) <<< 10) + (w2 &&& 0x3ff)), some p)
        else decodeFail
      else if w < 0x800 || isSecondHalfUtf16 w then decodeFail
      else .ok (BitVec.ofNat 32 w, some p) := by
    rw [drop_some h, Ansak.decodeUtf8]
    settle
  rw [hd]
  clear hd
  run  [rawDecodeUtf8_3_uchar, isFirstHalfUtf16_c32, isSecondHalfUtf16_c32]
  all_goals decode_leaf

theorem decode_four {buf : List Byte} {i : Nat} {c : Byte} (h : buf[i]? = some c) (h1 : ¬ c.toNat ≤ 0xef) (h2 : c.toNat ≤ 0xf7) :
    call% (d + 2) "decodeUtf8" [.ptr .char (some (units8 sc buf, (i : Int)))] K =
    (Ansak.decodeUtf8 (buf.drop i)).out fun (c, q) => K (.int .c32 c.toNat) [some (.ptr .char (ptrTo sc buf q))] := by
  enter Ast.decodeUtf8
  have hd : Ansak.decodeUtf8 (buf.drop i) =
      nextByte 0x80 0xbf (buf.drop i) fun uc1 p =>
      nextByte 0x80 0xbf p fun uc2 p =>
      nextByte 0x80 0xbf p fun uc3 p =>
      let r := rawDecodeUtf8_4 c uc1 uc2 uc3
      if r.toNat < 0x10000 then decodeFail else .ok (r, some p) := by
    rw [drop_some h, Ansak.decodeUtf8]
    settle
  rw [hd]
  clear hd
  run  [rawDecodeUtf8_4_uchar]
  all_goals decode_leaf

theorem decode_five {buf : List Byte} {i : Nat} {c : Byte} (h : buf[i]? = some c) (h1 : ¬ c.toNat ≤ 0xf7) (h2 : c.toNat ≤ 0xfb) :
    call% (d + 2) "decodeUtf8" [.ptr .char (some (units8 sc buf, (i : Int)))] K =
    (Ansak.decodeUtf8 (buf.drop i)).out fun (c, q) => K (.int .c32 c.toNat) [some (.ptr .char (ptrTo sc buf q))] := by
  enter Ast.decodeUtf8
  have hd : Ansak.decodeUtf8 (buf.drop i) =
      nextByte 0x80 0xbf (buf.drop i) fun uc1 p =>
      nextByte 0x80 0xbf p fun uc2 p =>
      nextByte 0x80 0xbf p fun uc3 p =>
      nextByte 0x80 0xbf p fun uc4 p =>
      let r := rawDecodeUtf8_5 c uc1 uc2 uc3 uc4
      if r.toNat < 0x200000 then decodeFail else .ok (r, some p) := by
    rw [drop_some h, Ansak.decodeUtf8]
    settle
  rw [hd]
  clear hd
  run  [rawDecodeUtf8_5_uchar]
  all_goals decode_leaf

theorem decode_six {buf : List Byte} {i : Nat} {c : Byte} (h : buf[i]? = some c) (h1 : ¬ c.toNat ≤ 0xfb) (h2 : c.toNat ≤ 0xfd) :
    call% (d + 2) "decodeUtf8" [.ptr .char (some (units8 sc buf, (i : Int)))] K =
    (Ansak.decodeUtf8 (buf.drop i)).out fun (c, q) => K (.int .c32 c.toNat) [some (.ptr .char (ptrTo sc buf q))] := by
  enter Ast.decodeUtf8
  have hd : Ansak.decodeUtf8 (buf.drop i) =
      nextByte 0x80 0xbf (buf.drop i) fun uc1 p =>
      nextByte 0x80 0xbf p fun uc2 p =>
      nextByte 0x80 0xbf p fun uc3 p =>
      nextByte 0x80 0xbf p fun uc4 p =>
      nextByte 0x80 0xbf p fun uc5 p =>
      let r := rawDecodeUtf8_6 c uc1 uc2 uc3 uc4 uc5
      if r.toNat < 0x4000000 then decodeFail else .ok (r, some p) := by
    rw [drop_some h, Ansak.decodeUtf8]
    settle
  rw [hd]
  clear hd
  run  [rawDecodeUtf8_6_uchar]
  all_goals decode_leaf

theorem decode_last {buf : List Byte} {i : Nat} {c : Byte} (h : buf[i]? = some c) (h1 : ¬ c.toNat ≤ 0xfd) :
    call% (d + 2) "decodeUtf8" [.ptr .char (some (units8 sc buf, (i : Int)))] K =
    (Ansak.decodeUtf8 (buf.drop i)).out fun (c, q) => K (.int .c32 c.toNat) [some (.ptr .char (ptrTo sc buf q))] := by
  enter Ast.decodeUtf8
  have hd : Ansak.decodeUtf8 (buf.drop i) =
      decodeFail := by
    rw [drop_some h, Ansak.decodeUtf8]
    settle
  rw [hd]
  clear hd
  run
  all_goals decode_leaf

theorem decode_none {buf : List Byte} {i : Nat} (h : buf.length ≤ i) :
    call% (d + 2) "decodeUtf8" [.ptr .char (some (units8 sc buf, (i : Int)))] K =
    (Ansak.decodeUtf8 (buf.drop i)).out fun (c, q) => K (.int .c32 c.toNat) [some (.ptr .char (ptrTo sc buf q))] := by
  enter Ast.decodeUtf8
  rw [drop_none h]
  run
  rfl

/-- `decodeUtf8` does what the hand-written function says. -/
theorem decodeUtf8_call (buf : List Byte) (i : Nat) :
    call% (d + 2) "decodeUtf8" [.ptr .char (some (units8 sc buf, (i : Int)))] K =
    (Ansak.decodeUtf8 (buf.drop i)).out fun (c, q) => K (.int .c32 c.toNat) [some (.ptr .char (ptrTo sc buf q))] := by
  by_cases hi : buf.length ≤ i
  · exact decode_none hi
  have h : buf[i]? = some buf[i] := List.getElem?_eq_getElem (by omega)
  by_cases h1 : buf[i].toNat ≤ 0x7f
  · exact decode_one h h1
  by_cases h2 : buf[i].toNat ≤ 0xbf
  · exact decode_bad h h1 h2
  by_cases h3 : buf[i].toNat ≤ 0xdf
  · exact decode_two h h2 h3
  by_cases h4 : buf[i].toNat ≤ 0xef
  · exact decode_three h h3 h4
  by_cases h5 : buf[i].toNat ≤ 0xf7
  · exact decode_four h h4 h5
  by_cases h6 : buf[i].toNat ≤ 0xfb
  · exact decode_five h h5 h6
  by_cases h7 : buf[i].toNat ≤ 0xfd
  · exact decode_six h h6 h7
  exact decode_last h h7

end Ansak.Cpp
