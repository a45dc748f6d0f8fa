import Verif.Model.StringTo
import Verif.Lemmas.Cpp.Validate
import Verif.Lemmas.Cpp.ValidateUtf8

/-! # The conversions, executed from their syntax trees -/

namespace Ansak.Cpp

variable {E : Sealed} {X : Externals} {sc : Bool} {r d : Nat} {K : Val → List (Option Val) → Out} {w : Bool} {s : List Int}

theorem append8 (a b : List Byte) : (units8 sc a).append (units8 sc b) = units8 sc (a ++ b) := List.map_append.symm
theorem append16 (a b : List U16) : (units16 a).append (units16 b) = units16 (a ++ b) := List.map_append.symm

theorem push16 (a : List U16) {n : Nat} (h : n < 65536) :
    (units16 a).append [(n : Int)] = units16 (a ++ [BitVec.ofNat 16 n]) := by
  simp only [units16, List.map_append, List.map_cons, List.map_nil, BitVec.toNat_ofNat]
  rw [Nat.mod_eq_of_lt h]
  rfl

theorem push32 (a : List U32) (c : U32) : (units32 a).append [(c.toNat : Int)] = units32 (a ++ [c]) := by
  simp only [units32, List.map_append, List.map_cons, List.map_nil]
  rfl

theorem push32_of (a : List U32) {n : Nat} (h : n < 4294967296) :
    (units32 a).append [(n : Int)] = units32 (a ++ [BitVec.ofNat 32 n]) := by
  simp only [units32, List.map_append, List.map_cons, List.map_nil, BitVec.toNat_ofNat]
  rw [Nat.mod_eq_of_lt h]
  rfl

set_option hygiene false in
/-- The next round, with the result in the form that the induction hypothesis speaks about. -/
macro "again" : tactic => `(tactic|
  (try rw [append8]
   try rw [append16]
   try rw [push16 _ (by omega)]
   try rw [push32]
   try rw [push32_of _ (by omega)]
   try run [IH]
   clear IH))

theorem toUtf8_32_null : call% (d + 4) "toUtf8" [.ptr .c32 none] K =
    (Ansak.toUtf8From32 none).out fun l => K (.str .char (units8 sc l)) [none] := by
  enter Ast.toUtf8_32
  run
  leaf

theorem toUtf8_32_call (buf : List U32) (hr : buf.length < r) :
    call% (d + 4) "toUtf8" [.ptr .c32 (some (units32 buf, ((0 : Nat) : Int)))] K =
    (Ansak.toUtf8From32 (some buf)).out fun l => K (.str .char (units8 sc l)) [none] := by
  enter Ast.toUtf8_32
  by_hand [Ansak.toUtf8From32, ifNonEmpty]
  run
  · reads
    by_hand [Res.bind, zero32]
    settle
    leaf
  · reads
    by_hand [Res.bind, zero32]
    settle
    induct [0, []] (fun (i : Nat) (res : List Byte) => [(name% "p", Val.ptr .c32 (some (units32 buf, (i : Int)))),
        (name% "result", Val.str .char (units8 sc res))])
      (fun i res => (toUtf8From32Loop (buf.drop i) res).out fun l => K (.str .char (units8 sc l)) [none])
      (fun i _ => buf.length - i) (fun _ _ => True)
    · intro n i res _ IH
      clear h
      run [rounds_succ, IH, isFirstHalfUtf16_c32, isSecondHalfUtf16_c32, encodeUtf8_c32] <;> again <;>
        (drops; simp only [toUtf8From32Loop, zero32]; settle; leaf)
    · trivial
    · omega
    · rfl
  · reads
    rfl

theorem toUtf8From16Loop_nil (res : List Byte) : toUtf8From16Loop [] res = .ub := by rw [toUtf8From16Loop]
theorem toUtf8From16Loop_cons (c : U16) (p : List U16) (result : List Byte) : toUtf8From16Loop (c :: p) result =
    if c = 0 then .ok result
    else if Ansak.isFirstHalfUtf16 c.toNat then
      match p with
      | [] => .ub
      | c1 :: p' =>
        if c1 = 0 then .ok result
        else if ¬ Ansak.isSecondHalfUtf16 c1.toNat then .ok []
        else toUtf8From16Loop p' (result ++ Ansak.encodeUtf8 (Ansak.rawDecodeUtf16 c c1).toNat)
    else toUtf8From16Loop p (result ++ Ansak.encodeUtf8 c.toNat) := by
  rw [toUtf8From16Loop.eq_def]; rfl

theorem toUtf8_16_null : call% (d + 4) "toUtf8" [.ptr .c16 none] K =
    (Ansak.toUtf8From16 none).out fun l => K (.str .char (units8 sc l)) [none] := by
  enter Ast.toUtf8_16
  run
  leaf

theorem toUtf8_16_call (buf : List U16) (hr : buf.length < r) :
    call% (d + 4) "toUtf8" [.ptr .c16 (some (units16 buf, ((0 : Nat) : Int)))] K =
    (Ansak.toUtf8From16 (some buf)).out fun l => K (.str .char (units8 sc l)) [none] := by
  enter Ast.toUtf8_16
  by_hand [Ansak.toUtf8From16, ifNonEmpty]
  run
  · reads
    by_hand [Res.bind, zero16]
    settle
    leaf
  · reads
    by_hand [Res.bind, zero16]
    settle
    induct [0, []] (fun (i : Nat) (res : List Byte) => [(name% "p", Val.ptr .c16 (some (units16 buf, (i : Int)))),
        (name% "result", Val.str .char (units8 sc res))])
      (fun i res => (toUtf8From16Loop (buf.drop i) res).out fun l => K (.str .char (units8 sc l)) [none])
      (fun i _ => buf.length - i) (fun _ _ => True)
    · intro n i res _ IH
      clear h
      run [rounds_succ, IH, isFirstHalfUtf16_c16, isSecondHalfUtf16_c16, rawDecodeUtf16_c16, encodeUtf8_c32, encodeUtf8_c16] <;> again <;> drops <;> simp only [toUtf8From16Loop_nil, toUtf8From16Loop_cons, zero16] <;> settle <;> leaf
    · trivial
    · omega
    · rfl
  · reads
    rfl

theorem toUcs2_32_null : call% (d + 4) "toUcs2" [.ptr .c32 none] K =
    (Ansak.toUcs2From32 none).out fun l => K (.str .c16 (units16 l)) [none] := by
  enter Ast.toUcs2_32
  run
  leaf

theorem toUcs2_32_call (buf : List U32) (hr : buf.length < r) :
    call% (d + 4) "toUcs2" [.ptr .c32 (some (units32 buf, ((0 : Nat) : Int)))] K =
    (Ansak.toUcs2From32 (some buf)).out fun l => K (.str .c16 (units16 l)) [none] := by
  enter Ast.toUcs2_32
  by_hand [Ansak.toUcs2From32, ifNonEmpty]
  run
  · reads
    by_hand [Res.bind, zero32]
    settle
    leaf
  · reads
    by_hand [Res.bind, zero32]
    settle
    induct [0, []] (fun (i : Nat) (res : List U16) => [(name% "p", Val.ptr .c32 (some (units32 buf, (i : Int)))),
        (name% "result", Val.str .c16 (units16 res))])
      (fun i res => (toUcs2From32Loop (buf.drop i) res).out fun l => K (.str .c16 (units16 l)) [none])
      (fun i _ => buf.length - i) (fun _ _ => True)
    · intro n i res _ IH
      clear h
      run [rounds_succ, IH, isFirstHalfUtf16_c32, isSecondHalfUtf16_c32] <;> again <;>
        (drops; simp only [toUcs2From32Loop, zero32]; settle; leaf)
    · trivial
    · omega
    · rfl
  · reads
    rfl

@[cpp_rule] theorem complement_k21 {sc : Bool} (k : Val → Out) :
    complement sc .int ((2097151 : Nat) : Int) k = k (.int .int (-2097152)) := by
  cases sc <;> rfl

@[cpp_rule] theorem bitAnd_k21 {sc : Bool} {a : Nat} (h : a < 4294967296) (k : Val → Out) :
    binaryInt sc .bitAnd .c32 (a : Int) .int (-2097152) k = k (.int .uint ((a &&& 0xffe00000 : Nat) : Int)) := by
  rw [← bitAnd_nat (sc := sc) (s := .c32) (t := .uint) (u := .uint) (a := a) (b := 0xffe00000) (m := 4294967296) k
    rfl rfl h (by decide)]
  cases sc <;> rfl

seal_rules

theorem isUtf16Encodable_c32 {c : Nat} (h : c < 4294967296) : call% (d + 1) "isUtf16Encodable" [.int .c32 c] K =
    K (ofBool (Ansak.isUtf16Encodable c)) [none] := by
  enter Ast.isUtf16Encodable with .c32
  run <;> simp [Ansak.isUtf16Encodable, *] <;> rfl

theorem toUtf16_32_null : call% (d + 4) "toUtf16" [.ptr .c32 none] K =
    (Ansak.toUtf16From32 none).out fun l => K (.str .c16 (units16 l)) [none] := by
  enter Ast.toUtf16_32
  run
  leaf

theorem toUtf16_32_call (buf : List U32) (hr : buf.length < r) :
    call% (d + 4) "toUtf16" [.ptr .c32 (some (units32 buf, ((0 : Nat) : Int)))] K =
    (Ansak.toUtf16From32 (some buf)).out fun l => K (.str .c16 (units16 l)) [none] := by
  enter Ast.toUtf16_32
  by_hand [Ansak.toUtf16From32, ifNonEmpty]
  run
  · reads
    by_hand [Res.bind, zero32]
    settle
    leaf
  · reads
    by_hand [Res.bind, zero32]
    settle
    induct [0, []] (fun (i : Nat) (res : List U16) => [(name% "p", Val.ptr .c32 (some (units32 buf, (i : Int)))),
        (name% "result", Val.str .c16 (units16 res))])
      (fun i res => (toUtf16From32Loop (buf.drop i) res).out fun l => K (.str .c16 (units16 l)) [none])
      (fun i _ => buf.length - i) (fun _ _ => True)
    · intro n i res _ IH
      clear h
      run [rounds_succ, IH, isFirstHalfUtf16_c32, isSecondHalfUtf16_c32, isUtf16Encodable_c32, rawEncodeUtf16_c32] <;> again <;>
        (drops; simp only [toUtf16From32Loop, zero32]; settle; leaf)
    · trivial
    · omega
    · rfl
  · reads
    rfl

theorem toUcs4From16Loop_nil (res : List U32) : toUcs4From16Loop [] res = .ub := by rw [toUcs4From16Loop]
theorem toUcs4From16Loop_cons (c : U16) (p : List U16) (result : List U32) : toUcs4From16Loop (c :: p) result =
    if c = 0 then .ok result
    else if Ansak.isFirstHalfUtf16 c.toNat then
      match p with
      | [] => .ub
      | c1 :: p' =>
        if c1 = 0 then .ok result
        else if ¬ Ansak.isSecondHalfUtf16 c1.toNat then .ok []
        else toUcs4From16Loop p' (result ++ [Ansak.rawDecodeUtf16 c c1])
    else if Ansak.isSecondHalfUtf16 c.toNat then .ok [] else toUcs4From16Loop p (result ++ [BitVec.ofNat 32 c.toNat]) := by
  rw [toUcs4From16Loop.eq_def]; rfl

theorem toUcs4_16_null : call% (d + 4) "toUcs4" [.ptr .c16 none] K =
    (Ansak.toUcs4From16 none).out fun l => K (.str .c32 (units32 l)) [none] := by
  enter Ast.toUcs4_16
  run
  leaf

theorem toUcs4_16_call (buf : List U16) (hr : buf.length < r) :
    call% (d + 4) "toUcs4" [.ptr .c16 (some (units16 buf, ((0 : Nat) : Int)))] K =
    (Ansak.toUcs4From16 (some buf)).out fun l => K (.str .c32 (units32 l)) [none] := by
  enter Ast.toUcs4_16
  by_hand [Ansak.toUcs4From16, ifNonEmpty]
  run
  · reads
    by_hand [Res.bind, zero16]
    settle
    leaf
  · reads
    by_hand [Res.bind, zero16]
    settle
    induct [0, []] (fun (i : Nat) (res : List U32) => [(name% "p", Val.ptr .c16 (some (units16 buf, (i : Int)))),
        (name% "result", Val.str .c32 (units32 res))])
      (fun i res => (toUcs4From16Loop (buf.drop i) res).out fun l => K (.str .c32 (units32 l)) [none])
      (fun i _ => buf.length - i) (fun _ _ => True)
    · intro n i res _ IH
      clear h
      run [rounds_succ, IH, isFirstHalfUtf16_c16, isSecondHalfUtf16_c16, rawDecodeUtf16_c16] <;> again <;> drops <;> simp only [toUcs4From16Loop_nil, toUcs4From16Loop_cons, zero16] <;> settle <;> leaf
    · trivial
    · omega
    · rfl
  · reads
    rfl

theorem toUcs2From8Loop_none {buf : List Byte} {i : Nat} {res : List U16} (h : buf.length ≤ i) :
    toUcs2From8Loop (buf.drop i) res = .ub := by
  rw [drop_none h, toUcs2From8Loop]

/-- One round of the loop in the model by hand. -/
theorem toUcs2From8Loop_drop {buf : List Byte} {i : Nat} {b : Byte} {res : List U16} (h : buf[i]? = some b) :
    toUcs2From8Loop (buf.drop i) res =
    if b.toNat = 0 then .ok res
    else
      (decodeUtf8 (buf.drop i)).bind fun x =>
      match x with
      | (_, none) => .ok []
      | (c, some q) =>
        if c.toNat > 0xffff then .ok [] else
        if c.toNat = 0 then .ok res
        else toUcs2From8Loop q.tail (res ++ [BitVec.ofNat 16 c.toNat]) := by
  rw [drop_some h, toUcs2From8Loop]
  simp only [zero8, zero32]
  congr 2
  split
  · next e => rw [e]; rfl
  · next e => rw [e]; rfl
  · next e => rw [e]; rfl

theorem toUcs2_8_null : call% (d + 4) "toUcs2" [.ptr .char none] K =
    (Ansak.toUcs2From8 none).out fun l => K (.str .c16 (units16 l)) [none] := by
  enter Ast.toUcs2_8
  run
  leaf

theorem toUcs2_8_call (buf : List Byte) (hr : buf.length < r) :
    call% (d + 4) "toUcs2" [.ptr .char (some (units8 sc buf, ((0 : Nat) : Int)))] K =
    (Ansak.toUcs2From8 (some buf)).out fun l => K (.str .c16 (units16 l)) [none] := by
  enter Ast.toUcs2_8
  by_hand [Ansak.toUcs2From8, ifNonEmpty]
  run
  · reads
    by_hand [Res.bind, zero8]
    settle
    leaf
  · reads
    by_hand [Res.bind, zero8]
    settle
    induct [0, []] (fun (i : Nat) (res : List U16) => [(name% "p", Val.ptr .char (some (units8 sc buf, (i : Int)))),
        (name% "result", Val.str .c16 (units16 res))])
      (fun i res => (toUcs2From8Loop (buf.drop i) res).out fun l => K (.str .c16 (units16 l)) [none])
      (fun i _ => buf.length - i) (fun _ _ => True)
    · intro n i res _ IH
      clear h
      run [rounds_succ, IH] <;> again <;> first
        | (rw [toUcs2From8Loop_none ‹buf.length ≤ i›]; rfl)
        | (rw [toUcs2From8Loop_drop ‹buf[i]? = some _›]; settle; (try rw [‹decodeUtf8 (buf.drop i) = _›]); (try simp only [Res.bind, tail_drop]); settle; leaf)
    · trivial
    · omega
    · rfl
  · reads
    rfl

theorem toUtf16From8Loop_none {buf : List Byte} {i : Nat} {res : List U16} (h : buf.length ≤ i) :
    toUtf16From8Loop (buf.drop i) res = .ub := by
  rw [drop_none h, toUtf16From8Loop]

/-- One round of the loop in the model by hand. -/
theorem toUtf16From8Loop_drop {buf : List Byte} {i : Nat} {b : Byte} {res : List U16} (h : buf[i]? = some b) :
    toUtf16From8Loop (buf.drop i) res =
    if b.toNat = 0 then .ok res
    else
      (decodeUtf8 (buf.drop i)).bind fun x =>
      match x with
      | (_, none) => .ok []
      | (c, some q) =>
        if ¬ Ansak.isUtf16Encodable c.toNat then .ok [] else
        if c.toNat = 0 then .ok res
        else toUtf16From8Loop q.tail (res ++ Ansak.rawEncodeUtf16 c.toNat) := by
  rw [drop_some h, toUtf16From8Loop]
  simp only [zero8, zero32]
  congr 2
  split
  · next e => rw [e]; rfl
  · next e => rw [e]; rfl
  · next e => rw [e]; rfl

theorem toUtf16_8_null : call% (d + 4) "toUtf16" [.ptr .char none] K =
    (Ansak.toUtf16From8 none).out fun l => K (.str .c16 (units16 l)) [none] := by
  enter Ast.toUtf16_8
  run
  leaf

theorem toUtf16_8_call (buf : List Byte) (hr : buf.length < r) :
    call% (d + 4) "toUtf16" [.ptr .char (some (units8 sc buf, ((0 : Nat) : Int)))] K =
    (Ansak.toUtf16From8 (some buf)).out fun l => K (.str .c16 (units16 l)) [none] := by
  enter Ast.toUtf16_8
  by_hand [Ansak.toUtf16From8, ifNonEmpty]
  run
  · reads
    by_hand [Res.bind, zero8]
    settle
    leaf
  · reads
    by_hand [Res.bind, zero8]
    settle
    induct [0, []] (fun (i : Nat) (res : List U16) => [(name% "p", Val.ptr .char (some (units8 sc buf, (i : Int)))),
        (name% "result", Val.str .c16 (units16 res))])
      (fun i res => (toUtf16From8Loop (buf.drop i) res).out fun l => K (.str .c16 (units16 l)) [none])
      (fun i _ => buf.length - i) (fun _ _ => True)
    · intro n i res _ IH
      clear h
      run [rounds_succ, IH, isUtf16Encodable_c32, rawEncodeUtf16_c32] <;> again <;> first
        | (rw [toUtf16From8Loop_none ‹buf.length ≤ i›]; rfl)
        | (rw [toUtf16From8Loop_drop ‹buf[i]? = some _›]; settle; (try rw [‹decodeUtf8 (buf.drop i) = _›]); (try simp only [Res.bind, tail_drop]); settle; leaf)
    · trivial
    · omega
    · rfl
  · reads
    rfl

theorem toUcs4From8Loop_none {buf : List Byte} {i : Nat} {res : List U32} (h : buf.length ≤ i) :
    toUcs4From8Loop (buf.drop i) res = .ub := by
  rw [drop_none h, toUcs4From8Loop]

/-- One round of the loop in the model by hand. -/
theorem toUcs4From8Loop_drop {buf : List Byte} {i : Nat} {b : Byte} {res : List U32} (h : buf[i]? = some b) :
    toUcs4From8Loop (buf.drop i) res =
    if b.toNat = 0 then .ok res
    else
      (decodeUtf8 (buf.drop i)).bind fun x =>
      match x with
      | (_, none) => .ok []
      | (c, some q) =>
        if c.toNat = 0 then .ok res
        else toUcs4From8Loop q.tail (res ++ [c]) := by
  rw [drop_some h, toUcs4From8Loop]
  simp only [zero8, zero32]
  congr 2
  split
  · next e => rw [e]; rfl
  · next e => rw [e]; rfl
  · next e => rw [e]; rfl

theorem toUcs4_8_null : call% (d + 4) "toUcs4" [.ptr .char none] K =
    (Ansak.toUcs4From8 none).out fun l => K (.str .c32 (units32 l)) [none] := by
  enter Ast.toUcs4_8
  run
  leaf

theorem toUcs4_8_call (buf : List Byte) (hr : buf.length < r) :
    call% (d + 4) "toUcs4" [.ptr .char (some (units8 sc buf, ((0 : Nat) : Int)))] K =
    (Ansak.toUcs4From8 (some buf)).out fun l => K (.str .c32 (units32 l)) [none] := by
  enter Ast.toUcs4_8
  by_hand [Ansak.toUcs4From8, ifNonEmpty]
  run
  · reads
    by_hand [Res.bind, zero8]
    settle
    leaf
  · reads
    by_hand [Res.bind, zero8]
    settle
    induct [0, []] (fun (i : Nat) (res : List U32) => [(name% "p", Val.ptr .char (some (units8 sc buf, (i : Int)))),
        (name% "result", Val.str .c32 (units32 res))])
      (fun i res => (toUcs4From8Loop (buf.drop i) res).out fun l => K (.str .c32 (units32 l)) [none])
      (fun i _ => buf.length - i) (fun _ _ => True)
    · intro n i res _ IH
      clear h
      run [rounds_succ, IH] <;> again <;> first
        | (rw [toUcs4From8Loop_none ‹buf.length ≤ i›]; rfl)
        | (rw [toUcs4From8Loop_drop ‹buf[i]? = some _›]; settle; (try rw [‹decodeUtf8 (buf.drop i) = _›]); (try simp only [Res.bind, tail_drop]); settle; leaf)
    · trivial
    · omega
    · rfl
  · reads
    rfl

end Ansak.Cpp
