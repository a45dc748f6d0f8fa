import Verif.Model.UnicodeLength
import Verif.Lemmas.Cpp.Validate
import Verif.Lemmas.Cpp.ValidateUtf8

/-! # `unicodeLength`, executed from its syntax trees -/

namespace Ansak.Cpp

variable {E : Sealed} {X : Externals} {sc : Bool} {r d : Nat} {K : Val → List (Option Val) → Out} {w : Bool} {s : List Int}

/-- Arithmetic on the counter, which may wrap. -/
@[cpp_rule] theorem uintOf_add {sc : Bool} (n : Nat) (k : Val → Out) :
    binaryInt sc .add .uint ((uintOf n).toNat : Int) .int ((1 : Nat) : Int) k =
    k (.int .uint ((uintOf (n + 1)).toNat : Int)) := by
  rw [binaryInt_nat (u := .uint) (m := 4294967296) k rfl rfl (BitVec.isLt _) (by decide) (by decide) (by decide)]
  simp only [uintOf, BitVec.toNat_ofNat]
  show k (.int .uint (((n % 4294967296 : Nat) + (1 : Nat) : Int) % (4294967296 : Nat))) = _
  rw [← Int.natCast_add, ← Int.natCast_emod]
  congr 3
  omega

@[cpp_rule] theorem uintOf_sub {sc : Bool} (n : Nat) (k : Val → Out) :
    binaryInt sc .sub .uint ((uintOf n).toNat : Int) .int ((1 : Nat) : Int) k =
    k (.int .uint ((uintOf n - 1 : U32).toNat : Int)) := by
  rw [binaryInt_nat (u := .uint) (m := 4294967296) k rfl rfl (BitVec.isLt _) (by decide) (by decide) (by decide)]
  rw [BitVec.toNat_sub]
  show k (.int .uint ((((uintOf n).toNat : Int) - (1 : Nat) : Int) % (4294967296 : Nat))) = _
  congr 2
  have := (uintOf n).isLt
  show _ = (((2 ^ 32 - 1 + (uintOf n).toNat) % 2 ^ 32 : Nat) : Int)
  omega

@[cpp_rule] theorem samePtr_nat {a b : List Int} (i j : Nat) (t u : Ty) (k : Val → Out) :
    binary sc .eq (.ptr t (some (a, (i : Int)))) (.ptr u (some (b, (j : Int)))) k = k (ofBool (decide (i = j))) := by
  show k (ofBool (decide ((i : Int) = j))) = _
  simp only [Int.natCast_inj]

/-- Subtraction that may wrap. -/
@[cpp_rule] theorem usub_call {sc : Bool} (a b : U32) (k : Val → Out) :
    binaryInt sc .sub .uint (a.toNat : Int) .uint (b.toNat : Int) k = k (.int .uint ((a - b : U32).toNat : Int)) := by
  rw [binaryInt_nat (u := .uint) (m := 4294967296) k rfl rfl (BitVec.isLt _) (BitVec.isLt _) (by decide) (by decide)]
  rw [BitVec.toNat_sub]
  show k (.int .uint (((a.toNat : Int) - (b.toNat : Int)) % (4294967296 : Nat))) = _
  congr 2
  have := a.isLt
  have := b.isLt
  show _ = (((2 ^ 32 - b.toNat + a.toNat) % 2 ^ 32 : Nat) : Int)
  omega

@[cpp_rule] theorem unicode_and {sc : Bool} {x y c : Nat} {k : Val → Out} :
    binaryInt sc .bitAnd (.enum x) ((32 : Nat) : Int) (.enum y) (getCharEncodableRangeFlags c : Nat) k =
    k (.int .int (32 &&& getCharEncodableRangeFlags c : Nat)) :=
  bitAnd_nat k (u := .int) rfl rfl (show 32 < 2147483648 by omega)
    (show _ < 2147483648 by have := charFlags_le c; omega)

@[cpp_rule] theorem unicode_and_eq {sc : Bool} {c : Nat} {k : Val → Out} :
    binaryInt sc .eq .int (32 &&& c : Nat) .int ((0 : Nat) : Int) k = k (ofBool (decide (32 &&& c = 0))) :=
  eq_nat k (u := .int) rfl rfl (show _ < 2147483648 by have := @Nat.and_le_left 32 c; omega) (by decide)

seal_rules

attribute [local irreducible] usub

theorem usub_eq (a b : U32) : (a - b : U32).toNat = usub a.toNat b.toNat := by
  rw [BitVec.toNat_sub, usub]
  have := a.isLt
  have := b.isLt
  omega

theorem bne32 (len : U32) : (len != 0) = !decide (len.toNat = 0) := by
  rw [bne, Bool.not_inj_iff, Bool.eq_iff_iff, beq_iff_eq, decide_eq_true_iff, zero32]

theorem unicodeLength_32_null (len : U32) (hr : 0 < r) :
    call% (d + 2) "unicodeLength" [.ptr .c32 none, .int .uint (len.toNat : Int)] K =
    (Ansak.unicodeLength32 none len).out fun n => K (.int .uint (n.toNat : Int)) [none, none] := by
  enter Ast.unicodeLength_32_Len
  run
  induct [()] (fun (_ : Unit) => []) (fun _ => Out.ub) (fun _ => 0) (fun _ => True)
  · intro n i _ IH
    run [rounds_succ]
    rfl
  · trivial
  · omega
  · rfl

theorem unicodeLength_32_call (buf : List U32) (len : U32) (hr : buf.length < r) :
    call% (d + 2) "unicodeLength" [.ptr .c32 (some (units32 buf, ((0 : Nat) : Int))), .int .uint (len.toNat : Int)] K =
    (Ansak.unicodeLength32 (some buf) len).out fun n => K (.int .uint (n.toNat : Int)) [none, none] := by
  enter Ast.unicodeLength_32_Len
  by_hand [Ansak.unicodeLength32, bne32]
  run
  induct [0] (fun (i : Nat) => [(name% "p", Val.ptr .c32 (some (units32 buf, (i : Int)))),
        (name% "r", Val.int .uint ((uintOf i).toNat : Int))])
      (fun i => (unicodeLength32Loop (!decide (len.toNat = 0)) len.toNat (buf.drop i) i).out
        fun n => K (.int .uint (n.toNat : Int)) [none, none])
      (fun i => buf.length - i) (fun _ => True)
  · intro n i _ IH
    run [rounds_succ, IH, isFirstHalfUtf16_c32, isSecondHalfUtf16_c32] <;> clear IH <;> first
      | (drops; simp only [unicodeLength32Loop, zero32]; settle; leaf)
  · trivial
  · omega
  · rfl

theorem unicodeLength_16_null (len : U32) :
    call% (d + 2) "unicodeLength" [.ptr .c16 none, .int .uint (len.toNat : Int)] K =
    (Ansak.unicodeLength16 none len).out fun n => K (.int .uint (n.toNat : Int)) [none, none] := by
  enter Ast.unicodeLength_16_Len
  run
  rfl

theorem unicodeLength16Loop_none {lt : Bool} {buf : List U16} {i ll n : Nat} (h : buf.length ≤ i) :
    unicodeLength16Loop lt (buf.drop i) ll n = .ub := by
  rw [drop_none h, unicodeLength16Loop]

/-- One round of the loop in the model by hand. -/
theorem unicodeLength16Loop_drop {lt : Bool} {buf : List U16} {i ll n : Nat} {c : U16} (h : buf[i]? = some c) :
    unicodeLength16Loop lt (buf.drop i) ll n =
    if c.toNat = 0 then .ok (if lt then 0 else uintOf n)
    else if Ansak.isSecondHalfUtf16 c.toNat then .ok 0
    else if lt = true ∧ Ansak.isFirstHalfUtf16 c.toNat = true ∧ 2 > ll then .ok (uintOf n)
    else if lt = true ∧ Ansak.isFirstHalfUtf16 c.toNat = false ∧ 1 > ll then .ok (uintOf n)
    else
      (buf[i + 1]?).elim .ub fun c1 =>
        if Ansak.isFirstHalfUtf16 c.toNat then
          if c1.toNat = 0 then .ok (uintOf n - 1)
          else if Ansak.isSecondHalfUtf16 c1.toNat then
            if lt then
              if ll = 2 then .ok (uintOf (n + 1)) else unicodeLength16Loop lt (buf.drop (i + 1 + 1)) (usub ll 2) (n + 1)
            else unicodeLength16Loop lt (buf.drop (i + 1 + 1)) ll (n + 1)
          else .ok 0
        else
          if lt then
            if ll = 1 then .ok (uintOf (n + 1)) else unicodeLength16Loop lt (buf.drop (i + 1)) (usub ll 1) (n + 1)
          else unicodeLength16Loop lt (buf.drop (i + 1)) ll (n + 1) := by
  rw [drop_some h, unicodeLength16Loop.eq_def]
  simp only [zero16]
  have e : ∀ (x : Res U32), (if lt = true ∧ (if Ansak.isFirstHalfUtf16 c.toNat then 2 else 1) > ll then .ok (uintOf n) else x) =
      if lt = true ∧ Ansak.isFirstHalfUtf16 c.toNat = true ∧ 2 > ll then .ok (uintOf n)
      else if lt = true ∧ Ansak.isFirstHalfUtf16 c.toNat = false ∧ 1 > ll then .ok (uintOf n) else x := by
    intro x
    cases Ansak.isFirstHalfUtf16 c.toNat <;> simp
  rw [e]
  by_cases hi : i + 1 < buf.length
  · rw [drop_some (List.getElem?_eq_getElem hi), List.getElem?_eq_getElem hi]
    rfl
  · rw [drop_none (by omega), List.getElem?_eq_none (by omega)]
    rfl

theorem unicodeLength_16_zero (buf : List U16) (hr : buf.length < r) :
    call% (d + 2) "unicodeLength" [.ptr .c16 (some (units16 buf, ((0 : Nat) : Int))), .int .uint ((0 : Nat) : Int)] K =
    (Ansak.unicodeLength16 (some buf) 0).out fun n => K (.int .uint (n.toNat : Int)) [none, none] := by
  enter Ast.unicodeLength_16_Len
  by_hand [Ansak.unicodeLength16]
  run [movedBack_int]
  induct [0, 0] (fun (i n : Nat) => [(name% "p", Val.ptr .c16 (some (units16 buf, (i : Int)))),
        (name% "r", Val.int .uint ((uintOf n).toNat : Int))])
      (fun i n => (unicodeLength16Loop false (buf.drop i) 0 n).out
        fun n => K (.int .uint (n.toNat : Int)) [none, none])
      (fun i _ => buf.length - i) (fun _ _ => True)
  · intro m i n _ IH
    run [rounds_succ, IH, isFirstHalfUtf16_c16, isSecondHalfUtf16_c16] <;> clear IH <;> first
      | (rw [unicodeLength16Loop_none ‹buf.length ≤ i›]; rfl)
      | (rw [unicodeLength16Loop_drop ‹buf[i]? = some _›]
         settle
         try rw [‹buf[i + 1]? = some _›]
         try rw [List.getElem?_eq_none ‹buf.length ≤ i + 1›]
         try simp only [Option.elim]
         settle
         leaf)
  · trivial
  · omega
  · rfl

theorem used1 {i : Nat} {j : Int} (h : j = (i : Int) - 1) : (BitVec.ofInt 32 ((i : Int) - j)).toNat = 1 := by
  rw [h, show (i : Int) - (i - 1) = 1 by omega]; rfl
theorem used2 {i : Nat} {j : Int} (h : j = (i : Int) - 1) : (BitVec.ofInt 32 (((i + 1 : Nat) : Int) - j)).toNat = 2 := by
  rw [h, show ((i + 1 : Nat) : Int) - (i - 1) = 2 by omega]; rfl

theorem unicodeLength_16_length (buf : List U16) (len : U32) (hl : len.toNat ≠ 0) (hr : buf.length < r) :
    call% (d + 2) "unicodeLength" [.ptr .c16 (some (units16 buf, ((0 : Nat) : Int))), .int .uint (len.toNat : Int)] K =
    (Ansak.unicodeLength16 (some buf) len).out fun n => K (.int .uint (n.toNat : Int)) [none, none] := by
  enter Ast.unicodeLength_16_Len
  by_hand [Ansak.unicodeLength16]
  run [movedBack_int]
  induct [0, len, ((0 : Nat) : Int) - ((1 : Nat) : Int), ((0 : Nat) : Int), 0]
      (fun (i : Nat) (ll : U32) (j u : Int) (n : Nat) => [(name% "p", Val.ptr .c16 (some (units16 buf, (i : Int)))),
        (name% "lengthLeft", Val.int .uint (ll.toNat : Int)), (name% "pLast", Val.ptr .c16 (some (units16 buf, j))),
        (name% "usedThisTime", Val.int .uint u), (name% "r", Val.int .uint ((uintOf n).toNat : Int))])
      (fun i ll _ _ n => (unicodeLength16Loop true (buf.drop i) ll.toNat n).out
        fun n => K (.int .uint (n.toNat : Int)) [none, none])
      (fun i _ _ _ _ => buf.length - i) (fun i _ j _ _ => j + 1 ≤ (i : Int) ∧ (i : Int) ≤ j + 1)
  · intro m i ll j u n hj IH
    replace hj : j = (i : Int) - 1 := by omega
    run [rounds_succ, IH, isFirstHalfUtf16_c16, isSecondHalfUtf16_c16, movedBack_int, usub_call.sealed] <;> clear IH <;> first
      | (rw [unicodeLength16Loop_none ‹buf.length ≤ i›]; rfl)
      | (rw [unicodeLength16Loop_drop ‹buf[i]? = some _›]
         settle
         try rw [‹buf[i + 1]? = some _›]
         try rw [List.getElem?_eq_none ‹buf.length ≤ i + 1›]
         try simp only [Option.elim]
         settle
         first
           | leaf
           | (simp only [used1 hj, used2 hj, usub_eq] at *; settle; leaf))
  · omega
  · omega
  · rw [show (len != 0) = true from bne_iff_ne.mpr fun e => hl (by rw [e]; rfl)]
    rfl

theorem unicodeLength_16_call (buf : List U16) (len : U32) (hr : buf.length < r) :
    call% (d + 2) "unicodeLength" [.ptr .c16 (some (units16 buf, ((0 : Nat) : Int))), .int .uint (len.toNat : Int)] K =
    (Ansak.unicodeLength16 (some buf) len).out fun n => K (.int .uint (n.toNat : Int)) [none, none] := by
  by_cases hl : len.toNat = 0
  · have : len = 0 := BitVec.eq_of_toNat_eq hl
    subst this
    exact unicodeLength_16_zero buf hr
  · exact unicodeLength_16_length buf len hl hr

/-! ## UTF-8 -/

theorem unicodeLength_8_null (len : U32) :
    call% (d + 4) "unicodeLength" [.ptr .char none, .int .uint (len.toNat : Int)] K =
    (Ansak.unicodeLength8 none len).out fun n => K (.int .uint (n.toNat : Int)) [none, none] := by
  enter Ast.unicodeLength_8_Len
  run
  rfl

theorem unicodeLength8Loop_none {lt : Bool} {buf : List Byte} {i ll pl n : Nat} (h : buf.length ≤ i) :
    unicodeLength8Loop lt (buf.drop i) ll pl n = .ub := by
  rw [drop_none h, unicodeLength8Loop]

/-- One round of the loop in the model by hand. -/
theorem unicodeLength8Loop_drop {lt : Bool} {buf : List Byte} {i ll pl n : Nat} {b : Byte} (h : buf[i]? = some b) :
    unicodeLength8Loop lt (buf.drop i) ll pl n =
    if b.toNat = 0 then .ok (if lt then 0 else uintOf n)
    else
      (if lt = true then
        (if (seqUnits b).toNat = 3 then
          (if ll > 1 then Ansak.isSecondHalfUtf16AsUtf8 (buf.drop i) else .ok false).bind fun second =>
          if second = true then .ok SeqCheck.outOfOrder
          else
            (if ll ≥ 3 then Ansak.isFirstHalfUtf16AsUtf8 (buf.drop i) else .ok false).bind fun first =>
            if first = true then (if 6 > ll then .ok SeqCheck.outOfSpace else .ok (SeqCheck.go 6))
            else if (seqUnits b).toNat > ll then .ok SeqCheck.outOfSpace else .ok (SeqCheck.go (seqUnits b).toNat)
        else if (seqUnits b).toNat > ll then .ok SeqCheck.outOfSpace
        else .ok (SeqCheck.go (seqUnits b).toNat)) else .ok (SeqCheck.go 0)).bind fun c =>
      match c with
      | .outOfOrder => .ok 0
      | .outOfSpace => .ok (uintOf n)
      | .go _ =>
        (decodeUtf8 (buf.drop i)).bind fun x =>
        match x with
        | (_, none) => .ok 0
        | (c, some q) =>
          if 32 &&& getCharEncodableRangeFlags c.toNat = 0 then .ok 0
          else if c.toNat = 0 then (readAt q 0).bind fun b' => .ok (if b'.toNat = 0 then uintOf n - 1 else 0)
          else if lt = true then
            if ll = (pl - q.length) % 4294967296 then .ok (uintOf (n + 1))
            else unicodeLength8Loop lt q.tail (usub ll ((pl - q.length) % 4294967296)) q.length (n + 1)
          else unicodeLength8Loop lt q.tail ll pl (n + 1) := by
  rw [drop_some h, unicodeLength8Loop]
  simp only [zero8, zero32, ← drop_some h]
  congr 2
  have e : seqCheckIf lt (buf.drop i) ll = (if lt = true then
        (if (seqUnits b).toNat = 3 then
          (if ll > 1 then Ansak.isSecondHalfUtf16AsUtf8 (buf.drop i) else .ok false).bind fun second =>
          if second = true then .ok SeqCheck.outOfOrder
          else
            (if ll ≥ 3 then Ansak.isFirstHalfUtf16AsUtf8 (buf.drop i) else .ok false).bind fun first =>
            if first = true then (if 6 > ll then .ok SeqCheck.outOfSpace else .ok (SeqCheck.go 6))
            else if (seqUnits b).toNat > ll then .ok SeqCheck.outOfSpace else .ok (SeqCheck.go (seqUnits b).toNat)
        else if (seqUnits b).toNat > ll then .ok SeqCheck.outOfSpace
        else .ok (SeqCheck.go (seqUnits b).toNat)) else .ok (SeqCheck.go 0)) := by
    rw [seqCheckIf, seqCheck, sequenceSize_drop h]
    simp only [Res.bind, toUnsigned_seqStart]
    congr 1
    by_cases h3 : (seqUnits b).toNat = 3
    · rw [if_pos h3, if_pos h3]
      generalize (if ll > 1 then _ else _) = x
      generalize (if ll ≥ 3 then _ else _) = y
      cases x with
      | ub => rfl
      | ok x =>
        cases y with
        | ub => rfl
        | ok y => cases y <;> rfl
    · rw [if_neg h3, if_neg h3]
  rw [← e]
  cases seqCheckIf lt (buf.drop i) ll with
  | ub => rfl
  | ok c =>
    cases c with
    | outOfOrder => rfl
    | outOfSpace => rfl
    | go n =>
      dsimp only [Res.bind]
      split
      · next e => rw [← drop_some h] at e; rw [e]
      · next e => rw [← drop_some h] at e; rw [e]
      · next e => rw [← drop_some h] at e; rw [e]; rfl

theorem unicodeLength_8_zero (buf : List Byte) (hr : buf.length < r) :
    call% (d + 4) "unicodeLength" [.ptr .char (some (units8 sc buf, ((0 : Nat) : Int))), .int .uint ((0 : Nat) : Int)] K =
    (Ansak.unicodeLength8 (some buf) 0).out fun n => K (.int .uint (n.toNat : Int)) [none, none] := by
  enter Ast.unicodeLength_8_Len
  by_hand [Ansak.unicodeLength8]
  run [movedBack_int]
  · reads
    by_hand [Res.bind, zero8]
    settle
    leaf
  · reads
    by_hand [Res.bind, zero8]
    settle
    induct [0, 0] (fun (i n : Nat) => [(name% "p", Val.ptr .char (some (units8 sc buf, (i : Int)))),
        (name% "r", Val.int .uint ((uintOf n).toNat : Int))])
      (fun i n => (unicodeLength8Loop false (buf.drop i) 0 (buf.length + 1) n).out
        fun n => K (.int .uint (n.toNat : Int)) [none, none])
      (fun i _ => buf.length - i) (fun _ _ => True)
    · intro m i n _ IH
      clear h
      run [rounds_succ, IH, getCharEncodableRangeFlags_c32] <;> clear IH <;> first
        | (rw [unicodeLength8Loop_none ‹buf.length ≤ i›]; rfl)
        | (rw [unicodeLength8Loop_drop ‹buf[i]? = some _›]
           settle
           try rw [‹Ansak.isSecondHalfUtf16AsUtf8 (buf.drop i) = _›]
           try rw [‹Ansak.isFirstHalfUtf16AsUtf8 (buf.drop i) = _›]
           try rw [‹decodeUtf8 (buf.drop i) = _›]
           try simp only [Res.bind]
           settle
           try simp only [readAt_drop, Nat.add_zero, tail_drop]
           settle
           try reads
           try simp only [Res.bind]
           settle
           leaf)
        | (exfalso; omega)
    · trivial
    · omega
    · rfl
  · reads
    rfl

set_option maxHeartbeats 1000000 in
theorem unicodeLength_8_length (buf : List Byte) (len : U32) (hl : len.toNat ≠ 0) (hr : buf.length < r) :
    call% (d + 4) "unicodeLength" [.ptr .char (some (units8 sc buf, ((0 : Nat) : Int))), .int .uint (len.toNat : Int)] K =
    (Ansak.unicodeLength8 (some buf) len).out fun n => K (.int .uint (n.toNat : Int)) [none, none] := by
  enter Ast.unicodeLength_8_Len
  by_hand [Ansak.unicodeLength8]
  run [movedBack_int]
  · reads
    by_hand [Res.bind, zero8]
    settle
    leaf
  · reads
    by_hand [Res.bind, zero8]
    settle
    induct [0, len, ((0 : Nat) : Int) - ((1 : Nat) : Int), ((0 : Nat) : Int), 0]
      (fun (i : Nat) (ll : U32) (j u : Int) (n : Nat) => [(name% "p", Val.ptr .char (some (units8 sc buf, (i : Int)))),
        (name% "lengthLeft", Val.int .uint (ll.toNat : Int)), (name% "pLast", Val.ptr .char (some (units8 sc buf, j))),
        (name% "usedThisTime", Val.int .uint u), (name% "r", Val.int .uint ((uintOf n).toNat : Int))])
      (fun i ll _ _ n => (unicodeLength8Loop true (buf.drop i) ll.toNat (buf.length - i + 1) n).out
        fun n => K (.int .uint (n.toNat : Int)) [none, none])
      (fun i _ _ _ _ => buf.length - i) (fun i _ j _ _ => j + 1 ≤ (i : Int) ∧ (i : Int) ≤ j + 1)
    · intro m i ll j u n hj IH
      replace hj : j = (i : Int) - 1 := by omega
      clear h
      run [rounds_succ, IH, sequenceSizeCharStarts_call, getCharEncodableRangeFlags_c32, movedBack_int,
        usub_call.sealed] <;> clear IH <;> first
        | (rw [unicodeLength8Loop_none ‹buf.length ≤ i›]; rfl)
        | (rw [unicodeLength8Loop_drop ‹buf[i]? = some _›]
           settle
           try rw [‹Ansak.isSecondHalfUtf16AsUtf8 (buf.drop i) = _›]
           try rw [‹Ansak.isFirstHalfUtf16AsUtf8 (buf.drop i) = _›]
           try rw [‹decodeUtf8 (buf.drop i) = _›]
           try simp only [Res.bind]
           settle
           try simp only [readAt_drop, Nat.add_zero, tail_drop]
           try (rw [used_eq (h2 := hj)] <;> try assumption)
           try (rw [left_eq] <;> try assumption)
           settle
           try reads
           try simp only [Res.bind]
           settle
           first | leaf | (rw [usub_eq]; leaf))
        | (exfalso; omega)
    · omega
    · omega
    · rw [show (len != 0) = true from bne_iff_ne.mpr fun e => hl (by rw [e]; rfl)]
      rfl
  · reads
    rfl

theorem unicodeLength_8_call (buf : List Byte) (len : U32) (hr : buf.length < r) :
    call% (d + 4) "unicodeLength" [.ptr .char (some (units8 sc buf, ((0 : Nat) : Int))), .int .uint (len.toNat : Int)] K =
    (Ansak.unicodeLength8 (some buf) len).out fun n => K (.int .uint (n.toNat : Int)) [none, none] := by
  by_cases hl : len.toNat = 0
  · have : len = 0 := BitVec.eq_of_toNat_eq hl
    subst this
    exact unicodeLength_8_zero buf hr
  · exact unicodeLength_8_length buf len hl hr

end Ansak.Cpp
