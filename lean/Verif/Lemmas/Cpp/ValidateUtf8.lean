import Verif.Lemmas.Cpp.Loops

/-! # The validator of UTF-8, executed from its syntax tree -/

namespace Ansak

/-- The number that `sequenceSizeCharStarts` returns for a byte. -/
def seqStart (uc : Byte) : Int :=
  if uc.toNat = 0 then 0
  else if uc.toNat ≤ 0x7f then 1
  else if uc.toNat ≤ 0xbf then -1
  else if uc.toNat ≤ 0xdf then 2
  else if uc.toNat ≤ 0xef then 3
  else if uc.toNat ≤ 0xf7 then 4
  else if uc.toNat ≤ 0xfb then 5
  else if uc.toNat ≤ 0xfd then 6
  else -1

/-- The same as an `unsigned int`. -/
def seqUnits (uc : Byte) : U32 := BitVec.ofInt 32 (seqStart uc)

end Ansak

namespace Ansak.Cpp


variable {E : Sealed} {X : Externals} {sc : Bool} {r d : Nat} {K : Val → List (Option Val) → Out} {w : Bool} {s : List Int}
variable {U : CharClass} {lower turkic : U32 → U32}

theorem convert_uint {sc : Bool} {s : Ty} {n : Int} (h : Ty.includes sc .uint s = false) :
    convert sc s .uint n = ((BitVec.ofInt 32 n).toNat : Int) := by
  unfold convert
  rw [h, cond_false, BitVec.toNat_ofInt]
  show n % (4294967296 : Nat) = _
  rw [Int.toNat_of_nonneg (Int.emod_nonneg _ (by decide))]

@[cpp_rule] theorem convertTo_seqStart {sc : Bool} (c : Byte) (k : Int → Out) :
    convertTo sc .int .uint (seqStart c) k = k ((seqUnits c).toNat : Int) := by
  unfold convertTo
  rw [convert_uint rfl, seqUnits]

@[cpp_rule] theorem convertTo_difference {sc : Bool} (a : Nat) (b : Int) (k : Int → Out) :
    convertTo sc .long .uint ((a : Int) - b) k = k ((BitVec.ofInt 32 ((a : Int) - b)).toNat : Int) := by
  unfold convertTo
  rw [convert_uint (by cases sc <;> decide +kernel)]

theorem movedBack_int (E : Sealed) (i n : Int) (k : Int → Out) : E.movedBack i n k = k (i - n) := by rw [E.movedBack_eq]; rfl

@[cpp_rule] theorem minus_one {sc : Bool} {k : Val → Out} :
    arith .int (-convert sc .int (promote .int) ((1 : Nat) : Int)) k = k (.int .int (-1)) := by
  rw [show promote .int = .int from rfl, convert_self]; rfl

@[cpp_rule] theorem convertTo_self_int {sc : Bool} {t : Ty} {n : Int} {k : Int → Out} : convertTo sc t t n k = k n :=
  convertTo_self sc t n k

seal_rules

theorem toUnsigned_seqStart (c : Byte) : toUnsigned (seqStart c) = (seqUnits c).toNat := by
  rw [seqUnits, BitVec.toNat_ofInt]; rfl

theorem sequenceSize_cons (c : Byte) (l : List Byte) : Ansak.sequenceSizeCharStarts (c :: l) = .ok (seqStart c) := rfl

theorem sequenceSizeCharStarts_call {buf : List Byte} {i : Nat} {c : Byte} (h : buf[i]? = some c) :
    call% (d + 1) "sequenceSizeCharStarts" [.ptr .char (some (units8 sc buf, (i : Int)))] K =
    K (.int .int (seqStart c)) [none] := by
  enter Ast.sequenceSizeCharStarts_8
  run <;> unfold seqStart <;> settle <;> leaf

theorem readAt_drop {α : Type} (l : List α) (i k : Nat) : readAt (l.drop i) k = readAt l (i + k) := by
  unfold readAt; rw [List.getElem?_drop]

theorem isFirstHalfUtf16AsUtf8_call (buf : List Byte) (i : Nat) :
    call% (d + 2) "isFirstHalfUtf16AsUtf8" [.ptr .char (some (units8 sc buf, (i : Int)))] K =
    (Ansak.isFirstHalfUtf16AsUtf8 (buf.drop i)).out fun b => K (ofBool b) [none] := by
  enter Ast.isFirstHalfUtf16AsUtf8_8
  run [rawDecodeUtf8_3_uchar, isFirstHalfUtf16_c16] <;> simp only [Ansak.isFirstHalfUtf16AsUtf8, readAt_drop] <;>
    (repeat (reads; simp only [Res.bind])) <;> leaf

theorem isSecondHalfUtf16AsUtf8_call (buf : List Byte) (i : Nat) :
    call% (d + 2) "isSecondHalfUtf16AsUtf8" [.ptr .char (some (units8 sc buf, (i : Int)))] K =
    (Ansak.isSecondHalfUtf16AsUtf8 (buf.drop i)).out fun b => K (ofBool b) [none] := by
  enter Ast.isSecondHalfUtf16AsUtf8_8
  run [rawDecodeUtf8_3_uchar, isSecondHalfUtf16_c16] <;> simp only [Ansak.isSecondHalfUtf16AsUtf8, readAt_drop] <;>
    (repeat (reads; simp only [Res.bind])) <;> leaf

@[cpp_split] theorem isFirstHalfUtf16AsUtf8_split {buf : List Byte} {i : Nat} {R : Out}
    (h1 : ∀ b, Ansak.isFirstHalfUtf16AsUtf8 (buf.drop i) = .ok b → K (ofBool b) [none] = R)
    (h2 : Ansak.isFirstHalfUtf16AsUtf8 (buf.drop i) = .ub → Out.ub = R) :
    call% (d + 2) "isFirstHalfUtf16AsUtf8" [.ptr .char (some (units8 sc buf, (i : Int)))] K = R := by
  rw [isFirstHalfUtf16AsUtf8_call]
  cases h : Ansak.isFirstHalfUtf16AsUtf8 (buf.drop i) with
  | ub => exact h2 h
  | ok b => exact h1 b h

@[cpp_split] theorem isSecondHalfUtf16AsUtf8_split {buf : List Byte} {i : Nat} {R : Out}
    (h1 : ∀ b, Ansak.isSecondHalfUtf16AsUtf8 (buf.drop i) = .ok b → K (ofBool b) [none] = R)
    (h2 : Ansak.isSecondHalfUtf16AsUtf8 (buf.drop i) = .ub → Out.ub = R) :
    call% (d + 2) "isSecondHalfUtf16AsUtf8" [.ptr .char (some (units8 sc buf, (i : Int)))] K = R := by
  rw [isSecondHalfUtf16AsUtf8_call]
  cases h : Ansak.isSecondHalfUtf16AsUtf8 (buf.drop i) with
  | ub => exact h2 h
  | ok b => exact h1 b h

section
variable {lt : Bool} {f ll pl i : Nat} {p : Pred} {buf : List Byte} {b : Byte}

theorem isUtf8Loop_none (h : buf.length ≤ i) : isUtf8Loop U lt f p (buf.drop i) ll pl = .ub := by
  rw [drop_none h, isUtf8Loop]

/-- One round of the loop in the model by hand. -/
theorem isUtf8Loop_drop (h : buf[i]? = some b) : isUtf8Loop U lt f p (buf.drop i) ll pl =
    if b.toNat = 0 then .ok (!lt)
    else if getRangeFlag8 b.toNat &&& f = 0 then .ok false
    else
      (seqCheckIf lt (buf.drop i) ll).bind fun c =>
      match c with
      | .outOfOrder => .ok false
      | .outOfSpace => .ok true
      | .go seqStarts =>
        (decodeUtf8 (buf.drop i)).bind fun x =>
        match x with
        | (_, none) => .ok false
        | (c, some q) =>
          if c.toNat = 0 then (readAt q 0).bind fun b' => .ok (b' == 0)
          else if lt ∧ seqStarts ≠ (pl - q.length) % 4294967296 then .ok false
          else if getCharEncodableRangeFlags c.toNat &&& f = 0 ∨ (¬ p.eq Pred.none ∧ ¬ p.call32 U c.toNat) then
            .ok false
          else if lt then
            if ll ≤ (pl - q.length) % 4294967296 then .ok true
            else isUtf8Loop U lt f p q.tail (ll - (pl - q.length) % 4294967296) q.length
          else isUtf8Loop U lt f p q.tail ll pl := by
  rw [drop_some h, isUtf8Loop]
  simp only [zero8, zero32]
  congr 2
  cases seqCheckIf lt (b :: buf.drop (i + 1)) ll with
  | ub => rfl
  | ok c =>
    cases c with
    | outOfOrder => rfl
    | outOfSpace => rfl
    | go n =>
      dsimp only [Res.bind]
      split
      · next e => rw [e]
      · next e => rw [e]
      · next e => rw [e]

end

theorem beq_zero8 (c : Byte) : (c == 0) = decide (c.toNat = 0) := by
  rw [Bool.eq_iff_iff, beq_iff_eq, decide_eq_true_iff, zero8]

set_option hygiene false in
/-- The end of a case: follow the round in the model by hand. -/
macro "utf8_leaf" : tactic => `(tactic| first
  | (rw [isUtf8Loop_none ‹buf.length ≤ i›]; rfl)
  | (exfalso; omega)
  | (rw [isUtf8Loop_drop ‹buf[i]? = some _›]
     simp only [Res.bind, seqCheckIf, Bool.false_eq_true, false_and, ite_false, ite_true]
     settle
     try rw [‹decodeUtf8 (buf.drop i) = _›]
     try simp only [readAt_drop, Nat.add_zero, tail_drop]
     settle
     try (reads; simp only [beq_zero8])
     leaf))

theorem isUtf8_null (len : U32) (t : Int) (p : Pred) :
    call% (d + 4) "isUtf8" [.ptr .char none, .int .uint len.toNat, rangeType t, predVal p] K =
    (Ansak.isUtf8Internal U none len t p).out fun b => K (ofBool b) [none, none, none, none] := by
  enter Ast.isUtf8_8_Len_E_Pred
  run <;> simp only [Ansak.isUtf8Internal, lt_kAscii, gt_kUnicode] <;> settle <;> leaf

/-- The scan of a string that ends with a NUL. -/
theorem isUtf8_zero (hX : X.Are sc U lower turkic) (buf : List Byte) (t : Int) (p : Pred) (hr : buf.length < r) :
    call% (d + 4) "isUtf8" [.ptr .char (some (units8 sc buf, ((0 : Nat) : Int))), .int .uint ((0 : Nat) : Int),
      rangeType t, predVal p] K =
    (Ansak.isUtf8Internal U (some buf) 0 t p).out fun b => K (ofBool b) [none, none, none, none] := by
  enter Ast.isUtf8_8_Len_E_Pred
  by_hand [Ansak.isUtf8Internal, lt_kAscii, gt_kUnicode]
  rcases rangeType_cases t with ht | ⟨t, rfl, ht⟩
  · settle
    rcases ht with ht | ht <;> run <;> leaf
  settle
  have := rangeTypeFlag_le t
  run [equals_none, construct_default, movedBack_int]
  · reads
    by_hand [Res.bind, zero8]
    settle
    leaf
  · reads
    by_hand [Res.bind, zero8]
    settle
    induct [0] (fun (i : Nat) => [(name% "p", Val.ptr .char (some (units8 sc buf, (i : Int))))])
      (fun i => (isUtf8Loop U false (rangeTypeToRangeFlag t) p (buf.drop i) 0 (buf.length + 1)).out
        fun b => K (ofBool b) [none, none, none, none])
      (fun i => buf.length - i) (fun _ => True)
    · intro n i _ IH
      clear h
      run [rounds_succ, IH, getRangeFlag_char, sequenceSizeCharStarts_call, getCharEncodableRangeFlags_c32,
        apply_c32 hX] <;> clear IH <;> utf8_leaf
    · trivial
    · omega
    · rfl
  · reads
    rfl

theorem sequenceSize_drop {buf : List Byte} {i : Nat} {c : Byte} (h : buf[i]? = some c) :
    Ansak.sequenceSizeCharStarts (buf.drop i) = .ok (seqStart c) := by
  rw [drop_some h, sequenceSize_cons]

theorem used_eq {buf : List Byte} {i q : Nat} {j : Int} (h1 : i ≤ q) (h2 : j = (i : Int) - 1) (h3 : q < buf.length) :
    (buf.length - i + 1 - (buf.drop q).length) % 4294967296 = (BitVec.ofInt 32 ((q : Int) - j)).toNat := by
  rw [BitVec.toNat_ofInt, List.length_drop, h2]
  omega

theorem left_eq {buf : List Byte} {q : Nat} (h : q < buf.length) :
    (buf.drop q).length = buf.length - (q + 1) + 1 := by
  rw [List.length_drop]; omega

/-- One round of a scan of a given number of units in the model by hand. -/
theorem isUtf8Loop_true {f ll pl i : Nat} {p : Pred} {buf : List Byte} {b : Byte} (h : buf[i]? = some b) :
    isUtf8Loop U true f p (buf.drop i) ll pl =
    if b.toNat = 0 then .ok false
    else if getRangeFlag8 b.toNat &&& f = 0 then .ok false
    else
      (if (seqUnits b).toNat = 3 then
        (if ll > 1 then Ansak.isSecondHalfUtf16AsUtf8 (buf.drop i) else .ok false).bind fun second =>
        if second = true then .ok SeqCheck.outOfOrder
        else
          (if ll ≥ 3 then Ansak.isFirstHalfUtf16AsUtf8 (buf.drop i) else .ok false).bind fun first =>
          if first = true then (if 6 > ll then .ok SeqCheck.outOfSpace else .ok (SeqCheck.go 6))
          else if (seqUnits b).toNat > ll then .ok SeqCheck.outOfSpace else .ok (SeqCheck.go (seqUnits b).toNat)
      else if (seqUnits b).toNat > ll then .ok SeqCheck.outOfSpace
      else .ok (SeqCheck.go (seqUnits b).toNat)).bind fun c =>
      match c with
      | .outOfOrder => .ok false
      | .outOfSpace => .ok true
      | .go seqStarts =>
        (decodeUtf8 (buf.drop i)).bind fun x =>
        match x with
        | (_, none) => .ok false
        | (c, some q) =>
          if c.toNat = 0 then (readAt q 0).bind fun b' => .ok (decide (b'.toNat = 0))
          else if seqStarts ≠ (pl - q.length) % 4294967296 then .ok false
          else if getCharEncodableRangeFlags c.toNat &&& f = 0 ∨ (¬ p.eq Pred.none ∧ ¬ p.call32 U c.toNat) then
            .ok false
          else if ll ≤ (pl - q.length) % 4294967296 then .ok true
          else isUtf8Loop U true f p q.tail (ll - (pl - q.length) % 4294967296) q.length := by
  rw [isUtf8Loop_drop h]
  simp only [seqCheckIf, seqCheck, Bool.not_true, true_and, ite_true, beq_zero8]
  rw [sequenceSize_drop h]
  simp only [Res.bind, toUnsigned_seqStart]
  congr 2
  by_cases h3 : (seqUnits b).toNat = 3
  · rw [if_pos h3, if_pos h3]
    generalize (if ll > 1 then _ else _) = x
    generalize (if ll ≥ 3 then _ else _) = y
    cases x with
    | ub => rfl
    | ok x =>
      cases y with
      | ub => rfl
      | ok y => cases y <;> rfl
  · rw [if_neg h3, if_neg h3]

set_option maxHeartbeats 1000000 in
/-- The scan of a given number of units. -/
theorem isUtf8_length (hX : X.Are sc U lower turkic) (buf : List Byte) (len : U32) (hl : len.toNat ≠ 0) (t : Int) (p : Pred)
    (hr : buf.length < r) :
    call% (d + 4) "isUtf8" [.ptr .char (some (units8 sc buf, ((0 : Nat) : Int))), .int .uint (len.toNat : Int),
      rangeType t, predVal p] K =
    (Ansak.isUtf8Internal U (some buf) len t p).out fun b => K (ofBool b) [none, none, none, none] := by
  enter Ast.isUtf8_8_Len_E_Pred
  by_hand [Ansak.isUtf8Internal, lt_kAscii, gt_kUnicode]
  rcases rangeType_cases t with ht | ⟨t, rfl, ht⟩
  · settle
    rcases ht with ht | ht <;> run <;> leaf
  settle
  have := rangeTypeFlag_le t
  run [equals_none, construct_default, movedBack_int]
  · reads
    by_hand [Res.bind, zero8]
    settle
    leaf
  · reads
    by_hand [Res.bind, zero8]
    settle
    induct [0, len.toNat, ((0 : Nat) : Int) - ((1 : Nat) : Int), ((0 : Nat) : Int)]
      (fun (i ll : Nat) (j u : Int) => [(name% "p", Val.ptr .char (some (units8 sc buf, (i : Int)))),
        (name% "lengthLeft", Val.int .uint (ll : Int)), (name% "pLast", Val.ptr .char (some (units8 sc buf, j))),
        (name% "usedThisTime", Val.int .uint u)])
      (fun i ll _ _ => (isUtf8Loop U true (rangeTypeToRangeFlag t) p (buf.drop i) ll (buf.length - i + 1)).out
        fun b => K (ofBool b) [none, none, none, none])
      (fun i _ _ _ => buf.length - i) (fun i ll j _ => j = (i : Int) - 1 ∧ ll < 4294967296)
    · intro n i ll j u hj IH
      obtain ⟨hj, hll⟩ := hj
      clear h
      run [rounds_succ, IH, getRangeFlag_char, sequenceSizeCharStarts_call, getCharEncodableRangeFlags_c32,
        apply_c32 hX, movedBack_int] <;> clear IH <;> first
        | (rw [isUtf8Loop_none ‹buf.length ≤ i›]; rfl)
        | (rw [isUtf8Loop_true ‹buf[i]? = some _›]
           settle
           try rw [‹Ansak.isSecondHalfUtf16AsUtf8 (buf.drop i) = _›]
           try rw [‹Ansak.isFirstHalfUtf16AsUtf8 (buf.drop i) = _›]
           try rw [‹decodeUtf8 (buf.drop i) = _›]
           try simp only [Res.bind]
           settle
           try simp only [readAt_drop, Nat.add_zero, tail_drop]
           try (rw [used_eq (h2 := hj)] <;> try assumption)
           try (rw [left_eq] <;> try assumption)
           settle
           try reads
           leaf)
        | (exfalso; omega)
        | (rw [decide_eq_false hl, isUtf8Loop_true ‹buf[i]? = some _›]; settle; leaf)
    · refine ⟨rfl, len.isLt⟩
    · omega
    · rw [show (len != 0) = true from bne_iff_ne.mpr fun e => hl (by rw [e]; rfl)]
      rfl
  · reads
    rfl

/-- The validator of UTF-8, executed from its text. -/
theorem isUtf8_call (hX : X.Are sc U lower turkic) (buf : List Byte) (len : U32) (t : Int) (p : Pred)
    (hr : buf.length < r) :
    call% (d + 4) "isUtf8" [.ptr .char (some (units8 sc buf, ((0 : Nat) : Int))), .int .uint (len.toNat : Int),
      rangeType t, predVal p] K =
    (Ansak.isUtf8Internal U (some buf) len t p).out fun b => K (ofBool b) [none, none, none, none] := by
  by_cases hl : len.toNat = 0
  · have : len = 0 := BitVec.eq_of_toNat_eq hl
    subst this
    exact isUtf8_zero hX buf t p hr
  · exact isUtf8_length hX buf len hl t p hr

end Ansak.Cpp
