import Verif.Lemmas.Cpp.Loops

/-! # The validators, executed from their syntax trees -/

namespace Ansak.Cpp

variable {E : Sealed} {X : Externals} {sc : Bool} {r d : Nat} {K : Val → List (Option Val) → Out} {w : Bool} {s : List Int}
variable {U : CharClass} {lower turkic : U32 → U32}

theorem isUcs4_null (t : Int) (p : Pred) :
    call% (d + 4) "isUcs4" [.ptr .c32 none, rangeType t, predVal p] K =
    (Ansak.isUcs4 U none t p).out fun b => K (ofBool b) [none, none, none] := by
  enter Ast.isUcs4_32_E_Pred
  run <;> simp only [Ansak.isUcs4, lt_kAscii, gt_kUnicode] <;> settle <;> leaf

theorem isUcs4_call (hX : X.Are sc U lower turkic) (buf : List U32) (t : Int) (p : Pred) (hr : buf.length < r) :
    call% (d + 4) "isUcs4" [.ptr .c32 (some (units32 buf, ((0 : Nat) : Int))), rangeType t, predVal p] K =
    (Ansak.isUcs4 U (some buf) t p).out fun b => K (ofBool b) [none, none, none] := by
  enter Ast.isUcs4_32_E_Pred
  by_hand [Ansak.isUcs4, lt_kAscii, gt_kUnicode]
  rcases rangeType_cases t with ht | ⟨t, rfl, ht⟩
  · settle
    rcases ht with ht | ht <;> run <;> leaf
  settle
  have := rangeTypeFlag_le t
  run [equals_none, construct_default]
  · reads
    by_hand [Res.bind, zero32]
    settle
    leaf
  · reads
    by_hand [Res.bind, zero32]
    settle
    induct [0] (fun (i : Nat) => [(name% "p", Val.ptr .c32 (some (units32 buf, (i : Int))))])
      (fun i => (isUcs4Loop U (rangeTypeToRangeFlag t) p (buf.drop i)).out fun b => K (ofBool b) [none, none, none])
      (fun i => buf.length - i) (fun _ => True)
    · intro n i _ IH
      clear h
      run [rounds_succ, IH, getCharEncodableRangeFlags_c32, apply_c32 hX] <;> clear IH <;> drops <;>
        simp only [isUcs4Loop, zero32] <;> settle <;> leaf
    · trivial
    · omega
    · rfl
  · reads
    rfl

theorem isUtf16EscapedRange_c16 (c : U16) : call% (d + 2) "isUtf16EscapedRange" [.int .c16 c.toNat] K =
    K (ofBool (Ansak.isUtf16EscapedRange c.toNat)) [none] := by
  enter Ast.isUtf16EscapedRange_32
  run [isFirstHalfUtf16_c16, isSecondHalfUtf16_c16, isFirstHalfUtf16_c32, isSecondHalfUtf16_c32] <;>
    simp only [Ansak.isUtf16EscapedRange, *] <;> rfl

theorem isUcs2_null (t : Int) (p : Pred) :
    call% (d + 4) "isUcs2" [.ptr .c16 none, rangeType t, predVal p] K =
    (Ansak.isUcs2 U none t p).out fun b => K (ofBool b) [none, none, none] := by
  enter Ast.isUcs2_16_E_Pred
  run <;> simp only [Ansak.isUcs2, lt_kAscii, gt_kUnicode] <;> settle <;> leaf

theorem isUcs2_call (hX : X.Are sc U lower turkic) (buf : List U16) (t : Int) (p : Pred) (hr : buf.length < r) :
    call% (d + 4) "isUcs2" [.ptr .c16 (some (units16 buf, ((0 : Nat) : Int))), rangeType t, predVal p] K =
    (Ansak.isUcs2 U (some buf) t p).out fun b => K (ofBool b) [none, none, none] := by
  enter Ast.isUcs2_16_E_Pred
  by_hand [Ansak.isUcs2, lt_kAscii, gt_kUnicode]
  rcases rangeType_cases t with ht | ⟨t, rfl, ht⟩
  · settle
    rcases ht with ht | ht <;> run <;> leaf
  settle
  have := rangeTypeFlag_le t
  run [equals_none, construct_default]
  · reads
    by_hand [Res.bind, zero16]
    settle
    leaf
  · reads
    by_hand [Res.bind, zero16]
    settle
    induct [0] (fun (i : Nat) => [(name% "p", Val.ptr .c16 (some (units16 buf, (i : Int))))])
      (fun i => (isUcs2Loop U (rangeTypeToRangeFlag t) p (buf.drop i)).out fun b => K (ofBool b) [none, none, none])
      (fun i => buf.length - i) (fun _ => True)
    · intro n i _ IH
      clear h
      run [rounds_succ, IH, isUtf16EscapedRange_c16, getCharEncodableRangeFlags_c16, apply_c16 hX] <;> clear IH <;>
        drops <;> simp only [isUcs2Loop, zero16] <;> settle <;> leaf
    · trivial
    · omega
    · rfl
  · reads
    rfl

theorem isUtf16_null (t : Int) (p : Pred) :
    call% (d + 4) "isUtf16" [.ptr .c16 none, rangeType t, predVal p] K =
    (Ansak.isUtf16 U none t p).out fun b => K (ofBool b) [none, none, none] := by
  enter Ast.isUtf16_16_E_Pred
  run <;> simp only [Ansak.isUtf16, lt_kAscii, gt_kUnicode] <;> settle <;> leaf

theorem k21_eq : k21BitUnicodeFlags = 58 := rfl

theorem isUtf16Loop_nil (f : Nat) (p : Pred) : isUtf16Loop U f p [] = .ub := by rw [isUtf16Loop]
theorem isUtf16Loop_cons (f : Nat) (p : Pred) (c : U16) (l : List U16) : isUtf16Loop U f p (c :: l) =
    if c = 0 then .ok true
    else if getRangeFlag16 c.toNat &&& f = 0 then .ok false
    else if isFirstHalfUtf16 c.toNat then
      match l with
      | [] => .ub
      | c1 :: l' =>
        if c1 = 0 then .ok true
        else if ¬ isSecondHalfUtf16 c1.toNat then .ok false
        else if k21BitUnicodeFlags &&& f = 0 ∨ (¬ p.eq Pred.none ∧ ¬ p.call16 U c.toNat) then .ok false
        else isUtf16Loop U f p l'
    else if getCharEncodableRangeFlags c.toNat &&& f = 0 ∨ (¬ p.eq Pred.none ∧ ¬ p.call16 U c.toNat) then .ok false
    else isUtf16Loop U f p l := by
  rw [isUtf16Loop.eq_def]; rfl

theorem isUtf16_call (hX : X.Are sc U lower turkic) (buf : List U16) (t : Int) (p : Pred) (hr : buf.length < r) :
    call% (d + 4) "isUtf16" [.ptr .c16 (some (units16 buf, ((0 : Nat) : Int))), rangeType t, predVal p] K =
    (Ansak.isUtf16 U (some buf) t p).out fun b => K (ofBool b) [none, none, none] := by
  enter Ast.isUtf16_16_E_Pred
  by_hand [Ansak.isUtf16, lt_kAscii, gt_kUnicode]
  rcases rangeType_cases t with ht | ⟨t, rfl, ht⟩
  · settle
    rcases ht with ht | ht <;> run <;> leaf
  settle
  have := rangeTypeFlag_le t
  run [equals_none, construct_default]
  · reads
    by_hand [Res.bind, zero16]
    settle
    leaf
  · reads
    by_hand [Res.bind, zero16]
    settle
    induct [0] (fun (i : Nat) => [(name% "p", Val.ptr .c16 (some (units16 buf, (i : Int))))])
      (fun i => (isUtf16Loop U (rangeTypeToRangeFlag t) p (buf.drop i)).out fun b => K (ofBool b) [none, none, none])
      (fun i => buf.length - i) (fun _ => True)
    · intro n i _ IH
      clear h
      run [rounds_succ, IH, isFirstHalfUtf16_c16, isSecondHalfUtf16_c16, getRangeFlag_c16,
        getCharEncodableRangeFlags_c16, apply_c16 hX] <;> clear IH <;>
        drops <;> simp only [isUtf16Loop_nil, isUtf16Loop_cons, zero16, k21_eq] <;> settle <;> leaf
    · trivial
    · omega
    · rfl
  · reads
    rfl

end Ansak.Cpp
