import Verif.Model.CodePage
import Verif.Lemmas.Cpp.Convert

/-! # The code pages, executed from their syntax trees -/

namespace Ansak.Cpp

variable {E : Sealed} {X : Externals} {sc : Bool} {r d : Nat} {K : Val → List (Option Val) → Out} {w : Bool} {s : List Int}

/-- A value of type `SourceEncoding`. -/
abbrev sourceEncoding (t : Int) : Val := .int (.enum (name% "SourceEncoding")) t

section

@[cpp_rule] theorem eq_enum {k : Val → Out} (x y : Nat) (a b : Int) :
    binaryInt sc .eq (.enum x) a (.enum y) b k = k (ofBool (decide (a = b))) := by
  show arithmetic .eq .int (convert sc (.enum x) .int a) (convert sc (.enum y) .int b) k = _
  rw [convert_enum_int, convert_enum_int]; rfl

@[cpp_rule] theorem convertTo_uchar_char_nat {a : Nat} (k : Int → Out) (h : a < 256) :
    convertTo sc .uchar .char (a : Int) k = k (charVal sc (BitVec.ofNat 8 a)) := by
  have := convertTo_uchar_char (sc := sc) (BitVec.ofNat 8 a) k
  rw [BitVec.toNat_ofNat, Nat.mod_eq_of_lt h] at this
  exact this

end

seal_rules

theorem charVal_zero (b : Byte) : charVal sc b = 0 ↔ b = 0 := by
  unfold charVal
  cases sc
  · simp only [cond_false, ← BitVec.toNat_inj]; simp
  · simp only [cond_true, ← BitVec.toInt_inj]; simp

theorem untilZero_units8 : ∀ l : List Byte, untilZero (units8 sc l) =
    match stringOfPtr.go l with
    | .ok a => some (units8 sc a)
    | .ub => none
  | [] => rfl
  | b :: l => by
    show (if charVal sc b = 0 then some [] else (untilZero (units8 sc l)).map (charVal sc b :: ·)) = _
    rw [untilZero_units8 l, stringOfPtr.go]
    by_cases h : b = 0
    · rw [if_pos h, if_pos ((charVal_zero b).2 h)]; rfl
    · rw [if_neg h, if_neg (mt (charVal_zero b).1 h)]
      cases stringOfPtr.go l <;> rfl

@[cpp_split] theorem readString_units8 {k : List Int → Out} {R : Out} {l : List Byte} {i : Nat}
    (h1 : ∀ a, stringOfPtr (some (l.drop i)) = .ok a → k (units8 sc a) = R)
    (h2 : stringOfPtr (some (l.drop i)) = .ub → Out.ub = R) : E.readString (units8 sc l) (i : Int) k = R := by
  rw [E.readString_eq]
  unfold readString
  rw [if_pos (Int.natCast_nonneg i), Int.toNat_natCast, show (units8 sc l).drop i = units8 sc (l.drop i) from
    List.map_drop.symm, untilZero_units8]
  unfold stringOfPtr at h1 h2
  cases e : stringOfPtr.go (l.drop i) with
  | ok a => exact h1 a e
  | ub => exact h2 e

/-- The text of a table of numbers. -/
def _root_.Ansak.literals : List U16 → Args
  | [] => .nil
  | c :: l => .cons (.num c.toNat) (literals l)

theorem literals_eval (Γ : Ctx) : ∀ (l : List U16) (ρ : Env) (k : List Val → Env → Out),
    (literals l).eval Γ ρ k = k (l.map fun c => .int .int (c.toNat : Int)) ρ
  | [], _, _ => rfl
  | c :: l, ρ, k => by
    show (Expr.num c.toNat).eval Γ ρ (fun v ρ => (literals l).eval Γ ρ fun vs ρ => k (v :: vs) ρ) = _
    have := c.isLt
    have h : Nat.blt c.toNat 2147483648 = true := by rw [Nat.blt_eq]; omega
    rw [Expr.eval, h]
    exact literals_eval Γ l ρ fun vs ρ => k (.int .int (c.toNat : Int) :: vs) ρ

theorem literals_numbers : ∀ l : List U16, numbers sc .c16 (l.map fun c => .int .int (c.toNat : Int)) = some (units16 l)
  | [] => rfl
  | c :: l => by
    show (numbers sc .c16 _).map (convert sc .int .c16 (c.toNat : Int) :: ·) = _
    rw [literals_numbers l, convert_nat (show c.toNat < Ty.bound .c16 from c.isLt)]
    rfl

theorem exec_literals (E : Sealed) {Γ : Ctx} {ret : TyExpr} {x : Nat} {as : Args} {l : List U16} {ρ : Env} {k : End → Out}
    (h : as = literals l) :
    E.exec Γ ret (.array (.prim .c16) x as) ρ k = k (.next ((x, .arr .c16 (units16 l)) :: ρ)) := by
  subst h
  rw [E.exec_eq]
  unfold Stmt.exec
  rw [literals_eval]
  show (match numbers Γ.sc .c16 _ with | some s => k (.next ((x, .arr .c16 s) :: ρ)) | none => .stuck) = _
  rw [literals_numbers]

set_option maxRecDepth 10000 in
theorem exec_cp125280_9F {Γ : Ctx} {ret : TyExpr} {ρ : Env} {k : End → Out} :
    E.exec Γ ret (.array (.prim .c16) (name% "cp125280_9F")
      (.cons (.num 8364) (.cons (.num 0) (.cons (.num 8218) (.cons (.num 402) (.cons (.num 8222) (.cons (.num 8230) (.cons (.num 8224) (.cons (.num 8225)
      (.cons (.num 710) (.cons (.num 8240) (.cons (.num 352) (.cons (.num 8249) (.cons (.num 338) (.cons (.num 0) (.cons (.num 381) (.cons (.num 0)
      (.cons (.num 0) (.cons (.num 8216) (.cons (.num 8217) (.cons (.num 8220) (.cons (.num 8221) (.cons (.num 8226) (.cons (.num 8211) (.cons (.num 8212)
      (.cons (.num 732) (.cons (.num 8482) (.cons (.num 353) (.cons (.num 8250) (.cons (.num 339) (.cons (.num 0) (.cons (.num 382) (.cons (.num 376) .nil))))))))))))))))))))))))))))))))) ρ k =
    k (.next ((name% "cp125280_9F", .arr .c16 (units16 cp125280_9F)) :: ρ)) :=
  exec_literals E (by kernel_rfl)

set_option maxRecDepth 10000 in
theorem exec_cp125080_FF {Γ : Ctx} {ret : TyExpr} {ρ : Env} {k : End → Out} :
    E.exec Γ ret (.array (.prim .c16) (name% "cp125080_FF")
      (.cons (.num 8364) (.cons (.num 0) (.cons (.num 8218) (.cons (.num 0) (.cons (.num 8222) (.cons (.num 8230) (.cons (.num 8224) (.cons (.num 8225)
      (.cons (.num 0) (.cons (.num 8240) (.cons (.num 352) (.cons (.num 8249) (.cons (.num 346) (.cons (.num 356) (.cons (.num 381) (.cons (.num 377)
      (.cons (.num 0) (.cons (.num 8216) (.cons (.num 8217) (.cons (.num 8220) (.cons (.num 8221) (.cons (.num 8226) (.cons (.num 8211) (.cons (.num 8212)
      (.cons (.num 0) (.cons (.num 8482) (.cons (.num 353) (.cons (.num 8250) (.cons (.num 347) (.cons (.num 357) (.cons (.num 382) (.cons (.num 378)
      (.cons (.num 160) (.cons (.num 711) (.cons (.num 728) (.cons (.num 321) (.cons (.num 164) (.cons (.num 260) (.cons (.num 166) (.cons (.num 167)
      (.cons (.num 168) (.cons (.num 169) (.cons (.num 350) (.cons (.num 171) (.cons (.num 172) (.cons (.num 173) (.cons (.num 174) (.cons (.num 379)
      (.cons (.num 176) (.cons (.num 177) (.cons (.num 731) (.cons (.num 322) (.cons (.num 180) (.cons (.num 181) (.cons (.num 182) (.cons (.num 183)
      (.cons (.num 184) (.cons (.num 261) (.cons (.num 351) (.cons (.num 187) (.cons (.num 317) (.cons (.num 733) (.cons (.num 318) (.cons (.num 380)
      (.cons (.num 340) (.cons (.num 193) (.cons (.num 194) (.cons (.num 258) (.cons (.num 196) (.cons (.num 313) (.cons (.num 262) (.cons (.num 199)
      (.cons (.num 268) (.cons (.num 201) (.cons (.num 280) (.cons (.num 203) (.cons (.num 282) (.cons (.num 205) (.cons (.num 206) (.cons (.num 270)
      (.cons (.num 272) (.cons (.num 323) (.cons (.num 327) (.cons (.num 211) (.cons (.num 212) (.cons (.num 336) (.cons (.num 214) (.cons (.num 215)
      (.cons (.num 344) (.cons (.num 366) (.cons (.num 218) (.cons (.num 368) (.cons (.num 220) (.cons (.num 221) (.cons (.num 354) (.cons (.num 223)
      (.cons (.num 341) (.cons (.num 225) (.cons (.num 226) (.cons (.num 259) (.cons (.num 228) (.cons (.num 314) (.cons (.num 263) (.cons (.num 231)
      (.cons (.num 269) (.cons (.num 233) (.cons (.num 281) (.cons (.num 235) (.cons (.num 283) (.cons (.num 237) (.cons (.num 238) (.cons (.num 271)
      (.cons (.num 273) (.cons (.num 324) (.cons (.num 328) (.cons (.num 243) (.cons (.num 244) (.cons (.num 337) (.cons (.num 246) (.cons (.num 247)
      (.cons (.num 345) (.cons (.num 367) (.cons (.num 250) (.cons (.num 369) (.cons (.num 252) (.cons (.num 253) (.cons (.num 355) (.cons (.num 729) .nil))))))))))))))))))))))))))))))))))))))))))))))))))))))))))))))))))))))))))))))))))))))))))))))))))))))))))))))))))))))))))))))))) ρ k =
    k (.next ((name% "cp125080_FF", .arr .c16 (units16 cp125080_FF)) :: ρ)) :=
  exec_literals E (by kernel_rfl)

theorem push8 (a : List Byte) (c : Byte) : (units8 sc a).append [charVal sc c] = units8 sc (a ++ [c]) := by
  simp only [units8, List.map_append, List.map_cons, List.map_nil]
  rfl

theorem encodeUtf8_uchar {c : Nat} (h : c < 256) (l : List Int) :
    call% (d + 1) "encodeUtf8" [.int .uchar c, .str .char l] K =
      K .void [none, some (.str .char (l ++ units8 sc (Ansak.encodeUtf8 c)))] := by
  enter Ast.encodeUtf8 with .uchar
  run <;> unfold Ansak.encodeUtf8 <;> settle <;> leaf

theorem toUtf8_page_null (t : Int) : call% (d + 4) "toUtf8" [.ptr .char none, sourceEncoding t] K =
    (Ansak.toUtf8FromPage none t).out fun l => K (.str .char (units8 sc l)) [none, none] := by
  enter Ast.toUtf8_8_E
  run
  leaf

theorem kSrcUnicode_eq : kSrcUnicode = ((0 : Nat) : Int) := rfl
theorem kSrcCP1252_eq : kSrcCP1252 = ((1 : Nat) : Int) := rfl
theorem kSrcCP1250_eq : kSrcCP1250 = ((2 : Nat) : Int) := rfl

set_option maxRecDepth 10000 in
theorem toUtf8_page_call (buf : List Byte) (t : Int) (hr : buf.length < r) :
    call% (d + 4) "toUtf8" [.ptr .char (some (units8 sc buf, ((0 : Nat) : Int))), sourceEncoding t] K =
    (Ansak.toUtf8FromPage (some buf) t).out fun l => K (.str .char (units8 sc l)) [none, none] := by
  enter Ast.toUtf8_8_E
  by_hand [Ansak.toUtf8FromPage, ifNonEmpty, kSrcUnicode_eq, kSrcCP1252_eq, kSrcCP1250_eq]
  run
  · reads
    by_hand [Res.bind, zero8]
    settle
    leaf
  · reads
    by_hand [Res.bind, zero8]
    settle
    rw [List.drop_zero] at *
    simp only [*]
    rfl
  · reads
    by_hand [Res.bind, zero8]
    settle
    rw [List.drop_zero] at *
    simp only [*]
    rfl
  · reads
    by_hand [Res.bind, zero8]
    settle
    induct [0, []] (fun (i : Nat) (res : List Byte) => [(name% "p", Val.ptr .char (some (units8 sc buf, (i : Int)))),
        (name% "result", Val.str .char (units8 sc res))])
      (fun i res => (toUtf8From1252Loop (buf.drop i) res).out fun l => K (.str .char (units8 sc l)) [none, none])
      (fun i _ => buf.length - i) (fun _ _ => True)
    · intro n i res _ IH
      clear h
      run [rounds_succ, IH, encodeUtf8_uchar, encodeUtf8_c16, exec_cp125280_9F] <;>
        (try rw [push8]) <;> again <;> (drops; simp only [toUtf8From1252Loop, zero8]; settle; try reads) <;>
        ((try simp only [Res.bind, zero16]); settle; leaf)
    · trivial
    · omega
    · rfl
  · reads
    by_hand [Res.bind, zero8]
    settle
    induct [0, []] (fun (i : Nat) (res : List Byte) => [(name% "p", Val.ptr .char (some (units8 sc buf, (i : Int)))),
        (name% "result", Val.str .char (units8 sc res))])
      (fun i res => (toUtf8From1250Loop (buf.drop i) res).out fun l => K (.str .char (units8 sc l)) [none, none])
      (fun i _ => buf.length - i) (fun _ _ => True)
    · intro n i res _ IH
      clear h
      run [rounds_succ, IH, encodeUtf8_uchar, encodeUtf8_c16, exec_cp125080_FF] <;>
        (try rw [push8]) <;> again <;> (drops; simp only [toUtf8From1250Loop, zero8]; settle; try reads) <;>
        ((try simp only [Res.bind, zero16]); settle; leaf)
    · trivial
    · omega
    · rfl
  · reads
    by_hand [Res.bind, zero8]
    settle
    leaf
  · reads
    rfl

end Ansak.Cpp
