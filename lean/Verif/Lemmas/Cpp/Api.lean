import Verif.Model.Defaults
import Verif.Lemmas.Cpp.Length
import Verif.Lemmas.Cpp.Lower

/-! # Every way to call a function of the library, executed from the syntax trees -/

namespace Ansak.Cpp

variable {E : Sealed} {X : Externals} {sc : Bool} {r d : Nat} {K : Val → List (Option Val) → Out} {w : Bool} {s : List Int}
variable {U : CharClass} {lower turkic : U32 → U32}

/-- A call with other arguments that give the parameters the same values. -/
theorem call_same (E : Sealed) {P : Program} {X : Externals} {sc : Bool} {r d name : Nat} {vs vs' : List Val}
    {k : Val → List (Option Val) → Out} {f : Fun} {body : Stmt} {T : Ty}
    (h : resolve P.funs (nat_lit 0) name vs = some f) (h' : resolve P.funs (nat_lit 0) name vs' = some f)
    (hb : f.body = some body) (hT : deduce f.params vs = T) (hT' : deduce f.params vs' = T) (hs : f.hasSelf = false)
    (hc : Nat.beq f.cls (nat_lit 0) = true)
    (H : ∀ k, E.bind (E.ctx P X sc r d T) f.params vs k = E.bind (E.ctx P X sc r d T) f.params vs' k) :
    E.call P X sc r (d + 1) (nat_lit 0) name vs k = E.call P X sc r (d + 1) (nat_lit 0) name vs' k := by
  rw [call_body E h hb hT, call_body E h' hb hT', E.run_eq]
  unfold Fun.run
  rw [hs, hc]
  rw [E.bind_eq] at H
  exact H _

/-- Two calls of the same function whose parameters get the same values. -/
macro "same " f:term : tactic => `(tactic|
  (refine call_same E (f := $f) (T := .int) (by kernel_rfl) (by kernel_rfl) rfl (by kernel_rfl) (by kernel_rfl) rfl rfl
    fun k => ?_
   run [construct_default]
   symm
   run
   rfl))

theorem out_congr {α : Type} {x : Res α} {f g : α → Out} (h : ∀ a, f a = g a) : x.out f = x.out g := by
  cases x with
  | ok a => exact h a
  | ub => rfl

/-- A pointer to the beginning of a buffer, or a null pointer. -/
def arg8 (sc : Bool) (p : Ptr Byte) : Val := .ptr .char (p.map fun l => (units8 sc l, ((0 : Nat) : Int)))
def arg16 (p : Ptr U16) : Val := .ptr .c16 (p.map fun l => (units16 l, ((0 : Nat) : Int)))
def arg32 (p : Ptr U32) : Val := .ptr .c32 (p.map fun l => (units32 l, ((0 : Nat) : Int)))

/-- The length of the buffer that a pointer points to. -/
def size {α : Type} (p : Ptr α) : Nat := (p.getD []).length

theorem arg8_cStr (src : List Byte) : arg8 sc (cStr src) = .ptr .char (some ((units8 sc src).append [0], 0)) := by
  have : units8 sc (src ++ [0]) = (units8 sc src).append [0] := by
    simp only [units8, List.map_append, List.map_cons, List.map_nil]
    cases sc <;> rfl
  show Val.ptr .char (some (units8 sc (src ++ [0]), _)) = _
  rw [this]; rfl

theorem arg16_cStr (src : List U16) : arg16 (cStr src) = .ptr .c16 (some ((units16 src).append [0], 0)) := by
  have : units16 (src ++ [0]) = (units16 src).append [0] := by
    simp only [units16, List.map_append, List.map_cons, List.map_nil]
    rfl
  show Val.ptr .c16 (some (units16 (src ++ [0]), _)) = _
  rw [this]; rfl

theorem arg32_cStr (src : List U32) : arg32 (cStr src) = .ptr .c32 (some ((units32 src).append [0], 0)) := by
  have : units32 (src ++ [0]) = (units32 src).append [0] := by
    simp only [units32, List.map_append, List.map_cons, List.map_nil]
    rfl
  show Val.ptr .c32 (some (units32 (src ++ [0]), _)) = _
  rw [this]; rfl

theorem size_cStr {w : Nat} (src : List (BitVec w)) : size (cStr src) = src.length + 1 := List.length_append

/-! ## The functions that do the work -/

theorem isUtf8_core (hX : X.Are sc U lower turkic) (p : Ptr Byte) (len : U32) (t : Int) (q : Pred) (hr : size p < r) :
    call% (d + 4) "isUtf8" [arg8 sc p, .int .uint (len.toNat : Int), rangeType t, predVal q] K =
    (Ansak.isUtf8Internal U p len t q).out fun x => K (ofBool x) [none, none, none, none] := by
  cases p with
  | none => exact isUtf8_null len t q
  | some buf => exact isUtf8_call hX buf len t q hr

theorem isUtf16_core (hX : X.Are sc U lower turkic) (p : Ptr U16) (t : Int) (q : Pred) (hr : size p < r) :
    call% (d + 4) "isUtf16" [arg16 p, rangeType t, predVal q] K =
    (Ansak.isUtf16 U p t q).out fun x => K (ofBool x) [none, none, none] := by
  cases p with
  | none => exact isUtf16_null t q
  | some buf => exact isUtf16_call hX buf t q hr

theorem isUcs2_core (hX : X.Are sc U lower turkic) (p : Ptr U16) (t : Int) (q : Pred) (hr : size p < r) :
    call% (d + 4) "isUcs2" [arg16 p, rangeType t, predVal q] K =
    (Ansak.isUcs2 U p t q).out fun x => K (ofBool x) [none, none, none] := by
  cases p with
  | none => exact isUcs2_null t q
  | some buf => exact isUcs2_call hX buf t q hr

theorem isUcs4_core (hX : X.Are sc U lower turkic) (p : Ptr U32) (t : Int) (q : Pred) (hr : size p < r) :
    call% (d + 4) "isUcs4" [arg32 p, rangeType t, predVal q] K =
    (Ansak.isUcs4 U p t q).out fun x => K (ofBool x) [none, none, none] := by
  cases p with
  | none => exact isUcs4_null t q
  | some buf => exact isUcs4_call hX buf t q hr

theorem toUtf8_16_core (p : Ptr U16) (hr : size p < r) :
    call% (d + 4) "toUtf8" [arg16 p] K =
    (Ansak.toUtf8From16 p).out fun x => K (.str .char (units8 sc x)) [none] := by
  cases p with
  | none => exact toUtf8_16_null
  | some buf => exact toUtf8_16_call buf hr

theorem toUtf8_32_core (p : Ptr U32) (hr : size p < r) :
    call% (d + 4) "toUtf8" [arg32 p] K =
    (Ansak.toUtf8From32 p).out fun x => K (.str .char (units8 sc x)) [none] := by
  cases p with
  | none => exact toUtf8_32_null
  | some buf => exact toUtf8_32_call buf hr

theorem toUcs2_8_core (p : Ptr Byte) (hr : size p < r) :
    call% (d + 4) "toUcs2" [arg8 sc p] K =
    (Ansak.toUcs2From8 p).out fun x => K (.str .c16 (units16 x)) [none] := by
  cases p with
  | none => exact toUcs2_8_null
  | some buf => exact toUcs2_8_call buf hr

theorem toUcs2_32_core (p : Ptr U32) (hr : size p < r) :
    call% (d + 4) "toUcs2" [arg32 p] K =
    (Ansak.toUcs2From32 p).out fun x => K (.str .c16 (units16 x)) [none] := by
  cases p with
  | none => exact toUcs2_32_null
  | some buf => exact toUcs2_32_call buf hr

theorem toUtf16_8_core (p : Ptr Byte) (hr : size p < r) :
    call% (d + 4) "toUtf16" [arg8 sc p] K =
    (Ansak.toUtf16From8 p).out fun x => K (.str .c16 (units16 x)) [none] := by
  cases p with
  | none => exact toUtf16_8_null
  | some buf => exact toUtf16_8_call buf hr

theorem toUtf16_32_core (p : Ptr U32) (hr : size p < r) :
    call% (d + 4) "toUtf16" [arg32 p] K =
    (Ansak.toUtf16From32 p).out fun x => K (.str .c16 (units16 x)) [none] := by
  cases p with
  | none => exact toUtf16_32_null
  | some buf => exact toUtf16_32_call buf hr

theorem toUcs4_8_core (p : Ptr Byte) (hr : size p < r) :
    call% (d + 4) "toUcs4" [arg8 sc p] K =
    (Ansak.toUcs4From8 p).out fun x => K (.str .c32 (units32 x)) [none] := by
  cases p with
  | none => exact toUcs4_8_null
  | some buf => exact toUcs4_8_call buf hr

theorem toUcs4_16_core (p : Ptr U16) (hr : size p < r) :
    call% (d + 4) "toUcs4" [arg16 p] K =
    (Ansak.toUcs4From16 p).out fun x => K (.str .c32 (units32 x)) [none] := by
  cases p with
  | none => exact toUcs4_16_null
  | some buf => exact toUcs4_16_call buf hr

theorem unicodeLength_8_core (p : Ptr Byte) (len : U32) (hr : size p < r) :
    call% (d + 4) "unicodeLength" [arg8 sc p, .int .uint (len.toNat : Int)] K =
    (Ansak.unicodeLength8 p len).out fun x => K (.int .uint (x.toNat : Int)) [none, none] := by
  cases p with
  | none => exact unicodeLength_8_null len
  | some buf => exact unicodeLength_8_call buf len hr

theorem unicodeLength_16_core (p : Ptr U16) (len : U32) (hr : size p < r) :
    call% (d + 4) "unicodeLength" [arg16 p, .int .uint (len.toNat : Int)] K =
    (Ansak.unicodeLength16 p len).out fun x => K (.int .uint (x.toNat : Int)) [none, none] := by
  cases p with
  | none => exact unicodeLength_16_null len
  | some buf => exact unicodeLength_16_call buf len hr

theorem unicodeLength_32_core (p : Ptr U32) (len : U32) (hr : size p < r) :
    call% (d + 4) "unicodeLength" [arg32 p, .int .uint (len.toNat : Int)] K =
    (Ansak.unicodeLength32 p len).out fun x => K (.int .uint (x.toNat : Int)) [none, none] := by
  cases p with
  | none => exact unicodeLength_32_null len (Nat.lt_of_le_of_lt (Nat.zero_le _) hr)
  | some buf => exact unicodeLength_32_call buf len hr

theorem toUtf8_page_core (p : Ptr Byte) (t : Int) (hr : size p < r) :
    call% (d + 4) "toUtf8" [arg8 sc p, sourceEncoding t] K =
    (Ansak.toUtf8FromPage p t).out fun x => K (.str .char (units8 sc x)) [none, none] := by
  cases p with
  | none => exact toUtf8_page_null t
  | some buf => exact toUtf8_page_call buf t hr

theorem toLower_32_core {v : Version} (hX : X.Are sc U (Unicode.toLowerChar v) (Unicode.turkicToLowerChar v)) (src : List U32)
    (lang : Ptr Byte) : call% (d + 2) "toLower" [.str .c32 (units32 src), arg8 sc lang] K =
    (Ansak.toLower32S v src lang).out fun l => K (.str .c32 (units32 l)) [none, none] := by
  cases lang with
  | none => exact toLower_32_of hX src none none fun K => isTurkicLang_null
  | some buf => exact toLower_32_of hX src (some buf) _ fun K => isTurkicLang_call buf

/-! ## Functions that call them -/

set_option hygiene false in
/-- A function that calls another one: `h` says what that one does. -/
macro "wrapper " f:term : tactic => `(tactic| (enter $f; run [h]; refine out_congr fun x => ?_; run; rfl))

theorem isUtf8_int (x : Option (List Int × Int)) (t : Int) (q : Pred) : call% (d + 1) "isUtf8" [.ptr .char x, .int .int ((0 : Nat) : Int), rangeType t, predVal q] K =
    call% (d + 1) "isUtf8" [.ptr .char x, .int .uint ((0 : Nat) : Int), rangeType t, predVal q] K := by
  same Ast.isUtf8_8_Len_E_Pred

theorem isUtf8_P3 (hX : X.Are sc U lower turkic) (p : Ptr Byte) (t : Int) (q : Pred) (hr : size p < r) :
    call% (d + 5) "isUtf8" [arg8 sc p, rangeType t, predVal q] K =
    (Ansak.isUtf8 U p t q).out fun x => K (ofBool x) [none, none, none] := by
  have h (K) := (isUtf8_int (E := E) (X := X) (sc := sc) (r := r) (d := d + 3) (K := K) (w := w) (s := s) _ t q).trans
    (isUtf8_core hX p 0 t q hr)
  unfold Ansak.isUtf8 arg8
  generalize p.map _ = y at h ⊢
  wrapper Ast.isUtf8_8_E_Pred

theorem isUtf8_S3 (hX : X.Are sc U lower turkic) (test : List Byte) (t : Int) (q : Pred) (hr : test.length + 1 < r) :
    call% (d + 5) "isUtf8" [.str .char (units8 sc test), rangeType t, predVal q] K =
    (Ansak.isUtf8S U test t q).out fun x => K (ofBool x) [none, none, none] := by
  have h (K) := (isUtf8_int (E := E) (X := X) (sc := sc) (r := r) (d := d + 3) (K := K) (w := w) (s := s) _ t q).trans
    ((congrArg (fun v => call% (d + 4) "isUtf8" [v, .int .uint ((0 : Nat) : Int), rangeType t, predVal q] K)
      (arg8_cStr test).symm).trans (isUtf8_core hX (cStr test) 0 t q (by rw [size_cStr]; exact hr)))
  unfold Ansak.isUtf8S
  wrapper Ast.isUtf8_S8_E_Pred

theorem isUtf8_L3 (hX : X.Are sc U lower turkic) (p : Ptr Byte) (len : U32) (q : Pred) (hr : size p < r) :
    call% (d + 5) "isUtf8" [arg8 sc p, .int .uint (len.toNat : Int), predVal q] K =
    (Ansak.isUtf8Len U p len q).out fun x => K (ofBool x) [none, none, none] := by
  have h (K) := isUtf8_core (E := E) (r := r) (d := d) (K := K) (w := w) (s := s) hX p len ((nat_lit 1 : Nat) : Int) q hr
  unfold Ansak.isUtf8Len
  unfold arg8 at h ⊢
  generalize p.map _ = y at h ⊢
  wrapper Ast.isUtf8_8_Len_Pred

theorem isUtf16_S3 (hX : X.Are sc U lower turkic) (test : List U16) (t : Int) (q : Pred) (hr : test.length + 1 < r) :
    call% (d + 5) "isUtf16" [.str .c16 (units16 test), rangeType t, predVal q] K =
    (Ansak.isUtf16S U test t q).out fun x => K (ofBool x) [none, none, none] := by
  have h (K) := isUtf16_core (E := E) (r := r) (d := d) (K := K) (w := w) (s := s) hX (cStr test) t q (by rw [size_cStr]; exact hr)
  rw [arg16_cStr] at h
  unfold Ansak.isUtf16S
  wrapper Ast.isUtf16_S16_E_Pred

theorem isUcs2_S3 (hX : X.Are sc U lower turkic) (test : List U16) (t : Int) (q : Pred) (hr : test.length + 1 < r) :
    call% (d + 5) "isUcs2" [.str .c16 (units16 test), rangeType t, predVal q] K =
    (Ansak.isUcs2S U test t q).out fun x => K (ofBool x) [none, none, none] := by
  have h (K) := isUcs2_core (E := E) (r := r) (d := d) (K := K) (w := w) (s := s) hX (cStr test) t q (by rw [size_cStr]; exact hr)
  rw [arg16_cStr] at h
  unfold Ansak.isUcs2S
  wrapper Ast.isUcs2_S16_E_Pred

theorem isUcs4_S3 (hX : X.Are sc U lower turkic) (test : List U32) (t : Int) (q : Pred) (hr : test.length + 1 < r) :
    call% (d + 5) "isUcs4" [.str .c32 (units32 test), rangeType t, predVal q] K =
    (Ansak.isUcs4S U test t q).out fun x => K (ofBool x) [none, none, none] := by
  have h (K) := isUcs4_core (E := E) (r := r) (d := d) (K := K) (w := w) (s := s) hX (cStr test) t q (by rw [size_cStr]; exact hr)
  rw [arg32_cStr] at h
  unfold Ansak.isUcs4S
  wrapper Ast.isUcs4_S32_E_Pred

theorem toUtf8_S16 (src : List U16) (hr : src.length + 1 < r) :
    call% (d + 5) "toUtf8" [.str .c16 (units16 src)] K =
    (Ansak.toUtf8From16S src).out fun x => K (.str .char (units8 sc x)) [none] := by
  have h (K) := toUtf8_16_core (E := E) (X := X) (sc := sc) (r := r) (d := d) (K := K) (w := w) (s := s) (cStr src)
    (by rw [size_cStr]; exact hr)
  rw [arg16_cStr] at h
  unfold Ansak.toUtf8From16S
  wrapper Ast.toUtf8_S16

theorem toUtf8_S32 (src : List U32) (hr : src.length + 1 < r) :
    call% (d + 5) "toUtf8" [.str .c32 (units32 src)] K =
    (Ansak.toUtf8From32S src).out fun x => K (.str .char (units8 sc x)) [none] := by
  have h (K) := toUtf8_32_core (E := E) (X := X) (sc := sc) (r := r) (d := d) (K := K) (w := w) (s := s) (cStr src)
    (by rw [size_cStr]; exact hr)
  rw [arg32_cStr] at h
  unfold Ansak.toUtf8From32S
  wrapper Ast.toUtf8_S32

theorem toUcs2_S8 (src : List Byte) (hr : src.length + 1 < r) :
    call% (d + 5) "toUcs2" [.str .char (units8 sc src)] K =
    (Ansak.toUcs2From8S src).out fun x => K (.str .c16 (units16 x)) [none] := by
  have h (K) := toUcs2_8_core (E := E) (X := X) (sc := sc) (r := r) (d := d) (K := K) (w := w) (s := s) (cStr src)
    (by rw [size_cStr]; exact hr)
  rw [arg8_cStr] at h
  unfold Ansak.toUcs2From8S
  wrapper Ast.toUcs2_S8

theorem toUcs2_S32 (src : List U32) (hr : src.length + 1 < r) :
    call% (d + 5) "toUcs2" [.str .c32 (units32 src)] K =
    (Ansak.toUcs2From32S src).out fun x => K (.str .c16 (units16 x)) [none] := by
  have h (K) := toUcs2_32_core (E := E) (X := X) (sc := sc) (r := r) (d := d) (K := K) (w := w) (s := s) (cStr src)
    (by rw [size_cStr]; exact hr)
  rw [arg32_cStr] at h
  unfold Ansak.toUcs2From32S
  wrapper Ast.toUcs2_S32

theorem toUtf16_S8 (src : List Byte) (hr : src.length + 1 < r) :
    call% (d + 5) "toUtf16" [.str .char (units8 sc src)] K =
    (Ansak.toUtf16From8S src).out fun x => K (.str .c16 (units16 x)) [none] := by
  have h (K) := toUtf16_8_core (E := E) (X := X) (sc := sc) (r := r) (d := d) (K := K) (w := w) (s := s) (cStr src)
    (by rw [size_cStr]; exact hr)
  rw [arg8_cStr] at h
  unfold Ansak.toUtf16From8S
  wrapper Ast.toUtf16_S8

theorem toUtf16_S32 (src : List U32) (hr : src.length + 1 < r) :
    call% (d + 5) "toUtf16" [.str .c32 (units32 src)] K =
    (Ansak.toUtf16From32S src).out fun x => K (.str .c16 (units16 x)) [none] := by
  have h (K) := toUtf16_32_core (E := E) (X := X) (sc := sc) (r := r) (d := d) (K := K) (w := w) (s := s) (cStr src)
    (by rw [size_cStr]; exact hr)
  rw [arg32_cStr] at h
  unfold Ansak.toUtf16From32S
  wrapper Ast.toUtf16_S32

theorem toUcs4_S8 (src : List Byte) (hr : src.length + 1 < r) :
    call% (d + 5) "toUcs4" [.str .char (units8 sc src)] K =
    (Ansak.toUcs4From8S src).out fun x => K (.str .c32 (units32 x)) [none] := by
  have h (K) := toUcs4_8_core (E := E) (X := X) (sc := sc) (r := r) (d := d) (K := K) (w := w) (s := s) (cStr src)
    (by rw [size_cStr]; exact hr)
  rw [arg8_cStr] at h
  unfold Ansak.toUcs4From8S
  wrapper Ast.toUcs4_S8

theorem toUcs4_S16 (src : List U16) (hr : src.length + 1 < r) :
    call% (d + 5) "toUcs4" [.str .c16 (units16 src)] K =
    (Ansak.toUcs4From16S src).out fun x => K (.str .c32 (units32 x)) [none] := by
  have h (K) := toUcs4_16_core (E := E) (X := X) (sc := sc) (r := r) (d := d) (K := K) (w := w) (s := s) (cStr src)
    (by rw [size_cStr]; exact hr)
  rw [arg16_cStr] at h
  unfold Ansak.toUcs4From16S
  wrapper Ast.toUcs4_S16

theorem unicodeLength_8_default (x : Option (List Int × Int)) : call% (d + 2) "unicodeLength" [.ptr .char x] K =
    call% (d + 2) "unicodeLength" [.ptr .char x, .int .uint ((0 : Nat) : Int)] K := by
  same Ast.unicodeLength_8_Len

theorem unicodeLength_P8 (p : Ptr Byte) (hr : size p < r) :
    call% (d + 4) "unicodeLength" [arg8 sc p] K =
    (Ansak.unicodeLength8 p 0).out fun x => K (.int .uint (x.toNat : Int)) [none, none] := by
  exact (unicodeLength_8_default _).trans (unicodeLength_8_core p 0 hr)

theorem unicodeLength_S8 (src : List Byte) (hr : src.length + 1 < r) :
    call% (d + 5) "unicodeLength" [.str .char (units8 sc src)] K =
    (Ansak.unicodeLength8S src).out fun x => K (.int .uint (x.toNat : Int)) [none] := by
  have h (K) := unicodeLength_P8 (E := E) (X := X) (sc := sc) (r := r) (d := d) (K := K) (w := w) (s := s) (cStr src)
    (by rw [size_cStr]; exact hr)
  rw [arg8_cStr] at h
  unfold Ansak.unicodeLength8S
  wrapper Ast.unicodeLength_S8

theorem unicodeLength_16_default (x : Option (List Int × Int)) : call% (d + 2) "unicodeLength" [.ptr .c16 x] K =
    call% (d + 2) "unicodeLength" [.ptr .c16 x, .int .uint ((0 : Nat) : Int)] K := by
  same Ast.unicodeLength_16_Len

theorem unicodeLength_P16 (p : Ptr U16) (hr : size p < r) :
    call% (d + 4) "unicodeLength" [arg16 p] K =
    (Ansak.unicodeLength16 p 0).out fun x => K (.int .uint (x.toNat : Int)) [none, none] := by
  exact (unicodeLength_16_default _).trans (unicodeLength_16_core p 0 hr)

theorem unicodeLength_S16 (src : List U16) (hr : src.length + 1 < r) :
    call% (d + 5) "unicodeLength" [.str .c16 (units16 src)] K =
    (Ansak.unicodeLength16S src).out fun x => K (.int .uint (x.toNat : Int)) [none] := by
  have h (K) := unicodeLength_P16 (E := E) (X := X) (sc := sc) (r := r) (d := d) (K := K) (w := w) (s := s) (cStr src)
    (by rw [size_cStr]; exact hr)
  rw [arg16_cStr] at h
  unfold Ansak.unicodeLength16S
  wrapper Ast.unicodeLength_S16

theorem unicodeLength_32_default (x : Option (List Int × Int)) : call% (d + 2) "unicodeLength" [.ptr .c32 x] K =
    call% (d + 2) "unicodeLength" [.ptr .c32 x, .int .uint ((0 : Nat) : Int)] K := by
  same Ast.unicodeLength_32_Len

theorem unicodeLength_P32 (p : Ptr U32) (hr : size p < r) :
    call% (d + 4) "unicodeLength" [arg32 p] K =
    (Ansak.unicodeLength32 p 0).out fun x => K (.int .uint (x.toNat : Int)) [none, none] := by
  exact (unicodeLength_32_default _).trans (unicodeLength_32_core p 0 hr)

theorem unicodeLength_S32 (src : List U32) (hr : src.length + 1 < r) :
    call% (d + 5) "unicodeLength" [.str .c32 (units32 src)] K =
    (Ansak.unicodeLength32S src).out fun x => K (.int .uint (x.toNat : Int)) [none] := by
  have h (K) := unicodeLength_P32 (E := E) (X := X) (sc := sc) (r := r) (d := d) (K := K) (w := w) (s := s) (cStr src)
    (by rw [size_cStr]; exact hr)
  rw [arg32_cStr] at h
  unfold Ansak.unicodeLength32S
  wrapper Ast.unicodeLength_S32

/-! ## Calls that leave arguments out -/

theorem isUtf8_P_default (x : Option (List Int × Int)) : call% (d + 2) "isUtf8" [.ptr .char x] K =
    call% (d + 2) "isUtf8" [.ptr .char x, rangeType ((nat_lit 1 : Nat) : Int), predVal Pred.none] K := by
  same Ast.isUtf8_8_E_Pred

theorem isUtf8_P_range (x : Option (List Int × Int)) (t : Int) : call% (d + 2) "isUtf8" [.ptr .char x, rangeType t] K =
    call% (d + 2) "isUtf8" [.ptr .char x, rangeType t, predVal Pred.none] K := by
  same Ast.isUtf8_8_E_Pred

theorem isUtf8_P1 (hX : X.Are sc U lower turkic) (p : Ptr Byte) (hr : size p < r) :
    call% (d + 5) "isUtf8" [arg8 sc p] K =
    (Ansak.isUtf8P1 U p).out fun x => K (ofBool x) [none, none, none] := by
  exact (isUtf8_P_default _).trans (isUtf8_P3 hX p kUtf8 Pred.none hr)

theorem isUtf8_PR (hX : X.Are sc U lower turkic) (p : Ptr Byte) (t : Int) (hr : size p < r) :
    call% (d + 5) "isUtf8" [arg8 sc p, rangeType t] K =
    (Ansak.isUtf8 U p t Pred.none).out fun x => K (ofBool x) [none, none, none] := by
  exact (isUtf8_P_range _ t).trans (isUtf8_P3 hX p t Pred.none hr)

theorem isUtf8_P2 (hX : X.Are sc U lower turkic) (p : Ptr Byte) (q : Pred) (hr : size p < r) :
    call% (d + 6) "isUtf8" [arg8 sc p, predVal q] K =
    (Ansak.isUtf8P2 U p q).out fun x => K (ofBool x) [none, none] := by
  have h (K) := isUtf8_P3 (E := E) (r := r) (d := d) (K := K) (w := w) (s := s) hX p ((nat_lit 1 : Nat) : Int) q hr
  unfold Ansak.isUtf8P2
  unfold arg8 at h ⊢
  generalize p.map _ = y at h ⊢
  wrapper Ast.isUtf8_8_Pred

theorem isUtf8_S_default (x : List Int) : call% (d + 2) "isUtf8" [.str .char x] K =
    call% (d + 2) "isUtf8" [.str .char x, rangeType ((nat_lit 1 : Nat) : Int), predVal Pred.none] K := by
  same Ast.isUtf8_S8_E_Pred

theorem isUtf8_S_range (x : List Int) (t : Int) : call% (d + 2) "isUtf8" [.str .char x, rangeType t] K =
    call% (d + 2) "isUtf8" [.str .char x, rangeType t, predVal Pred.none] K := by
  same Ast.isUtf8_S8_E_Pred

theorem isUtf8_S1 (hX : X.Are sc U lower turkic) (test : List Byte) (hr : test.length + 1 < r) :
    call% (d + 5) "isUtf8" [.str .char (units8 sc test)] K =
    (Ansak.isUtf8S1 U test).out fun x => K (ofBool x) [none, none, none] := by
  exact (isUtf8_S_default _).trans (isUtf8_S3 hX test kUtf8 Pred.none hr)

theorem isUtf8_SR (hX : X.Are sc U lower turkic) (test : List Byte) (t : Int) (hr : test.length + 1 < r) :
    call% (d + 5) "isUtf8" [.str .char (units8 sc test), rangeType t] K =
    (Ansak.isUtf8S U test t Pred.none).out fun x => K (ofBool x) [none, none, none] := by
  exact (isUtf8_S_range _ t).trans (isUtf8_S3 hX test t Pred.none hr)

theorem isUtf8_S2 (hX : X.Are sc U lower turkic) (test : List Byte) (q : Pred) (hr : test.length + 1 < r) :
    call% (d + 6) "isUtf8" [.str .char (units8 sc test), predVal q] K =
    (Ansak.isUtf8S2 U test q).out fun x => K (ofBool x) [none, none] := by
  have h (K) := isUtf8_S3 (E := E) (r := r) (d := d) (K := K) (w := w) (s := s) hX test ((nat_lit 1 : Nat) : Int) q hr
  unfold Ansak.isUtf8S2
  wrapper Ast.isUtf8_S8_Pred

theorem isUtf16_P_default (x : Option (List Int × Int)) : call% (d + 2) "isUtf16" [.ptr .c16 x] K =
    call% (d + 2) "isUtf16" [.ptr .c16 x, rangeType ((nat_lit 3 : Nat) : Int), predVal Pred.none] K := by
  same Ast.isUtf16_16_E_Pred

theorem isUtf16_P_range (x : Option (List Int × Int)) (t : Int) : call% (d + 2) "isUtf16" [.ptr .c16 x, rangeType t] K =
    call% (d + 2) "isUtf16" [.ptr .c16 x, rangeType t, predVal Pred.none] K := by
  same Ast.isUtf16_16_E_Pred

theorem isUtf16_P1 (hX : X.Are sc U lower turkic) (p : Ptr U16) (hr : size p < r) :
    call% (d + 5) "isUtf16" [arg16 p] K =
    (Ansak.isUtf16P1 U p).out fun x => K (ofBool x) [none, none, none] := by
  exact (isUtf16_P_default _).trans (isUtf16_core (d := d + 1) hX p kUtf16 Pred.none hr)

theorem isUtf16_PR (hX : X.Are sc U lower turkic) (p : Ptr U16) (t : Int) (hr : size p < r) :
    call% (d + 5) "isUtf16" [arg16 p, rangeType t] K =
    (Ansak.isUtf16 U p t Pred.none).out fun x => K (ofBool x) [none, none, none] := by
  exact (isUtf16_P_range _ t).trans (isUtf16_core (d := d + 1) hX p t Pred.none hr)

theorem isUtf16_P2 (hX : X.Are sc U lower turkic) (p : Ptr U16) (q : Pred) (hr : size p < r) :
    call% (d + 6) "isUtf16" [arg16 p, predVal q] K =
    (Ansak.isUtf16P2 U p q).out fun x => K (ofBool x) [none, none] := by
  have h (K) := isUtf16_core (E := E) (r := r) (d := d + 1) (K := K) (w := w) (s := s) hX p ((nat_lit 3 : Nat) : Int) q hr
  unfold Ansak.isUtf16P2
  unfold arg16 at h ⊢
  generalize p.map _ = y at h ⊢
  wrapper Ast.isUtf16_16_Pred

theorem isUtf16_S_default (x : List Int) : call% (d + 2) "isUtf16" [.str .c16 x] K =
    call% (d + 2) "isUtf16" [.str .c16 x, rangeType ((nat_lit 3 : Nat) : Int), predVal Pred.none] K := by
  same Ast.isUtf16_S16_E_Pred

theorem isUtf16_S_range (x : List Int) (t : Int) : call% (d + 2) "isUtf16" [.str .c16 x, rangeType t] K =
    call% (d + 2) "isUtf16" [.str .c16 x, rangeType t, predVal Pred.none] K := by
  same Ast.isUtf16_S16_E_Pred

theorem isUtf16_S1 (hX : X.Are sc U lower turkic) (test : List U16) (hr : test.length + 1 < r) :
    call% (d + 5) "isUtf16" [.str .c16 (units16 test)] K =
    (Ansak.isUtf16S1 U test).out fun x => K (ofBool x) [none, none, none] := by
  exact (isUtf16_S_default _).trans (isUtf16_S3 hX test kUtf16 Pred.none hr)

theorem isUtf16_SR (hX : X.Are sc U lower turkic) (test : List U16) (t : Int) (hr : test.length + 1 < r) :
    call% (d + 5) "isUtf16" [.str .c16 (units16 test), rangeType t] K =
    (Ansak.isUtf16S U test t Pred.none).out fun x => K (ofBool x) [none, none, none] := by
  exact (isUtf16_S_range _ t).trans (isUtf16_S3 hX test t Pred.none hr)

theorem isUtf16_S2 (hX : X.Are sc U lower turkic) (test : List U16) (q : Pred) (hr : test.length + 1 < r) :
    call% (d + 6) "isUtf16" [.str .c16 (units16 test), predVal q] K =
    (Ansak.isUtf16S2 U test q).out fun x => K (ofBool x) [none, none] := by
  have h (K) := isUtf16_S3 (E := E) (r := r) (d := d) (K := K) (w := w) (s := s) hX test ((nat_lit 3 : Nat) : Int) q hr
  unfold Ansak.isUtf16S2
  wrapper Ast.isUtf16_S16_Pred

theorem isUcs2_P_default (x : Option (List Int × Int)) : call% (d + 2) "isUcs2" [.ptr .c16 x] K =
    call% (d + 2) "isUcs2" [.ptr .c16 x, rangeType ((nat_lit 2 : Nat) : Int), predVal Pred.none] K := by
  same Ast.isUcs2_16_E_Pred

theorem isUcs2_P_range (x : Option (List Int × Int)) (t : Int) : call% (d + 2) "isUcs2" [.ptr .c16 x, rangeType t] K =
    call% (d + 2) "isUcs2" [.ptr .c16 x, rangeType t, predVal Pred.none] K := by
  same Ast.isUcs2_16_E_Pred

theorem isUcs2_P1 (hX : X.Are sc U lower turkic) (p : Ptr U16) (hr : size p < r) :
    call% (d + 5) "isUcs2" [arg16 p] K =
    (Ansak.isUcs2P1 U p).out fun x => K (ofBool x) [none, none, none] := by
  exact (isUcs2_P_default _).trans (isUcs2_core (d := d + 1) hX p kUcs2 Pred.none hr)

theorem isUcs2_PR (hX : X.Are sc U lower turkic) (p : Ptr U16) (t : Int) (hr : size p < r) :
    call% (d + 5) "isUcs2" [arg16 p, rangeType t] K =
    (Ansak.isUcs2 U p t Pred.none).out fun x => K (ofBool x) [none, none, none] := by
  exact (isUcs2_P_range _ t).trans (isUcs2_core (d := d + 1) hX p t Pred.none hr)

theorem isUcs2_P2 (hX : X.Are sc U lower turkic) (p : Ptr U16) (q : Pred) (hr : size p < r) :
    call% (d + 6) "isUcs2" [arg16 p, predVal q] K =
    (Ansak.isUcs2P2 U p q).out fun x => K (ofBool x) [none, none] := by
  have h (K) := isUcs2_core (E := E) (r := r) (d := d + 1) (K := K) (w := w) (s := s) hX p ((nat_lit 2 : Nat) : Int) q hr
  unfold Ansak.isUcs2P2
  unfold arg16 at h ⊢
  generalize p.map _ = y at h ⊢
  wrapper Ast.isUcs2_16_Pred

theorem isUcs2_S_default (x : List Int) : call% (d + 2) "isUcs2" [.str .c16 x] K =
    call% (d + 2) "isUcs2" [.str .c16 x, rangeType ((nat_lit 2 : Nat) : Int), predVal Pred.none] K := by
  same Ast.isUcs2_S16_E_Pred

theorem isUcs2_S_range (x : List Int) (t : Int) : call% (d + 2) "isUcs2" [.str .c16 x, rangeType t] K =
    call% (d + 2) "isUcs2" [.str .c16 x, rangeType t, predVal Pred.none] K := by
  same Ast.isUcs2_S16_E_Pred

theorem isUcs2_S1 (hX : X.Are sc U lower turkic) (test : List U16) (hr : test.length + 1 < r) :
    call% (d + 5) "isUcs2" [.str .c16 (units16 test)] K =
    (Ansak.isUcs2S1 U test).out fun x => K (ofBool x) [none, none, none] := by
  exact (isUcs2_S_default _).trans (isUcs2_S3 hX test kUcs2 Pred.none hr)

theorem isUcs2_SR (hX : X.Are sc U lower turkic) (test : List U16) (t : Int) (hr : test.length + 1 < r) :
    call% (d + 5) "isUcs2" [.str .c16 (units16 test), rangeType t] K =
    (Ansak.isUcs2S U test t Pred.none).out fun x => K (ofBool x) [none, none, none] := by
  exact (isUcs2_S_range _ t).trans (isUcs2_S3 hX test t Pred.none hr)

theorem isUcs2_S2 (hX : X.Are sc U lower turkic) (test : List U16) (q : Pred) (hr : test.length + 1 < r) :
    call% (d + 6) "isUcs2" [.str .c16 (units16 test), predVal q] K =
    (Ansak.isUcs2S2 U test q).out fun x => K (ofBool x) [none, none] := by
  have h (K) := isUcs2_S3 (E := E) (r := r) (d := d) (K := K) (w := w) (s := s) hX test ((nat_lit 2 : Nat) : Int) q hr
  unfold Ansak.isUcs2S2
  wrapper Ast.isUcs2_S16_Pred

theorem isUcs4_P_default (x : Option (List Int × Int)) : call% (d + 2) "isUcs4" [.ptr .c32 x] K =
    call% (d + 2) "isUcs4" [.ptr .c32 x, rangeType ((nat_lit 4 : Nat) : Int), predVal Pred.none] K := by
  same Ast.isUcs4_32_E_Pred

theorem isUcs4_P_range (x : Option (List Int × Int)) (t : Int) : call% (d + 2) "isUcs4" [.ptr .c32 x, rangeType t] K =
    call% (d + 2) "isUcs4" [.ptr .c32 x, rangeType t, predVal Pred.none] K := by
  same Ast.isUcs4_32_E_Pred

theorem isUcs4_P1 (hX : X.Are sc U lower turkic) (p : Ptr U32) (hr : size p < r) :
    call% (d + 5) "isUcs4" [arg32 p] K =
    (Ansak.isUcs4P1 U p).out fun x => K (ofBool x) [none, none, none] := by
  exact (isUcs4_P_default _).trans (isUcs4_core (d := d + 1) hX p kUcs4 Pred.none hr)

theorem isUcs4_PR (hX : X.Are sc U lower turkic) (p : Ptr U32) (t : Int) (hr : size p < r) :
    call% (d + 5) "isUcs4" [arg32 p, rangeType t] K =
    (Ansak.isUcs4 U p t Pred.none).out fun x => K (ofBool x) [none, none, none] := by
  exact (isUcs4_P_range _ t).trans (isUcs4_core (d := d + 1) hX p t Pred.none hr)

theorem isUcs4_P2 (hX : X.Are sc U lower turkic) (p : Ptr U32) (q : Pred) (hr : size p < r) :
    call% (d + 6) "isUcs4" [arg32 p, predVal q] K =
    (Ansak.isUcs4P2 U p q).out fun x => K (ofBool x) [none, none] := by
  have h (K) := isUcs4_core (E := E) (r := r) (d := d + 1) (K := K) (w := w) (s := s) hX p ((nat_lit 4 : Nat) : Int) q hr
  unfold Ansak.isUcs4P2
  unfold arg32 at h ⊢
  generalize p.map _ = y at h ⊢
  wrapper Ast.isUcs4_32_Pred

theorem isUcs4_S_default (x : List Int) : call% (d + 2) "isUcs4" [.str .c32 x] K =
    call% (d + 2) "isUcs4" [.str .c32 x, rangeType ((nat_lit 4 : Nat) : Int), predVal Pred.none] K := by
  same Ast.isUcs4_S32_E_Pred

theorem isUcs4_S_range (x : List Int) (t : Int) : call% (d + 2) "isUcs4" [.str .c32 x, rangeType t] K =
    call% (d + 2) "isUcs4" [.str .c32 x, rangeType t, predVal Pred.none] K := by
  same Ast.isUcs4_S32_E_Pred

theorem isUcs4_S1 (hX : X.Are sc U lower turkic) (test : List U32) (hr : test.length + 1 < r) :
    call% (d + 5) "isUcs4" [.str .c32 (units32 test)] K =
    (Ansak.isUcs4S1 U test).out fun x => K (ofBool x) [none, none, none] := by
  exact (isUcs4_S_default _).trans (isUcs4_S3 hX test kUcs4 Pred.none hr)

theorem isUcs4_SR (hX : X.Are sc U lower turkic) (test : List U32) (t : Int) (hr : test.length + 1 < r) :
    call% (d + 5) "isUcs4" [.str .c32 (units32 test), rangeType t] K =
    (Ansak.isUcs4S U test t Pred.none).out fun x => K (ofBool x) [none, none, none] := by
  exact (isUcs4_S_range _ t).trans (isUcs4_S3 hX test t Pred.none hr)

theorem isUcs4_S2 (hX : X.Are sc U lower turkic) (test : List U32) (q : Pred) (hr : test.length + 1 < r) :
    call% (d + 6) "isUcs4" [.str .c32 (units32 test), predVal q] K =
    (Ansak.isUcs4S2 U test q).out fun x => K (ofBool x) [none, none] := by
  have h (K) := isUcs4_S3 (E := E) (r := r) (d := d) (K := K) (w := w) (s := s) hX test ((nat_lit 4 : Nat) : Int) q hr
  unfold Ansak.isUcs4S2
  wrapper Ast.isUcs4_S32_Pred

theorem isUtf8_length_default (x : Option (List Int × Int)) (n : Int) : call% (d + 2) "isUtf8" [.ptr .char x, .int .uint n] K =
    call% (d + 2) "isUtf8" [.ptr .char x, .int .uint n, predVal Pred.none] K := by
  same Ast.isUtf8_8_Len_Pred

theorem isUtf8_L2 (hX : X.Are sc U lower turkic) (p : Ptr Byte) (len : U32) (hr : size p < r) :
    call% (d + 5) "isUtf8" [arg8 sc p, .int .uint (len.toNat : Int)] K =
    (Ansak.isUtf8Len U p len Pred.none).out fun x => K (ofBool x) [none, none, none] := by
  exact (isUtf8_length_default _ _).trans (isUtf8_L3 hX p len Pred.none hr)

/-! ## `toLower` -/

theorem toUcs4From8Loop_length (p : List Byte) (res l : List U32) (h : toUcs4From8Loop p res = .ok l) :
    l.length ≤ res.length + p.length := by
  match p with
  | [] => rw [toUcs4From8Loop] at h; cases h
  | b :: t =>
    rw [toUcs4From8Loop] at h
    split at h
    · cases h; omega
    · split at h
      · cases h
      · cases h; exact Nat.zero_le _
      · rename_i c q e
        have := decodeUtf8_tail_lt e
        split at h
        · cases h; omega
        · have := toUcs4From8Loop_length q.tail (res ++ [c]) l h
          rw [List.length_append] at this
          have e1 : [c].length = 1 := rfl
          omega
termination_by p.length
decreasing_by exact decodeUtf8_tail_lt (by assumption)

theorem toUcs4From16Loop_length (p : List U16) (res l : List U32) (h : toUcs4From16Loop p res = .ok l) :
    l.length ≤ res.length + p.length := by
  match p with
  | [] => rw [toUcs4From16Loop] at h; cases h
  | c :: t =>
    have e1 (c : U32) : [c].length = 1 := rfl
    have e2 : (c :: t).length = t.length + 1 := rfl
    rw [toUcs4From16Loop.eq_def] at h
    dsimp only at h
    split at h
    · cases h; omega
    · split at h
      · cases t with
        | nil => cases h
        | cons c1 t =>
          dsimp only at h
          have e3 : (c1 :: t).length = t.length + 1 := rfl
          split at h
          · cases h; omega
          · split at h
            · cases h; exact Nat.zero_le _
            · have := toUcs4From16Loop_length t _ l h
              rw [List.length_append, e1] at this
              omega
      · split at h
        · cases h; exact Nat.zero_le _
        · have := toUcs4From16Loop_length t _ l h
          rw [List.length_append, e1] at this
          omega
termination_by p.length

theorem toUcs4From8S_length (src : List Byte) (l : List U32) (h : toUcs4From8S src = .ok l) :
    l.length ≤ src.length + 1 := by
  unfold toUcs4From8S toUcs4From8 ifNonEmpty cStr at h
  dsimp only at h
  cases e : readAt (src ++ [0]) 0 with
  | ub => rw [e] at h; cases h
  | ok b =>
    rw [e, Res.bind] at h
    split at h
    · cases h; exact Nat.zero_le _
    · have := toUcs4From8Loop_length _ _ _ h
      rw [List.length_append] at this
      simpa using this

theorem toUcs4From16S_length (src : List U16) (l : List U32) (h : toUcs4From16S src = .ok l) :
    l.length ≤ src.length + 1 := by
  unfold toUcs4From16S toUcs4From16 ifNonEmpty cStr at h
  dsimp only at h
  cases e : readAt (src ++ [0]) 0 with
  | ub => rw [e] at h; cases h
  | ok b =>
    rw [e, Res.bind] at h
    split at h
    · cases h; exact Nat.zero_le _
    · have := toUcs4From16Loop_length _ _ _ h
      rw [List.length_append] at this
      simpa using this

theorem toLowerLoop_length (f : U32 → U32) : ∀ (l res : List U32), (toLowerLoop f l res).length = res.length + l.length
  | [], res => rfl
  | c :: l, res => by
    rw [toLowerLoop, toLowerLoop_length f l, List.length_append]
    simp only [List.length_cons, List.length_nil]
    omega

theorem toLower32S_length {v : Version} (src : List U32) (lang : Ptr Byte) (l : List U32)
    (h : toLower32S v src lang = .ok l) : l.length = src.length := by
  unfold toLower32S at h
  cases e : isTurkicLang lang with
  | ub => rw [e] at h; cases h
  | ok b =>
    rw [e] at h
    cases h
    rw [toLowerLoop_length]
    exact Nat.zero_add _


theorem toLower_S8 {v : Version} (hX : X.Are sc U (Unicode.toLowerChar v) (Unicode.turkicToLowerChar v)) (src : List Byte)
    (lang : Ptr Byte) (hr : src.length + 2 < r) :
    call% (d + 8) "toLower" [.str .char (units8 sc src), arg8 sc lang] K =
    (Ansak.toLower8S v src lang).out fun x => K (.str .char (units8 sc x)) [none, none] := by
  have h1 (K) := toUcs4_S8 (E := E) (X := X) (sc := sc) (r := r) (d := d + 2) (K := K) (w := w) (s := s) src (by omega)
  have h2 (l) (K) := toLower_32_core (E := E) (r := r) (d := d + 5) (K := K) (w := w) (s := s) hX l lang
  have h3 (l : List U32) (hl : l.length + 1 < r) (K) :=
    toUtf8_S32 (E := E) (X := X) (sc := sc) (r := r) (d := d + 2) (K := K) (w := w) (s := s) l hl
  have len := toUcs4From8S_length src
  unfold Ansak.toLower8S
  unfold arg8 at h2 ⊢
  generalize lang.map _ = y at h2 ⊢
  enter Ast.toLower_S8_8
  run [h1]
  cases e : toUcs4From8S src with
  | ub => rfl
  | ok l =>
    have len := len l e
    by_hand [Res.bind]
    by_cases hl : l = []
    · subst hl
      have he : (units32 []).isEmpty = true := rfl
      run [out_ok]
      rfl
    · have he : (units32 l).isEmpty = false := by
        cases l with
        | nil => exact absurd rfl hl
        | cons c l => rfl
      run [out_ok, h2]
      rw [if_neg hl]
      cases e2 : toLower32S v l lang with
      | ub => rfl
      | ok m =>
        have := toLower32S_length l lang m e2
        have h4 := h3 m (by omega)
        run [out_ok]
        rw [h4]
        refine out_congr fun x => ?_
        run
        rfl


theorem toLower_S16 {v : Version} (hX : X.Are sc U (Unicode.toLowerChar v) (Unicode.turkicToLowerChar v)) (src : List U16)
    (lang : Ptr Byte) (hr : src.length + 2 < r) :
    call% (d + 8) "toLower" [.str .c16 (units16 src), arg8 sc lang] K =
    (Ansak.toLower16S v src lang).out fun x => K (.str .c16 (units16 x)) [none, none] := by
  have h1 (K) := toUcs4_S16 (E := E) (X := X) (sc := sc) (r := r) (d := d + 2) (K := K) (w := w) (s := s) src (by omega)
  have h2 (l) (K) := toLower_32_core (E := E) (r := r) (d := d + 5) (K := K) (w := w) (s := s) hX l lang
  have h3 (l : List U32) (hl : l.length + 1 < r) (K) :=
    toUtf16_S32 (E := E) (X := X) (sc := sc) (r := r) (d := d + 2) (K := K) (w := w) (s := s) l hl
  have len := toUcs4From16S_length src
  unfold Ansak.toLower16S
  unfold arg8 at h2 ⊢
  generalize lang.map _ = y at h2 ⊢
  enter Ast.toLower_S16_8
  run [h1]
  cases e : toUcs4From16S src with
  | ub => rfl
  | ok l =>
    have len := len l e
    by_hand [Res.bind]
    by_cases hl : l = []
    · subst hl
      have he : (units32 []).isEmpty = true := rfl
      run [out_ok]
      rfl
    · have he : (units32 l).isEmpty = false := by
        cases l with
        | nil => exact absurd rfl hl
        | cons c l => rfl
      run [out_ok, h2]
      rw [if_neg hl]
      cases e2 : toLower32S v l lang with
      | ub => rfl
      | ok m =>
        have := toLower32S_length l lang m e2
        have h4 := h3 m (by omega)
        run [out_ok]
        rw [h4]
        refine out_congr fun x => ?_
        run
        rfl


theorem toLower_S8_default (x : List Int) : call% (d + 2) "toLower" [.str .char x] K =
    call% (d + 2) "toLower" [.str .char x, .ptr .char none] K := by
  same Ast.toLower_S8_8

theorem toLower_S16_default (x : List Int) : call% (d + 2) "toLower" [.str .c16 x] K =
    call% (d + 2) "toLower" [.str .c16 x, .ptr .char none] K := by
  same Ast.toLower_S16_8

theorem toLower_S32_default (x : List Int) : call% (d + 2) "toLower" [.str .c32 x] K =
    call% (d + 2) "toLower" [.str .c32 x, .ptr .char none] K := by
  same Ast.toLower_S32_8

theorem toLower_S8_1 {v : Version} (hX : X.Are sc U (Unicode.toLowerChar v) (Unicode.turkicToLowerChar v))
    (src : List Byte) (hr : src.length + 2 < r) :
    call% (d + 8) "toLower" [.str .char (units8 sc src)] K =
    (Ansak.toLower8S v src none).out fun x => K (.str .char (units8 sc x)) [none, none] :=
  (toLower_S8_default _).trans (toLower_S8 hX src none hr)

theorem toLower_S16_1 {v : Version} (hX : X.Are sc U (Unicode.toLowerChar v) (Unicode.turkicToLowerChar v))
    (src : List U16) (hr : src.length + 2 < r) :
    call% (d + 8) "toLower" [.str .c16 (units16 src)] K =
    (Ansak.toLower16S v src none).out fun x => K (.str .c16 (units16 x)) [none, none] :=
  (toLower_S16_default _).trans (toLower_S16 hX src none hr)

theorem toLower_S32_1 {v : Version} (hX : X.Are sc U (Unicode.toLowerChar v) (Unicode.turkicToLowerChar v))
    (src : List U32) :
    call% (d + 2) "toLower" [.str .c32 (units32 src)] K =
    (Ansak.toLower32S v src none).out fun x => K (.str .c32 (units32 x)) [none, none] :=
  (toLower_S32_default _).trans (toLower_32_core hX src none)

theorem getUnicodeVersionSupported_call :
    call% (d + 1) "getUnicodeVersionSupported" [] K = K (.str .char s) [] := by
  enter Ast.getUnicodeVersionSupported
  run
  rfl

theorem differs_call (p q : Pred) :
    pcall% (d + 2) "operator!=" [predVal p, predVal q] K = K (ofBool (!p.eq q)) [some (predVal p), none] := by
  enter Ast.differs_Pred
  run [equals_call]
  cases p.eq q <;> rfl

theorem differs_itself (p : Pred) :
    pcall% (d + 2) "operator!=" [predVal p, .self] K = K (ofBool false) [some (predVal p), none] := by
  enter Ast.differs_Pred
  run [equals_itself]
  rfl

end Ansak.Cpp
