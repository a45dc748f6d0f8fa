import Verif.Model.Wide
import Verif.Lemmas.Cpp.Api

/-! # The functions for `wchar_t`, executed from their syntax trees -/

namespace Ansak.Cpp

variable {E : Sealed} {X : Externals} {sc : Bool} {r d : Nat} {K : Val → List (Option Val) → Out} {s : List Int}
variable {U : CharClass} {lower turkic : U32 → U32}

/-- A pointer to `wchar_t`. -/
def argW16 (p : Ptr U16) : Val := .ptr .wchar (p.map fun l => (units16 l, ((0 : Nat) : Int)))
@[inherit_doc argW16]
def argW32 (p : Ptr U32) : Val := .ptr .wchar (p.map fun l => (units32 l, ((0 : Nat) : Int)))

theorem units16_zero (src : List U16) : units16 (src ++ [0]) = (units16 src).append [0] := by
  simp only [units16, List.map_append, List.map_cons, List.map_nil]
  rfl

theorem units32_zero (src : List U32) : units32 (src ++ [0]) = (units32 src).append [0] := by
  simp only [units32, List.map_append, List.map_cons, List.map_nil]
  rfl

theorem argW16_cStr (src : List U16) : argW16 (cStr src) = .ptr .wchar (some ((units16 src).append [0], 0)) := by
  show Val.ptr .wchar (some (units16 (src ++ [0]), _)) = _
  rw [units16_zero]; rfl

theorem argW32_cStr (src : List U32) : argW32 (cStr src) = .ptr .wchar (some ((units32 src).append [0], 0)) := by
  show Val.ptr .wchar (some (units32 (src ++ [0]), _)) = _
  rw [units32_zero]; rfl

theorem out_bind {α β : Type} (o : Res α) (f : α → Res β) (k : β → Out) : (o.bind f).out k = o.out fun x => (f x).out k := by
  cases o <;> rfl

theorem untilZero_map {n : Nat} (l : List (BitVec n)) : (match untilZero (l.map fun c => (c.toNat : Int)) with
    | some s => Res.ok s
    | none => .ub) = (stringOfPtr (some l)).map (List.map fun c => (c.toNat : Int)) := by
  show _ = (stringOfPtr.go l).map _
  induction l with
  | nil => rfl
  | cons c l ih =>
    rw [List.map_cons, untilZero, stringOfPtr.go]
    by_cases h : c = 0
    · subst h
      rw [if_pos rfl, if_pos (by simp)]
      rfl
    · rw [if_neg h, if_neg (fun e => h (BitVec.eq_of_toNat_eq (by simpa using e)))]
      cases e : stringOfPtr.go l with
      | ub =>
        rw [e] at ih
        cases e' : untilZero (l.map fun c => (c.toNat : Int)) with
        | none => rfl
        | some t => rw [e'] at ih; cases ih
      | ok t =>
        rw [e] at ih
        cases e' : untilZero (l.map fun c => (c.toNat : Int)) with
        | none => rw [e'] at ih; cases ih
        | some t' => rw [e'] at ih; cases ih; rfl

theorem read_map {n : Nat} (E : Sealed) (l : List (BitVec n)) {i : Int} (hi : i = 0) (k : List Int → Out) :
    E.readString (l.map fun c => (c.toNat : Int)) i k =
      (stringOfPtr (some l)).out fun s => k (s.map fun c => (c.toNat : Int)) := by
  subst hi
  rw [E.readString_eq]
  unfold readString
  rw [if_pos (by decide), Int.toNat_zero, List.drop_zero]
  have h := untilZero_map l
  cases e : stringOfPtr (some l) with
  | ub =>
    rw [e] at h
    cases e' : untilZero (l.map fun c => (c.toNat : Int)) with
    | none => rfl
    | some t => rw [e'] at h; cases h
  | ok t =>
    rw [e] at h
    cases e' : untilZero (l.map fun c => (c.toNat : Int)) with
    | none => rw [e'] at h; cases h
    | some t' => rw [e'] at h; cases h; rfl

theorem read16 (E : Sealed) (l : List U16) (k : List Int → Out) : E.readString (units16 l) ((nat_lit 0 : Nat) : Int) k =
    (stringOfPtr (some l)).out fun s => k (units16 s) := read_map E l rfl k

theorem read32 (E : Sealed) (l : List U32) (k : List Int → Out) : E.readString (units32 l) ((nat_lit 0 : Nat) : Int) k =
    (stringOfPtr (some l)).out fun s => k (units32 s) := read_map E l rfl k

theorem readS16 (E : Sealed) (l : List U16) (k : List Int → Out) : E.readString ((units16 l).append [0]) 0 k =
    (stringOfPtr (cStr l)).out fun s => k (units16 s) := by
  rw [← units16_zero]; exact read_map E _ rfl k

theorem readS32 (E : Sealed) (l : List U32) (k : List Int → Out) : E.readString ((units32 l).append [0]) 0 k =
    (stringOfPtr (cStr l)).out fun s => k (units32 s) := by
  rw [← units32_zero]; exact read_map E _ rfl k

/-! ## `wchar_t` of 16 bits -/

theorem isUtf8_W_W16 (hX : X.Are sc U lower turkic) (p : Ptr U16) (hr : size p < r) :
    E.call (Ast.program false s) X sc r (d + 6) (nat_lit 0) (name% "isUtf8") [argW16 p] K =
    (W16.isUtf8W U p).out fun x => K (ofBool x) [none] := by
  have h (K) := isUtf16_PR (E := E) (X := X) (sc := sc) (r := r) (K := K) (w := false) (s := s) (d := d) hX p ((nat_lit 1 : Nat) : Int) hr
  unfold W16.isUtf8W
  unfold argW16
  unfold arg16 at h
  generalize p.map _ = y at h ⊢
  wrapper Ast.isUtf8_W_w16

theorem isUtf8_SW_W16 (hX : X.Are sc U lower turkic) (src : List U16) (hr : src.length + 1 < r) :
    E.call (Ast.program false s) X sc r (d + 7) (nat_lit 0) (name% "isUtf8") [.str .wchar (units16 src)] K =
    (W16.isUtf8WS U src).out fun x => K (ofBool x) [none] := by
  have h (K) := isUtf8_W_W16 (E := E) (X := X) (sc := sc) (r := r) (K := K) (s := s) (d := d) hX (cStr src) (by rw [size_cStr]; exact hr)
  rw [argW16_cStr] at h
  unfold W16.isUtf8WS
  wrapper Ast.isUtf8_SW_w16

theorem isUtf16_W_W16 (hX : X.Are sc U lower turkic) (p : Ptr U16) (hr : size p < r) :
    E.call (Ast.program false s) X sc r (d + 6) (nat_lit 0) (name% "isUtf16") [argW16 p] K =
    (W16.isUtf16W U p).out fun x => K (ofBool x) [none] := by
  have h (K) := isUtf16_PR (E := E) (X := X) (sc := sc) (r := r) (K := K) (w := false) (s := s) (d := d) hX p ((nat_lit 1 : Nat) : Int) hr
  unfold W16.isUtf16W
  unfold argW16
  unfold arg16 at h
  generalize p.map _ = y at h ⊢
  wrapper Ast.isUtf16_W_w16

theorem isUtf16_SW_W16 (hX : X.Are sc U lower turkic) (src : List U16) (hr : src.length + 1 < r) :
    E.call (Ast.program false s) X sc r (d + 7) (nat_lit 0) (name% "isUtf16") [.str .wchar (units16 src)] K =
    (W16.isUtf16WS U src).out fun x => K (ofBool x) [none] := by
  have h (K) := isUtf16_W_W16 (E := E) (X := X) (sc := sc) (r := r) (K := K) (s := s) (d := d) hX (cStr src) (by rw [size_cStr]; exact hr)
  rw [argW16_cStr] at h
  unfold W16.isUtf16WS
  wrapper Ast.isUtf16_SW_w16

theorem isUcs2_W_W16 (hX : X.Are sc U lower turkic) (p : Ptr U16) (hr : size p < r) :
    E.call (Ast.program false s) X sc r (d + 6) (nat_lit 0) (name% "isUcs2") [argW16 p] K =
    (W16.isUcs2W U p).out fun x => K (ofBool x) [none] := by
  have h (K) := isUtf16_PR (E := E) (X := X) (sc := sc) (r := r) (K := K) (w := false) (s := s) (d := d) hX p ((nat_lit 2 : Nat) : Int) hr
  unfold W16.isUcs2W
  unfold argW16
  unfold arg16 at h
  generalize p.map _ = y at h ⊢
  wrapper Ast.isUcs2_W_w16

theorem isUcs2_SW_W16 (hX : X.Are sc U lower turkic) (src : List U16) (hr : src.length + 1 < r) :
    E.call (Ast.program false s) X sc r (d + 7) (nat_lit 0) (name% "isUcs2") [.str .wchar (units16 src)] K =
    (W16.isUcs2WS U src).out fun x => K (ofBool x) [none] := by
  have h (K) := isUcs2_W_W16 (E := E) (X := X) (sc := sc) (r := r) (K := K) (s := s) (d := d) hX (cStr src) (by rw [size_cStr]; exact hr)
  rw [argW16_cStr] at h
  unfold W16.isUcs2WS
  wrapper Ast.isUcs2_SW_w16

theorem isUcs4_W_W16 (hX : X.Are sc U lower turkic) (p : Ptr U16) (hr : size p < r) :
    E.call (Ast.program false s) X sc r (d + 6) (nat_lit 0) (name% "isUcs4") [argW16 p] K =
    (W16.isUcs4W U p).out fun x => K (ofBool x) [none] := by
  have h (K) := isUtf16_PR (E := E) (X := X) (sc := sc) (r := r) (K := K) (w := false) (s := s) (d := d) hX p ((nat_lit 4 : Nat) : Int) hr
  unfold W16.isUcs4W
  unfold argW16
  unfold arg16 at h
  generalize p.map _ = y at h ⊢
  wrapper Ast.isUcs4_W_w16

theorem isUcs4_SW_W16 (hX : X.Are sc U lower turkic) (src : List U16) (hr : src.length + 1 < r) :
    E.call (Ast.program false s) X sc r (d + 7) (nat_lit 0) (name% "isUcs4") [.str .wchar (units16 src)] K =
    (W16.isUcs4WS U src).out fun x => K (ofBool x) [none] := by
  have h (K) := isUcs4_W_W16 (E := E) (X := X) (sc := sc) (r := r) (K := K) (s := s) (d := d) hX (cStr src) (by rw [size_cStr]; exact hr)
  rw [argW16_cStr] at h
  unfold W16.isUcs4WS
  wrapper Ast.isUcs4_SW_w16

theorem isWstring_8_W16 (hX : X.Are sc U lower turkic) (p : Ptr Byte) (hr : size p < r) :
    E.call (Ast.program false s) X sc r (d + 6) (nat_lit 0) (name% "isWstring") [arg8 sc p] K =
    (W16.isWstring8 U p).out fun x => K (ofBool x) [none] := by
  have h (K) := isUtf8_PR (E := E) (X := X) (sc := sc) (r := r) (K := K) (w := false) (s := s) (d := d) hX p ((nat_lit 3 : Nat) : Int) hr
  unfold W16.isWstring8
  unfold arg8
  unfold arg8 at h
  generalize p.map _ = y at h ⊢
  wrapper Ast.isWstring_8_w16

theorem isWstring_S8_W16 (hX : X.Are sc U lower turkic) (src : List Byte) (hr : src.length + 1 < r) :
    E.call (Ast.program false s) X sc r (d + 6) (nat_lit 0) (name% "isWstring") [.str .char (units8 sc src)] K =
    (W16.isWstring8S U src).out fun x => K (ofBool x) [none] := by
  have h (K) := isUtf8_SR (E := E) (X := X) (sc := sc) (r := r) (K := K) (w := false) (s := s) (d := d) hX src ((nat_lit 3 : Nat) : Int) hr
  unfold W16.isWstring8S
  wrapper Ast.isWstring_S8_w16

theorem isWstring_16_W16 (hX : X.Are sc U lower turkic) (p : Ptr U16) (hr : size p < r) :
    E.call (Ast.program false s) X sc r (d + 6) (nat_lit 0) (name% "isWstring") [arg16 p] K =
    (W16.isWstring16 U p).out fun x => K (ofBool x) [none] := by
  have h (K) := isUtf16_P1 (E := E) (X := X) (sc := sc) (r := r) (K := K) (w := false) (s := s) (d := d) hX p hr
  unfold W16.isWstring16
  unfold arg16
  unfold arg16 at h
  generalize p.map _ = y at h ⊢
  wrapper Ast.isWstring_16_w16

theorem isWstring_S16_W16 (hX : X.Are sc U lower turkic) (src : List U16) (hr : src.length + 1 < r) :
    E.call (Ast.program false s) X sc r (d + 6) (nat_lit 0) (name% "isWstring") [.str .c16 (units16 src)] K =
    (W16.isWstring16S U src).out fun x => K (ofBool x) [none] := by
  have h (K) := isUtf16_S1 (E := E) (X := X) (sc := sc) (r := r) (K := K) (w := false) (s := s) (d := d) hX src hr
  unfold W16.isWstring16S
  wrapper Ast.isWstring_S16_w16

theorem isWstring_32_W16 (hX : X.Are sc U lower turkic) (p : Ptr U32) (hr : size p < r) :
    E.call (Ast.program false s) X sc r (d + 6) (nat_lit 0) (name% "isWstring") [arg32 p] K =
    (W16.isWstring32 U p).out fun x => K (ofBool x) [none] := by
  have h (K) := isUcs4_PR (E := E) (X := X) (sc := sc) (r := r) (K := K) (w := false) (s := s) (d := d) hX p ((nat_lit 3 : Nat) : Int) hr
  unfold W16.isWstring32
  unfold arg32
  unfold arg32 at h
  generalize p.map _ = y at h ⊢
  wrapper Ast.isWstring_32_w16

theorem isWstring_S32_W16 (hX : X.Are sc U lower turkic) (src : List U32) (hr : src.length + 1 < r) :
    E.call (Ast.program false s) X sc r (d + 6) (nat_lit 0) (name% "isWstring") [.str .c32 (units32 src)] K =
    (W16.isWstring32S U src).out fun x => K (ofBool x) [none] := by
  have h (K) := isUcs4_SR (E := E) (X := X) (sc := sc) (r := r) (K := K) (w := false) (s := s) (d := d) hX src ((nat_lit 3 : Nat) : Int) hr
  unfold W16.isWstring32S
  wrapper Ast.isWstring_S32_w16

theorem toUtf8_W_W16 (p : Ptr U16) (hr : size p < r) :
    E.call (Ast.program false s) X sc r (d + 5) (nat_lit 0) (name% "toUtf8") [argW16 p] K =
    (W16.toUtf8W p).out fun x => K (.str .char (units8 sc x)) [none] := by
  have h (K) := toUtf8_16_core (E := E) (X := X) (sc := sc) (r := r) (K := K) (w := false) (s := s) (d := d) p hr
  unfold W16.toUtf8W
  unfold argW16
  unfold arg16 at h
  generalize p.map _ = y at h ⊢
  wrapper Ast.toUtf8_W_w16

theorem toUtf8_SW_W16 (src : List U16) (hr : src.length + 1 < r) :
    E.call (Ast.program false s) X sc r (d + 6) (nat_lit 0) (name% "toUtf8") [.str .wchar (units16 src)] K =
    (W16.toUtf8WS src).out fun x => K (.str .char (units8 sc x)) [none] := by
  have h (K) := toUtf8_W_W16 (E := E) (X := X) (sc := sc) (r := r) (K := K) (s := s) (d := d) (cStr src) (by rw [size_cStr]; exact hr)
  rw [argW16_cStr] at h
  unfold W16.toUtf8WS
  wrapper Ast.toUtf8_SW_w16

theorem toUtf16_W_W16 (hX : X.Are sc U lower turkic) (p : Ptr U16) (hr : size p < r) :
    E.call (Ast.program false s) X sc r (d + 6) (nat_lit 0) (name% "toUtf16") [argW16 p] K =
    (W16.toUtf16W U p).out fun x => K (.str .c16 (units16 x)) [none] := by
  have h (K) := isUtf16_P1 (E := E) (X := X) (sc := sc) (r := r) (K := K) (w := false) (s := s) (d := d) hX p hr
  unfold W16.toUtf16W
  unfold argW16
  unfold arg16 at h
  cases p with
  | none =>
    rw [Option.map_none] at h ⊢
    enter Ast.toUtf16_W_w16
    run [h]
    rw [out_bind]
    refine out_congr fun x => ?_
    cases x <;> (run; rfl)
  | some l =>
    rw [Option.map_some] at h ⊢
    enter Ast.toUtf16_W_w16
    run [h]
    rw [out_bind]
    refine out_congr fun x => ?_
    cases x with
    | true =>
      run [read16 E]
      rw [if_pos rfl]
      refine out_congr fun x => ?_
      run
      rfl
    | false => run; rfl

theorem toUtf16_SW_W16 (hX : X.Are sc U lower turkic) (src : List U16) (hr : src.length + 1 < r) :
    E.call (Ast.program false s) X sc r (d + 7) (nat_lit 0) (name% "toUtf16") [.str .wchar (units16 src)] K =
    (W16.toUtf16WS U src).out fun x => K (.str .c16 (units16 x)) [none] := by
  have h (K) := toUtf16_W_W16 (E := E) (X := X) (sc := sc) (r := r) (K := K) (s := s) (d := d) hX (cStr src) (by rw [size_cStr]; exact hr)
  rw [argW16_cStr] at h
  unfold W16.toUtf16WS
  wrapper Ast.toUtf16_SW_w16

theorem toUcs2_W_W16 (hX : X.Are sc U lower turkic) (p : Ptr U16) (hr : size p < r) :
    E.call (Ast.program false s) X sc r (d + 6) (nat_lit 0) (name% "toUcs2") [argW16 p] K =
    (W16.toUcs2W U p).out fun x => K (.str .c16 (units16 x)) [none] := by
  have h (K) := isUcs2_P1 (E := E) (X := X) (sc := sc) (r := r) (K := K) (w := false) (s := s) (d := d) hX p hr
  unfold W16.toUcs2W
  unfold argW16
  unfold arg16 at h
  cases p with
  | none =>
    rw [Option.map_none] at h ⊢
    enter Ast.toUcs2_W_w16
    run [h]
    rw [out_bind]
    refine out_congr fun x => ?_
    cases x <;> (run; rfl)
  | some l =>
    rw [Option.map_some] at h ⊢
    enter Ast.toUcs2_W_w16
    run [h]
    rw [out_bind]
    refine out_congr fun x => ?_
    cases x with
    | true =>
      run [read16 E]
      rw [if_pos rfl]
      refine out_congr fun x => ?_
      run
      rfl
    | false => run; rfl

theorem toUcs2_SW_W16 (hX : X.Are sc U lower turkic) (src : List U16) (hr : src.length + 1 < r) :
    E.call (Ast.program false s) X sc r (d + 7) (nat_lit 0) (name% "toUcs2") [.str .wchar (units16 src)] K =
    (W16.toUcs2WS U src).out fun x => K (.str .c16 (units16 x)) [none] := by
  have h (K) := toUcs2_W_W16 (E := E) (X := X) (sc := sc) (r := r) (K := K) (s := s) (d := d) hX (cStr src) (by rw [size_cStr]; exact hr)
  rw [argW16_cStr] at h
  unfold W16.toUcs2WS
  wrapper Ast.toUcs2_SW_w16

theorem toUcs4_W_W16 (p : Ptr U16) (hr : size p < r) :
    E.call (Ast.program false s) X sc r (d + 5) (nat_lit 0) (name% "toUcs4") [argW16 p] K =
    (W16.toUcs4W p).out fun x => K (.str .c32 (units32 x)) [none] := by
  have h (K) := toUcs4_16_core (E := E) (X := X) (sc := sc) (r := r) (K := K) (w := false) (s := s) (d := d) p hr
  unfold W16.toUcs4W
  unfold argW16
  unfold arg16 at h
  generalize p.map _ = y at h ⊢
  wrapper Ast.toUcs4_W_w16

theorem toUcs4_SW_W16 (src : List U16) (hr : src.length + 1 < r) :
    E.call (Ast.program false s) X sc r (d + 6) (nat_lit 0) (name% "toUcs4") [.str .wchar (units16 src)] K =
    (W16.toUcs4WS src).out fun x => K (.str .c32 (units32 x)) [none] := by
  have h (K) := toUcs4_W_W16 (E := E) (X := X) (sc := sc) (r := r) (K := K) (s := s) (d := d) (cStr src) (by rw [size_cStr]; exact hr)
  rw [argW16_cStr] at h
  unfold W16.toUcs4WS
  wrapper Ast.toUcs4_SW_w16

theorem toWstring_8_W16 (p : Ptr Byte) (hr : size p < r) :
    E.call (Ast.program false s) X sc r (d + 5) (nat_lit 0) (name% "toWstring") [arg8 sc p] K =
    (W16.toWstring8 p).out fun x => K (.str .wchar (units16 x)) [none] := by
  have h (K) := toUtf16_8_core (E := E) (X := X) (sc := sc) (r := r) (K := K) (w := false) (s := s) (d := d) p hr
  unfold W16.toWstring8
  unfold arg8 at h ⊢
  generalize p.map _ = y at h ⊢
  enter Ast.toWstring_8_w16
  run [h]
  rw [out_bind]
  refine out_congr fun x => ?_
  run [readS16 E]
  refine out_congr fun x => ?_
  run
  rfl

theorem toWstring_S8_W16 (src : List Byte) (hr : src.length + 1 < r) :
    E.call (Ast.program false s) X sc r (d + 6) (nat_lit 0) (name% "toWstring") [.str .char (units8 sc src)] K =
    (W16.toWstring8S src).out fun x => K (.str .wchar (units16 x)) [none] := by
  have h (K) := toWstring_8_W16 (E := E) (X := X) (sc := sc) (r := r) (K := K) (s := s) (d := d) (cStr src) (by rw [size_cStr]; exact hr)
  rw [arg8_cStr] at h
  unfold W16.toWstring8S
  wrapper Ast.toWstring_S8_w16

theorem toWstring_16_W16 (hX : X.Are sc U lower turkic) (p : Ptr U16) (hr : size p < r) :
    E.call (Ast.program false s) X sc r (d + 6) (nat_lit 0) (name% "toWstring") [arg16 p] K =
    (W16.toWstring16 U p).out fun x => K (.str .wchar (units16 x)) [none] := by
  have h (K) := isUtf16_P1 (E := E) (X := X) (sc := sc) (r := r) (K := K) (w := false) (s := s) (d := d) hX p hr
  unfold W16.toWstring16
  unfold arg16
  unfold arg16 at h
  cases p with
  | none =>
    rw [Option.map_none] at h ⊢
    enter Ast.toWstring_16_w16
    run [h]
    rw [out_bind]
    refine out_congr fun x => ?_
    cases x <;> (run; rfl)
  | some l =>
    rw [Option.map_some] at h ⊢
    enter Ast.toWstring_16_w16
    run [h]
    rw [out_bind]
    refine out_congr fun x => ?_
    cases x with
    | true =>
      run [read16 E]
      rw [if_pos rfl]
      refine out_congr fun x => ?_
      run
      rfl
    | false => run; rfl

theorem toWstring_S16_W16 (hX : X.Are sc U lower turkic) (src : List U16) (hr : src.length + 1 < r) :
    E.call (Ast.program false s) X sc r (d + 7) (nat_lit 0) (name% "toWstring") [.str .c16 (units16 src)] K =
    (W16.toWstring16S U src).out fun x => K (.str .wchar (units16 x)) [none] := by
  have h (K) := toWstring_16_W16 (E := E) (X := X) (sc := sc) (r := r) (K := K) (s := s) (d := d) hX (cStr src) (by rw [size_cStr]; exact hr)
  rw [arg16_cStr] at h
  unfold W16.toWstring16S
  wrapper Ast.toWstring_S16_w16

theorem toWstring_32_W16 (p : Ptr U32) (hr : size p < r) :
    E.call (Ast.program false s) X sc r (d + 5) (nat_lit 0) (name% "toWstring") [arg32 p] K =
    (W16.toWstring32 p).out fun x => K (.str .wchar (units16 x)) [none] := by
  have h (K) := toUtf16_32_core (E := E) (X := X) (sc := sc) (r := r) (K := K) (w := false) (s := s) (d := d) p hr
  unfold W16.toWstring32
  unfold arg32 at h ⊢
  generalize p.map _ = y at h ⊢
  enter Ast.toWstring_32_w16
  run [h]
  rw [out_bind]
  refine out_congr fun x => ?_
  run [readS16 E]
  refine out_congr fun x => ?_
  run
  rfl

theorem toWstring_S32_W16 (src : List U32) (hr : src.length + 1 < r) :
    E.call (Ast.program false s) X sc r (d + 6) (nat_lit 0) (name% "toWstring") [.str .c32 (units32 src)] K =
    (W16.toWstring32S src).out fun x => K (.str .wchar (units16 x)) [none] := by
  have h (K) := toWstring_32_W16 (E := E) (X := X) (sc := sc) (r := r) (K := K) (s := s) (d := d) (cStr src) (by rw [size_cStr]; exact hr)
  rw [arg32_cStr] at h
  unfold W16.toWstring32S
  wrapper Ast.toWstring_S32_w16

/-! ## `wchar_t` of 32 bits -/

theorem isUtf8_W_W32 (hX : X.Are sc U lower turkic) (p : Ptr U32) (hr : size p < r) :
    E.call (Ast.program true s) X sc r (d + 6) (nat_lit 0) (name% "isUtf8") [argW32 p] K =
    (W32.isUtf8W U p).out fun x => K (ofBool x) [none] := by
  have h (K) := isUcs4_PR (E := E) (X := X) (sc := sc) (r := r) (K := K) (w := true) (s := s) (d := d) hX p ((nat_lit 3 : Nat) : Int) hr
  unfold W32.isUtf8W
  unfold argW32
  unfold arg32 at h
  generalize p.map _ = y at h ⊢
  wrapper Ast.isUtf8_W_w32

theorem isUtf8_SW_W32 (hX : X.Are sc U lower turkic) (src : List U32) (hr : src.length + 1 < r) :
    E.call (Ast.program true s) X sc r (d + 7) (nat_lit 0) (name% "isUtf8") [.str .wchar (units32 src)] K =
    (W32.isUtf8WS U src).out fun x => K (ofBool x) [none] := by
  have h (K) := isUtf8_W_W32 (E := E) (X := X) (sc := sc) (r := r) (K := K) (s := s) (d := d) hX (cStr src) (by rw [size_cStr]; exact hr)
  rw [argW32_cStr] at h
  unfold W32.isUtf8WS
  wrapper Ast.isUtf8_SW_w32

theorem isUtf16_W_W32 (hX : X.Are sc U lower turkic) (p : Ptr U32) (hr : size p < r) :
    E.call (Ast.program true s) X sc r (d + 6) (nat_lit 0) (name% "isUtf16") [argW32 p] K =
    (W32.isUtf16W U p).out fun x => K (ofBool x) [none] := by
  have h (K) := isUcs4_PR (E := E) (X := X) (sc := sc) (r := r) (K := K) (w := true) (s := s) (d := d) hX p ((nat_lit 3 : Nat) : Int) hr
  unfold W32.isUtf16W
  unfold argW32
  unfold arg32 at h
  generalize p.map _ = y at h ⊢
  wrapper Ast.isUtf16_W_w32

theorem isUtf16_SW_W32 (hX : X.Are sc U lower turkic) (src : List U32) (hr : src.length + 1 < r) :
    E.call (Ast.program true s) X sc r (d + 7) (nat_lit 0) (name% "isUtf16") [.str .wchar (units32 src)] K =
    (W32.isUtf16WS U src).out fun x => K (ofBool x) [none] := by
  have h (K) := isUtf16_W_W32 (E := E) (X := X) (sc := sc) (r := r) (K := K) (s := s) (d := d) hX (cStr src) (by rw [size_cStr]; exact hr)
  rw [argW32_cStr] at h
  unfold W32.isUtf16WS
  wrapper Ast.isUtf16_SW_w32

theorem isUcs2_W_W32 (hX : X.Are sc U lower turkic) (p : Ptr U32) (hr : size p < r) :
    E.call (Ast.program true s) X sc r (d + 6) (nat_lit 0) (name% "isUcs2") [argW32 p] K =
    (W32.isUcs2W U p).out fun x => K (ofBool x) [none] := by
  have h (K) := isUcs4_PR (E := E) (X := X) (sc := sc) (r := r) (K := K) (w := true) (s := s) (d := d) hX p ((nat_lit 2 : Nat) : Int) hr
  unfold W32.isUcs2W
  unfold argW32
  unfold arg32 at h
  generalize p.map _ = y at h ⊢
  wrapper Ast.isUcs2_W_w32

theorem isUcs2_SW_W32 (hX : X.Are sc U lower turkic) (src : List U32) (hr : src.length + 1 < r) :
    E.call (Ast.program true s) X sc r (d + 7) (nat_lit 0) (name% "isUcs2") [.str .wchar (units32 src)] K =
    (W32.isUcs2WS U src).out fun x => K (ofBool x) [none] := by
  have h (K) := isUcs2_W_W32 (E := E) (X := X) (sc := sc) (r := r) (K := K) (s := s) (d := d) hX (cStr src) (by rw [size_cStr]; exact hr)
  rw [argW32_cStr] at h
  unfold W32.isUcs2WS
  wrapper Ast.isUcs2_SW_w32

theorem isUcs4_W_W32 (hX : X.Are sc U lower turkic) (p : Ptr U32) (hr : size p < r) :
    E.call (Ast.program true s) X sc r (d + 6) (nat_lit 0) (name% "isUcs4") [argW32 p] K =
    (W32.isUcs4W U p).out fun x => K (ofBool x) [none] := by
  have h (K) := isUcs4_PR (E := E) (X := X) (sc := sc) (r := r) (K := K) (w := true) (s := s) (d := d) hX p ((nat_lit 3 : Nat) : Int) hr
  unfold W32.isUcs4W
  unfold argW32
  unfold arg32 at h
  generalize p.map _ = y at h ⊢
  wrapper Ast.isUcs4_W_w32

theorem isUcs4_SW_W32 (hX : X.Are sc U lower turkic) (src : List U32) (hr : src.length + 1 < r) :
    E.call (Ast.program true s) X sc r (d + 7) (nat_lit 0) (name% "isUcs4") [.str .wchar (units32 src)] K =
    (W32.isUcs4WS U src).out fun x => K (ofBool x) [none] := by
  have h (K) := isUcs4_W_W32 (E := E) (X := X) (sc := sc) (r := r) (K := K) (s := s) (d := d) hX (cStr src) (by rw [size_cStr]; exact hr)
  rw [argW32_cStr] at h
  unfold W32.isUcs4WS
  wrapper Ast.isUcs4_SW_w32

theorem isWstring_8_W32 (hX : X.Are sc U lower turkic) (p : Ptr Byte) (hr : size p < r) :
    E.call (Ast.program true s) X sc r (d + 6) (nat_lit 0) (name% "isWstring") [arg8 sc p] K =
    (W32.isWstring8 U p).out fun x => K (ofBool x) [none] := by
  have h (K) := isUtf8_PR (E := E) (X := X) (sc := sc) (r := r) (K := K) (w := true) (s := s) (d := d) hX p ((nat_lit 3 : Nat) : Int) hr
  unfold W32.isWstring8
  unfold arg8
  unfold arg8 at h
  generalize p.map _ = y at h ⊢
  wrapper Ast.isWstring_8_w32

theorem isWstring_S8_W32 (hX : X.Are sc U lower turkic) (src : List Byte) (hr : src.length + 1 < r) :
    E.call (Ast.program true s) X sc r (d + 6) (nat_lit 0) (name% "isWstring") [.str .char (units8 sc src)] K =
    (W32.isWstring8S U src).out fun x => K (ofBool x) [none] := by
  have h (K) := isUtf8_SR (E := E) (X := X) (sc := sc) (r := r) (K := K) (w := true) (s := s) (d := d) hX src ((nat_lit 3 : Nat) : Int) hr
  unfold W32.isWstring8S
  wrapper Ast.isWstring_S8_w32

theorem isWstring_16_W32 (hX : X.Are sc U lower turkic) (p : Ptr U16) (hr : size p < r) :
    E.call (Ast.program true s) X sc r (d + 6) (nat_lit 0) (name% "isWstring") [arg16 p] K =
    (W32.isWstring16 U p).out fun x => K (ofBool x) [none] := by
  have h (K) := isUtf16_PR (E := E) (X := X) (sc := sc) (r := r) (K := K) (w := true) (s := s) (d := d) hX p ((nat_lit 4 : Nat) : Int) hr
  unfold W32.isWstring16
  unfold arg16
  unfold arg16 at h
  generalize p.map _ = y at h ⊢
  wrapper Ast.isWstring_16_w32

theorem isWstring_S16_W32 (hX : X.Are sc U lower turkic) (src : List U16) (hr : src.length + 1 < r) :
    E.call (Ast.program true s) X sc r (d + 6) (nat_lit 0) (name% "isWstring") [.str .c16 (units16 src)] K =
    (W32.isWstring16S U src).out fun x => K (ofBool x) [none] := by
  have h (K) := isUtf16_SR (E := E) (X := X) (sc := sc) (r := r) (K := K) (w := true) (s := s) (d := d) hX src ((nat_lit 4 : Nat) : Int) hr
  unfold W32.isWstring16S
  wrapper Ast.isWstring_S16_w32

theorem isWstring_32_W32 (hX : X.Are sc U lower turkic) (p : Ptr U32) (hr : size p < r) :
    E.call (Ast.program true s) X sc r (d + 6) (nat_lit 0) (name% "isWstring") [arg32 p] K =
    (W32.isWstring32 U p).out fun x => K (ofBool x) [none] := by
  have h (K) := isUcs4_PR (E := E) (X := X) (sc := sc) (r := r) (K := K) (w := true) (s := s) (d := d) hX p ((nat_lit 3 : Nat) : Int) hr
  unfold W32.isWstring32
  unfold arg32
  unfold arg32 at h
  generalize p.map _ = y at h ⊢
  wrapper Ast.isWstring_32_w32

theorem isWstring_S32_W32 (hX : X.Are sc U lower turkic) (src : List U32) (hr : src.length + 1 < r) :
    E.call (Ast.program true s) X sc r (d + 6) (nat_lit 0) (name% "isWstring") [.str .c32 (units32 src)] K =
    (W32.isWstring32S U src).out fun x => K (ofBool x) [none] := by
  have h (K) := isUcs4_SR (E := E) (X := X) (sc := sc) (r := r) (K := K) (w := true) (s := s) (d := d) hX src ((nat_lit 3 : Nat) : Int) hr
  unfold W32.isWstring32S
  wrapper Ast.isWstring_S32_w32

theorem toUtf8_W_W32 (p : Ptr U32) (hr : size p < r) :
    E.call (Ast.program true s) X sc r (d + 5) (nat_lit 0) (name% "toUtf8") [argW32 p] K =
    (W32.toUtf8W p).out fun x => K (.str .char (units8 sc x)) [none] := by
  have h (K) := toUtf8_32_core (E := E) (X := X) (sc := sc) (r := r) (K := K) (w := true) (s := s) (d := d) p hr
  unfold W32.toUtf8W
  unfold argW32
  unfold arg32 at h
  generalize p.map _ = y at h ⊢
  wrapper Ast.toUtf8_W_w32

theorem toUtf8_SW_W32 (src : List U32) (hr : src.length + 1 < r) :
    E.call (Ast.program true s) X sc r (d + 6) (nat_lit 0) (name% "toUtf8") [.str .wchar (units32 src)] K =
    (W32.toUtf8WS src).out fun x => K (.str .char (units8 sc x)) [none] := by
  have h (K) := toUtf8_W_W32 (E := E) (X := X) (sc := sc) (r := r) (K := K) (s := s) (d := d) (cStr src) (by rw [size_cStr]; exact hr)
  rw [argW32_cStr] at h
  unfold W32.toUtf8WS
  wrapper Ast.toUtf8_SW_w32

theorem toUtf16_W_W32 (p : Ptr U32) (hr : size p < r) :
    E.call (Ast.program true s) X sc r (d + 5) (nat_lit 0) (name% "toUtf16") [argW32 p] K =
    (W32.toUtf16W p).out fun x => K (.str .c16 (units16 x)) [none] := by
  have h (K) := toUtf16_32_core (E := E) (X := X) (sc := sc) (r := r) (K := K) (w := true) (s := s) (d := d) p hr
  unfold W32.toUtf16W
  unfold argW32
  unfold arg32 at h
  generalize p.map _ = y at h ⊢
  wrapper Ast.toUtf16_W_w32

theorem toUtf16_SW_W32 (src : List U32) (hr : src.length + 1 < r) :
    E.call (Ast.program true s) X sc r (d + 6) (nat_lit 0) (name% "toUtf16") [.str .wchar (units32 src)] K =
    (W32.toUtf16WS src).out fun x => K (.str .c16 (units16 x)) [none] := by
  have h (K) := toUtf16_W_W32 (E := E) (X := X) (sc := sc) (r := r) (K := K) (s := s) (d := d) (cStr src) (by rw [size_cStr]; exact hr)
  rw [argW32_cStr] at h
  unfold W32.toUtf16WS
  wrapper Ast.toUtf16_SW_w32

theorem toUcs2_W_W32 (p : Ptr U32) (hr : size p < r) :
    E.call (Ast.program true s) X sc r (d + 5) (nat_lit 0) (name% "toUcs2") [argW32 p] K =
    (W32.toUcs2W p).out fun x => K (.str .c16 (units16 x)) [none] := by
  have h (K) := toUcs2_32_core (E := E) (X := X) (sc := sc) (r := r) (K := K) (w := true) (s := s) (d := d) p hr
  unfold W32.toUcs2W
  unfold argW32
  unfold arg32 at h
  generalize p.map _ = y at h ⊢
  wrapper Ast.toUcs2_W_w32

theorem toUcs2_SW_W32 (src : List U32) (hr : src.length + 1 < r) :
    E.call (Ast.program true s) X sc r (d + 6) (nat_lit 0) (name% "toUcs2") [.str .wchar (units32 src)] K =
    (W32.toUcs2WS src).out fun x => K (.str .c16 (units16 x)) [none] := by
  have h (K) := toUcs2_W_W32 (E := E) (X := X) (sc := sc) (r := r) (K := K) (s := s) (d := d) (cStr src) (by rw [size_cStr]; exact hr)
  rw [argW32_cStr] at h
  unfold W32.toUcs2WS
  wrapper Ast.toUcs2_SW_w32

theorem toUcs4_W_W32 (hX : X.Are sc U lower turkic) (p : Ptr U32) (hr : size p < r) :
    E.call (Ast.program true s) X sc r (d + 6) (nat_lit 0) (name% "toUcs4") [argW32 p] K =
    (W32.toUcs4W U p).out fun x => K (.str .c32 (units32 x)) [none] := by
  have h (K) := isUcs4_PR (E := E) (X := X) (sc := sc) (r := r) (K := K) (w := true) (s := s) (d := d) hX p ((nat_lit 3 : Nat) : Int) hr
  unfold W32.toUcs4W
  unfold argW32
  unfold arg32 at h
  cases p with
  | none =>
    rw [Option.map_none] at h ⊢
    enter Ast.toUcs4_W_w32
    run [h]
    rw [out_bind]
    refine out_congr fun x => ?_
    cases x <;> (run; rfl)
  | some l =>
    rw [Option.map_some] at h ⊢
    enter Ast.toUcs4_W_w32
    run [h]
    rw [out_bind]
    refine out_congr fun x => ?_
    cases x with
    | true =>
      run [read32 E]
      rw [if_pos rfl]
      refine out_congr fun x => ?_
      run
      rfl
    | false => run; rfl

theorem toUcs4_SW_W32 (hX : X.Are sc U lower turkic) (src : List U32) (hr : src.length + 1 < r) :
    E.call (Ast.program true s) X sc r (d + 7) (nat_lit 0) (name% "toUcs4") [.str .wchar (units32 src)] K =
    (W32.toUcs4WS U src).out fun x => K (.str .c32 (units32 x)) [none] := by
  have h (K) := toUcs4_W_W32 (E := E) (X := X) (sc := sc) (r := r) (K := K) (s := s) (d := d) hX (cStr src) (by rw [size_cStr]; exact hr)
  rw [argW32_cStr] at h
  unfold W32.toUcs4WS
  wrapper Ast.toUcs4_SW_w32

theorem toWstring_8_W32 (p : Ptr Byte) (hr : size p < r) :
    E.call (Ast.program true s) X sc r (d + 5) (nat_lit 0) (name% "toWstring") [arg8 sc p] K =
    (W32.toWstring8 p).out fun x => K (.str .wchar (units32 x)) [none] := by
  have h (K) := toUcs4_8_core (E := E) (X := X) (sc := sc) (r := r) (K := K) (w := true) (s := s) (d := d) p hr
  unfold W32.toWstring8
  unfold arg8 at h ⊢
  generalize p.map _ = y at h ⊢
  enter Ast.toWstring_8_w32
  run [h]
  rw [out_bind]
  refine out_congr fun x => ?_
  run [readS32 E]
  refine out_congr fun x => ?_
  run
  rfl

theorem toWstring_S8_W32 (src : List Byte) (hr : src.length + 1 < r) :
    E.call (Ast.program true s) X sc r (d + 6) (nat_lit 0) (name% "toWstring") [.str .char (units8 sc src)] K =
    (W32.toWstring8S src).out fun x => K (.str .wchar (units32 x)) [none] := by
  have h (K) := toWstring_8_W32 (E := E) (X := X) (sc := sc) (r := r) (K := K) (s := s) (d := d) (cStr src) (by rw [size_cStr]; exact hr)
  rw [arg8_cStr] at h
  unfold W32.toWstring8S
  wrapper Ast.toWstring_S8_w32

theorem toWstring_16_W32 (p : Ptr U16) (hr : size p < r) :
    E.call (Ast.program true s) X sc r (d + 5) (nat_lit 0) (name% "toWstring") [arg16 p] K =
    (W32.toWstring16 p).out fun x => K (.str .wchar (units32 x)) [none] := by
  have h (K) := toUcs4_16_core (E := E) (X := X) (sc := sc) (r := r) (K := K) (w := true) (s := s) (d := d) p hr
  unfold W32.toWstring16
  unfold arg16 at h ⊢
  generalize p.map _ = y at h ⊢
  enter Ast.toWstring_16_w32
  run [h]
  rw [out_bind]
  refine out_congr fun x => ?_
  run [readS32 E]
  refine out_congr fun x => ?_
  run
  rfl

theorem toWstring_S16_W32 (src : List U16) (hr : src.length + 1 < r) :
    E.call (Ast.program true s) X sc r (d + 6) (nat_lit 0) (name% "toWstring") [.str .c16 (units16 src)] K =
    (W32.toWstring16S src).out fun x => K (.str .wchar (units32 x)) [none] := by
  have h (K) := toWstring_16_W32 (E := E) (X := X) (sc := sc) (r := r) (K := K) (s := s) (d := d) (cStr src) (by rw [size_cStr]; exact hr)
  rw [arg16_cStr] at h
  unfold W32.toWstring16S
  wrapper Ast.toWstring_S16_w32

theorem toWstring_32_W32 (hX : X.Are sc U lower turkic) (p : Ptr U32) (hr : size p < r) :
    E.call (Ast.program true s) X sc r (d + 6) (nat_lit 0) (name% "toWstring") [arg32 p] K =
    (W32.toWstring32 U p).out fun x => K (.str .wchar (units32 x)) [none] := by
  have h (K) := isUcs4_PR (E := E) (X := X) (sc := sc) (r := r) (K := K) (w := true) (s := s) (d := d) hX p ((nat_lit 3 : Nat) : Int) hr
  unfold W32.toWstring32
  unfold arg32
  unfold arg32 at h
  cases p with
  | none =>
    rw [Option.map_none] at h ⊢
    enter Ast.toWstring_32_w32
    run [h]
    rw [out_bind]
    refine out_congr fun x => ?_
    cases x <;> (run; rfl)
  | some l =>
    rw [Option.map_some] at h ⊢
    enter Ast.toWstring_32_w32
    run [h]
    rw [out_bind]
    refine out_congr fun x => ?_
    cases x with
    | true =>
      run [read32 E]
      rw [if_pos rfl]
      refine out_congr fun x => ?_
      run
      rfl
    | false => run; rfl

theorem toWstring_S32_W32 (hX : X.Are sc U lower turkic) (src : List U32) (hr : src.length + 1 < r) :
    E.call (Ast.program true s) X sc r (d + 7) (nat_lit 0) (name% "toWstring") [.str .c32 (units32 src)] K =
    (W32.toWstring32S U src).out fun x => K (.str .wchar (units32 x)) [none] := by
  have h (K) := toWstring_32_W32 (E := E) (X := X) (sc := sc) (r := r) (K := K) (s := s) (d := d) hX (cStr src) (by rw [size_cStr]; exact hr)
  rw [arg32_cStr] at h
  unfold W32.toWstring32S
  wrapper Ast.toWstring_S32_w32

end Ansak.Cpp
