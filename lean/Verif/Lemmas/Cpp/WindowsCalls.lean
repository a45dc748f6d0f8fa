import Verif.Lemmas.Cpp.Wide
import Verif.Lemmas.Cpp.Windows

/-! # What the library has on Windows only, executed from its syntax trees -/

namespace Ansak.Cpp
open Source (Tchar)

variable {E : Sealed} {X : Externals} {sc : Bool} {r d : Nat} {K : Val → List (Option Val) → Out} {s : List Int}
variable {U : CharClass} {lower turkic : U32 → U32}

/-- A call that has a result has the same result in a program with more functions. -/
theorem lift_call {P Q : Program} (h : Q.Extends P) {α : Type} {o : Res α} {g : α → Val} {rs : List (Option Val)} {c f : Nat}
    {vs : List Val} (e : E.call P X sc r d c f vs .done = o.out fun a => .done (g a) rs) (K : Val → List (Option Val) → Out) :
    E.call Q X sc r d c f vs K = o.out fun a => K (g a) rs := by
  rw [E.call_eq] at e ⊢
  cases o with
  | ok a => exact P.call_done h (Nat.le_refl _) (Nat.le_refl _) e K
  | ub => exact P.call_ub h (Nat.le_refl _) (Nat.le_refl _) e K

/-! ## Strings of `char` read from a pointer -/

theorem charVal_zero_iff (sc : Bool) (c : Byte) : charVal sc c = 0 ↔ c = 0 := by
  have h := charVal_eq (sc := sc) (b := c) (a := 0) (by decide)
  constructor
  · intro e
    exact BitVec.eq_of_toNat_eq (by simpa using h.mp e)
  · intro e
    exact h.mpr (by rw [e]; rfl)

theorem untilZero_char (sc : Bool) (l : List Byte) : (match untilZero (units8 sc l) with
    | some s => Res.ok s
    | none => .ub) = (stringOfPtr (some l)).map (units8 sc) := by
  show _ = (stringOfPtr.go l).map _
  unfold units8
  induction l with
  | nil => rfl
  | cons c l ih =>
    rw [List.map_cons, untilZero, stringOfPtr.go]
    by_cases h : c = 0
    · rw [if_pos h, if_pos ((charVal_zero_iff sc c).mpr h)]
      rfl
    · rw [if_neg h, if_neg (fun e => h ((charVal_zero_iff sc c).mp e))]
      cases e : stringOfPtr.go l with
      | ub =>
        rw [e] at ih
        cases e' : untilZero (l.map (charVal sc)) with
        | none => rfl
        | some t => rw [e'] at ih; cases ih
      | ok t =>
        rw [e] at ih
        cases e' : untilZero (l.map (charVal sc)) with
        | none => rw [e'] at ih; cases ih
        | some t' => rw [e'] at ih; cases ih; rfl

theorem read_char (E : Sealed) (l : List Byte) {i : Int} (hi : i = 0) (k : List Int → Out) :
    E.readString (units8 sc l) i k = (stringOfPtr (some l)).out fun s => k (units8 sc s) := by
  subst hi
  rw [E.readString_eq]
  unfold readString
  rw [if_pos (by decide), Int.toNat_zero, List.drop_zero]
  have h := untilZero_char sc l
  cases e : stringOfPtr (some l) with
  | ub =>
    rw [e] at h
    cases e' : untilZero (units8 sc l) with
    | none => rfl
    | some t => rw [e'] at h; cases h
  | ok t =>
    rw [e] at h
    cases e' : untilZero (units8 sc l) with
    | none => rw [e'] at h; cases h
    | some t' => rw [e'] at h; cases h; rfl

theorem units8_zero (src : List Byte) : units8 sc (src ++ [0]) = (units8 sc src).append [0] := by
  unfold units8
  rw [List.map_append, List.map_cons, (charVal_zero_iff sc 0).mpr rfl]
  rfl

theorem read8 (E : Sealed) (l : List Byte) (k : List Int → Out) : E.readString (units8 sc l) ((nat_lit 0 : Nat) : Int) k =
    (stringOfPtr (some l)).out fun s => k (units8 sc s) := read_char E l rfl k

theorem readS8 (E : Sealed) (l : List Byte) (k : List Int → Out) : E.readString ((units8 sc l).append [0]) 0 k =
    (stringOfPtr (cStr l)).out fun s => k (units8 sc s) := by
  rw [← units8_zero]; exact read_char E _ rfl k

/-! ## Functions of every build for Windows -/

theorem isUtf16_8_win (hX : X.Are sc U lower turkic) (p : Ptr Byte) (hr : size p < r) :
    E.call (Ast.onWindows .none s) X sc r (d + 6) (nat_lit 0) (name% "isUtf16") [arg8 sc p] K =
    (W16.isUtf16From8 U p).out fun x => K (ofBool x) [none] := by
  have h (K) := lift_call (none_extends s) (isUtf8_PR (E := E) (X := X) (sc := sc) (r := r) (K := .done) (w := false) (s := s) (d := d) hX p ((nat_lit 3 : Nat) : Int) hr) K
  unfold W16.isUtf16From8
  unfold arg8 at h ⊢
  generalize p.map _ = y at h ⊢
  wrapper Ast.isUtf16_8_win

theorem isUtf16_S8_win (hX : X.Are sc U lower turkic) (src : List Byte) (hr : src.length + 1 < r) :
    E.call (Ast.onWindows .none s) X sc r (d + 7) (nat_lit 0) (name% "isUtf16") [.str .char (units8 sc src)] K =
    (W16.isUtf16From8S U src).out fun x => K (ofBool x) [none] := by
  have h (K) := isUtf16_8_win (E := E) (X := X) (sc := sc) (r := r) (K := K) (s := s) (d := d) hX (cStr src) (by rw [size_cStr]; exact hr)
  rw [arg8_cStr] at h
  unfold W16.isUtf16From8S
  wrapper Ast.isUtf16_S8_win

theorem isUcs2_8_win (hX : X.Are sc U lower turkic) (p : Ptr Byte) (hr : size p < r) :
    E.call (Ast.onWindows .none s) X sc r (d + 6) (nat_lit 0) (name% "isUcs2") [arg8 sc p] K =
    (W16.isUcs2From8 U p).out fun x => K (ofBool x) [none] := by
  have h (K) := lift_call (none_extends s) (isUtf8_PR (E := E) (X := X) (sc := sc) (r := r) (K := .done) (w := false) (s := s) (d := d) hX p ((nat_lit 2 : Nat) : Int) hr) K
  unfold W16.isUcs2From8
  unfold arg8 at h ⊢
  generalize p.map _ = y at h ⊢
  wrapper Ast.isUcs2_8_win

theorem isUcs2_S8_win (hX : X.Are sc U lower turkic) (src : List Byte) (hr : src.length + 1 < r) :
    E.call (Ast.onWindows .none s) X sc r (d + 7) (nat_lit 0) (name% "isUcs2") [.str .char (units8 sc src)] K =
    (W16.isUcs2From8S U src).out fun x => K (ofBool x) [none] := by
  have h (K) := isUcs2_8_win (E := E) (X := X) (sc := sc) (r := r) (K := K) (s := s) (d := d) hX (cStr src) (by rw [size_cStr]; exact hr)
  rw [arg8_cStr] at h
  unfold W16.isUcs2From8S
  wrapper Ast.isUcs2_S8_win

theorem isUcs4_8_win (hX : X.Are sc U lower turkic) (p : Ptr Byte) (hr : size p < r) :
    E.call (Ast.onWindows .none s) X sc r (d + 6) (nat_lit 0) (name% "isUcs4") [arg8 sc p] K =
    (W16.isUcs4From8 U p).out fun x => K (ofBool x) [none] := by
  have h (K) := lift_call (none_extends s) (isUtf8_PR (E := E) (X := X) (sc := sc) (r := r) (K := .done) (w := false) (s := s) (d := d) hX p ((nat_lit 4 : Nat) : Int) hr) K
  unfold W16.isUcs4From8
  unfold arg8 at h ⊢
  generalize p.map _ = y at h ⊢
  wrapper Ast.isUcs4_8_win

theorem isUcs4_S8_win (hX : X.Are sc U lower turkic) (src : List Byte) (hr : src.length + 1 < r) :
    E.call (Ast.onWindows .none s) X sc r (d + 7) (nat_lit 0) (name% "isUcs4") [.str .char (units8 sc src)] K =
    (W16.isUcs4From8S U src).out fun x => K (ofBool x) [none] := by
  have h (K) := isUcs4_8_win (E := E) (X := X) (sc := sc) (r := r) (K := K) (s := s) (d := d) hX (cStr src) (by rw [size_cStr]; exact hr)
  rw [arg8_cStr] at h
  unfold W16.isUcs4From8S
  wrapper Ast.isUcs4_S8_win

theorem toUtf8_8_win (hX : X.Are sc U lower turkic) (p : Ptr Byte) (hr : size p < r) :
    E.call (Ast.onWindows .none s) X sc r (d + 6) (nat_lit 0) (name% "toUtf8") [arg8 sc p] K =
    (W16.toUtf8From8 U p).out fun x => K (.str .char (units8 sc x)) [none] := by
  have h (K) := lift_call (none_extends s) (isUtf8_P1 (E := E) (X := X) (sc := sc) (r := r) (K := .done) (w := false) (s := s) (d := d) hX p hr) K
  unfold W16.toUtf8From8
  unfold arg8 at h ⊢
  cases p with
  | none =>
    rw [Option.map_none] at h ⊢
    enter Ast.toUtf8_8_win
    run [h]
    rw [out_bind]
    refine out_congr fun x => ?_
    cases x <;> (run; rfl)
  | some l =>
    rw [Option.map_some] at h ⊢
    enter Ast.toUtf8_8_win
    run [h]
    rw [out_bind]
    refine out_congr fun x => ?_
    cases x with
    | true =>
      run [read8 E]
      rw [if_pos rfl]
      refine out_congr fun x => ?_
      run
      rfl
    | false => run; rfl

theorem toUtf8_S8_win (hX : X.Are sc U lower turkic) (src : List Byte) (hr : src.length + 1 < r) :
    E.call (Ast.onWindows .none s) X sc r (d + 7) (nat_lit 0) (name% "toUtf8") [.str .char (units8 sc src)] K =
    (W16.toUtf8From8S U src).out fun x => K (.str .char (units8 sc x)) [none] := by
  have h (K) := toUtf8_8_win (E := E) (X := X) (sc := sc) (r := r) (K := K) (s := s) (d := d) hX (cStr src) (by rw [size_cStr]; exact hr)
  rw [arg8_cStr] at h
  unfold W16.toUtf8From8S
  wrapper Ast.toUtf8_S8_win

/-! ## `isTstring`, `_MBCS` -/

theorem isTstring_S8_mbcs (hX : X.Are sc U lower turkic) (src : List Byte) (hr : src.length + 1 < r) :
    E.call (Ast.onWindows .mbcs s) X sc r (d + 6) (nat_lit 0) (name% "isTstring") [.str .char (units8 sc src)] K =
    (W16.isTstring8S U src).out fun x => K (ofBool x) [none] := by
  have h (K) := lift_call (windows_extends .mbcs s) (isUtf8_SR (E := E) (X := X) (sc := sc) (r := r) (K := .done) (w := false) (s := s) (d := d) hX src ((nat_lit 3 : Nat) : Int) hr) K
  unfold W16.isTstring8S
  wrapper Ast.isTstring_S8_mbcs

theorem isTstring_8_mbcs (hX : X.Are sc U lower turkic) (p : Ptr Byte) (hr : size p < r) :
    E.call (Ast.onWindows .mbcs s) X sc r (d + 6) (nat_lit 0) (name% "isTstring") [arg8 sc p] K =
    (W16.isTstring8 U p).out fun x => K (ofBool x) [none] := by
  have h (K) := lift_call (windows_extends .mbcs s) (isUtf8_PR (E := E) (X := X) (sc := sc) (r := r) (K := .done) (w := false) (s := s) (d := d) hX p ((nat_lit 3 : Nat) : Int) hr) K
  unfold W16.isTstring8
  unfold arg8 at h ⊢
  generalize p.map _ = y at h ⊢
  wrapper Ast.isTstring_8_mbcs

theorem isTstring_S16_mbcs (hX : X.Are sc U lower turkic) (src : List U16) (hr : src.length + 1 < r) :
    E.call (Ast.onWindows .mbcs s) X sc r (d + 6) (nat_lit 0) (name% "isTstring") [.str .c16 (units16 src)] K =
    (W16.isTstring16S U src).out fun x => K (ofBool x) [none] := by
  have h (K) := lift_call (windows_extends .mbcs s) (isUtf16_S1 (E := E) (X := X) (sc := sc) (r := r) (K := .done) (w := false) (s := s) (d := d) hX src hr) K
  unfold W16.isTstring16S
  wrapper Ast.isTstring_S16_mbcs

theorem isTstring_16_mbcs (hX : X.Are sc U lower turkic) (p : Ptr U16) (hr : size p < r) :
    E.call (Ast.onWindows .mbcs s) X sc r (d + 6) (nat_lit 0) (name% "isTstring") [arg16 p] K =
    (W16.isTstring16 U p).out fun x => K (ofBool x) [none] := by
  have h (K) := lift_call (windows_extends .mbcs s) (isUtf16_P1 (E := E) (X := X) (sc := sc) (r := r) (K := .done) (w := false) (s := s) (d := d) hX p hr) K
  unfold W16.isTstring16
  unfold arg16 at h ⊢
  generalize p.map _ = y at h ⊢
  wrapper Ast.isTstring_16_mbcs

theorem isTstring_S32_mbcs (hX : X.Are sc U lower turkic) (src : List U32) (hr : src.length + 1 < r) :
    E.call (Ast.onWindows .mbcs s) X sc r (d + 6) (nat_lit 0) (name% "isTstring") [.str .c32 (units32 src)] K =
    (W16.isTstring32S U src).out fun x => K (ofBool x) [none] := by
  have h (K) := lift_call (windows_extends .mbcs s) (isUcs4_SR (E := E) (X := X) (sc := sc) (r := r) (K := .done) (w := false) (s := s) (d := d) hX src ((nat_lit 3 : Nat) : Int) hr) K
  unfold W16.isTstring32S
  wrapper Ast.isTstring_S32_mbcs

theorem isTstring_32_mbcs (hX : X.Are sc U lower turkic) (p : Ptr U32) (hr : size p < r) :
    E.call (Ast.onWindows .mbcs s) X sc r (d + 6) (nat_lit 0) (name% "isTstring") [arg32 p] K =
    (W16.isTstring32 U p).out fun x => K (ofBool x) [none] := by
  have h (K) := lift_call (windows_extends .mbcs s) (isUcs4_PR (E := E) (X := X) (sc := sc) (r := r) (K := .done) (w := false) (s := s) (d := d) hX p ((nat_lit 3 : Nat) : Int) hr) K
  unfold W16.isTstring32
  unfold arg32 at h ⊢
  generalize p.map _ = y at h ⊢
  wrapper Ast.isTstring_32_mbcs

/-! ## `isTstring`, `_UNICODE` -/

theorem isTstring_S8_unicode (hX : X.Are sc U lower turkic) (src : List Byte) (hr : src.length + 1 < r) :
    E.call (Ast.onWindows .unicode s) X sc r (d + 6) (nat_lit 0) (name% "isTstring") [.str .char (units8 sc src)] K =
    (W16.isTstring8S U src).out fun x => K (ofBool x) [none] := by
  have h (K) := lift_call (windows_extends .unicode s) (isUtf8_SR (E := E) (X := X) (sc := sc) (r := r) (K := .done) (w := false) (s := s) (d := d) hX src ((nat_lit 3 : Nat) : Int) hr) K
  unfold W16.isTstring8S
  wrapper Ast.isTstring_S8_unicode

theorem isTstring_8_unicode (hX : X.Are sc U lower turkic) (p : Ptr Byte) (hr : size p < r) :
    E.call (Ast.onWindows .unicode s) X sc r (d + 6) (nat_lit 0) (name% "isTstring") [arg8 sc p] K =
    (W16.isTstring8 U p).out fun x => K (ofBool x) [none] := by
  have h (K) := lift_call (windows_extends .unicode s) (isUtf8_PR (E := E) (X := X) (sc := sc) (r := r) (K := .done) (w := false) (s := s) (d := d) hX p ((nat_lit 3 : Nat) : Int) hr) K
  unfold W16.isTstring8
  unfold arg8 at h ⊢
  generalize p.map _ = y at h ⊢
  wrapper Ast.isTstring_8_unicode

theorem isTstring_S16_unicode (hX : X.Are sc U lower turkic) (src : List U16) (hr : src.length + 1 < r) :
    E.call (Ast.onWindows .unicode s) X sc r (d + 6) (nat_lit 0) (name% "isTstring") [.str .c16 (units16 src)] K =
    (W16.isTstring16S U src).out fun x => K (ofBool x) [none] := by
  have h (K) := lift_call (windows_extends .unicode s) (isUtf16_S1 (E := E) (X := X) (sc := sc) (r := r) (K := .done) (w := false) (s := s) (d := d) hX src hr) K
  unfold W16.isTstring16S
  wrapper Ast.isTstring_S16_unicode

theorem isTstring_16_unicode (hX : X.Are sc U lower turkic) (p : Ptr U16) (hr : size p < r) :
    E.call (Ast.onWindows .unicode s) X sc r (d + 6) (nat_lit 0) (name% "isTstring") [arg16 p] K =
    (W16.isTstring16 U p).out fun x => K (ofBool x) [none] := by
  have h (K) := lift_call (windows_extends .unicode s) (isUtf16_P1 (E := E) (X := X) (sc := sc) (r := r) (K := .done) (w := false) (s := s) (d := d) hX p hr) K
  unfold W16.isTstring16
  unfold arg16 at h ⊢
  generalize p.map _ = y at h ⊢
  wrapper Ast.isTstring_16_unicode

theorem isTstring_S32_unicode (hX : X.Are sc U lower turkic) (src : List U32) (hr : src.length + 1 < r) :
    E.call (Ast.onWindows .unicode s) X sc r (d + 6) (nat_lit 0) (name% "isTstring") [.str .c32 (units32 src)] K =
    (W16.isTstring32S U src).out fun x => K (ofBool x) [none] := by
  have h (K) := lift_call (windows_extends .unicode s) (isUcs4_SR (E := E) (X := X) (sc := sc) (r := r) (K := .done) (w := false) (s := s) (d := d) hX src ((nat_lit 3 : Nat) : Int) hr) K
  unfold W16.isTstring32S
  wrapper Ast.isTstring_S32_unicode

theorem isTstring_32_unicode (hX : X.Are sc U lower turkic) (p : Ptr U32) (hr : size p < r) :
    E.call (Ast.onWindows .unicode s) X sc r (d + 6) (nat_lit 0) (name% "isTstring") [arg32 p] K =
    (W16.isTstring32 U p).out fun x => K (ofBool x) [none] := by
  have h (K) := lift_call (windows_extends .unicode s) (isUcs4_PR (E := E) (X := X) (sc := sc) (r := r) (K := .done) (w := false) (s := s) (d := d) hX p ((nat_lit 3 : Nat) : Int) hr) K
  unfold W16.isTstring32
  unfold arg32 at h ⊢
  generalize p.map _ = y at h ⊢
  wrapper Ast.isTstring_32_unicode

/-! ## `toTstring`, `_MBCS` -/

theorem toTstring_8_mbcs (hX : X.Are sc U lower turkic) (p : Ptr Byte) (hr : size p < r) :
    E.call (Ast.onWindows .mbcs s) X sc r (d + 6) (nat_lit 0) (name% "toTstring") [arg8 sc p] K =
    (W16.Mbcs.toTstring8 U p).out fun x => K (.str .char (units8 sc x)) [none] := by
  have h (K) := lift_call (windows_extends .mbcs s) (isUtf8_PR (E := E) (X := X) (sc := sc) (r := r) (K := .done) (w := false) (s := s) (d := d) hX p ((nat_lit 0 : Nat) : Int) hr) K
  unfold W16.Mbcs.toTstring8
  unfold arg8 at h ⊢
  cases p with
  | none =>
    rw [Option.map_none] at h ⊢
    enter Ast.toTstring_8_mbcs
    run [h]
    rw [out_bind]
    refine out_congr fun x => ?_
    cases x <;> (run; rfl)
  | some l =>
    rw [Option.map_some] at h ⊢
    enter Ast.toTstring_8_mbcs
    run [h]
    rw [out_bind]
    refine out_congr fun x => ?_
    cases x with
    | true =>
      run [read8 E]
      rw [if_pos rfl]
      refine out_congr fun x => ?_
      run
      rfl
    | false => run; rfl

theorem toTstring_16_mbcs (hX : X.Are sc U lower turkic) (p : Ptr U16) (hr : size p < r) :
    E.call (Ast.onWindows .mbcs s) X sc r (d + 6) (nat_lit 0) (name% "toTstring") [arg16 p] K =
    (W16.Mbcs.toTstring16 U p).out fun x => K (.str .char (units8 sc x)) [none] := by
  have h (K) := lift_call (windows_extends .mbcs s) (isUtf16_PR (E := E) (X := X) (sc := sc) (r := r) (K := .done) (w := false) (s := s) (d := d) hX p ((nat_lit 0 : Nat) : Int) hr) K
  have h' (K) := lift_call (windows_extends .mbcs s) (toUtf8_16_core (E := E) (X := X) (sc := sc) (r := r) (K := .done) (w := false) (s := s) (d := d + 1) p hr) K
  unfold W16.Mbcs.toTstring16
  unfold arg16 at h h' ⊢
  generalize p.map _ = y at h h' ⊢
  enter Ast.toTstring_16_mbcs
  run [h]
  rw [out_bind]
  refine out_congr fun x => ?_
  cases x with
  | true =>
    run [h']
    rw [if_pos rfl, out_bind]
    refine out_congr fun x => ?_
    run [readS8 E]
    refine out_congr fun x => ?_
    run
    rfl
  | false => run; rfl

theorem toTstring_32_mbcs (hX : X.Are sc U lower turkic) (p : Ptr U32) (hr : size p < r) :
    E.call (Ast.onWindows .mbcs s) X sc r (d + 6) (nat_lit 0) (name% "toTstring") [arg32 p] K =
    (W16.Mbcs.toTstring32 U p).out fun x => K (.str .char (units8 sc x)) [none] := by
  have h (K) := lift_call (windows_extends .mbcs s) (isUcs4_PR (E := E) (X := X) (sc := sc) (r := r) (K := .done) (w := false) (s := s) (d := d) hX p ((nat_lit 0 : Nat) : Int) hr) K
  have h' (K) := lift_call (windows_extends .mbcs s) (toUtf8_32_core (E := E) (X := X) (sc := sc) (r := r) (K := .done) (w := false) (s := s) (d := d + 1) p hr) K
  unfold W16.Mbcs.toTstring32
  unfold arg32 at h h' ⊢
  generalize p.map _ = y at h h' ⊢
  enter Ast.toTstring_32_mbcs
  run [h]
  rw [out_bind]
  refine out_congr fun x => ?_
  cases x with
  | true =>
    run [h']
    rw [if_pos rfl, out_bind]
    refine out_congr fun x => ?_
    run [readS8 E]
    refine out_congr fun x => ?_
    run
    rfl
  | false => run; rfl

/-! ## `toTstring`, `_UNICODE` -/

theorem toTstring_S8_unicode (src : List Byte) (hr : src.length + 1 < r) :
    E.call (Ast.onWindows .unicode s) X sc r (d + 6) (nat_lit 0) (name% "toTstring") [.str .char (units8 sc src)] K =
    (W16.Tchar.toTstring8S src).out fun x => K (.str .wchar (units16 x)) [none] := by
  have h (K) := lift_call (windows_extends .unicode s) (toUtf16_S8 (E := E) (X := X) (sc := sc) (r := r) (K := .done) (w := false) (s := s) (d := d) src hr) K
  unfold W16.Tchar.toTstring8S
  enter Ast.toTstring_S8_unicode
  run [h]
  rw [out_bind]
  refine out_congr fun x => ?_
  run [readS16 E]
  refine out_congr fun x => ?_
  run
  rfl

theorem toTstring_8_unicode (p : Ptr Byte) (hr : size p < r) :
    E.call (Ast.onWindows .unicode s) X sc r (d + 5) (nat_lit 0) (name% "toTstring") [arg8 sc p] K =
    (W16.Tchar.toTstring8 p).out fun x => K (.str .wchar (units16 x)) [none] := by
  have h (K) := lift_call (windows_extends .unicode s) (toUtf16_8_core (E := E) (X := X) (sc := sc) (r := r) (K := .done) (w := false) (s := s) (d := d) p hr) K
  unfold W16.Tchar.toTstring8
  unfold arg8 at h ⊢
  generalize p.map _ = y at h ⊢
  enter Ast.toTstring_8_unicode
  run [h]
  rw [out_bind]
  refine out_congr fun x => ?_
  run [readS16 E]
  refine out_congr fun x => ?_
  run
  rfl

theorem toTstring_S32_unicode (src : List U32) (hr : src.length + 1 < r) :
    E.call (Ast.onWindows .unicode s) X sc r (d + 6) (nat_lit 0) (name% "toTstring") [.str .c32 (units32 src)] K =
    (W16.Tchar.toTstring32S src).out fun x => K (.str .wchar (units16 x)) [none] := by
  have h (K) := lift_call (windows_extends .unicode s) (toUtf16_S32 (E := E) (X := X) (sc := sc) (r := r) (K := .done) (w := false) (s := s) (d := d) src hr) K
  unfold W16.Tchar.toTstring32S
  enter Ast.toTstring_S32_unicode
  run [h]
  rw [out_bind]
  refine out_congr fun x => ?_
  run [readS16 E]
  refine out_congr fun x => ?_
  run
  rfl

theorem toTstring_32_unicode (p : Ptr U32) (hr : size p < r) :
    E.call (Ast.onWindows .unicode s) X sc r (d + 5) (nat_lit 0) (name% "toTstring") [arg32 p] K =
    (W16.Tchar.toTstring32 p).out fun x => K (.str .wchar (units16 x)) [none] := by
  have h (K) := lift_call (windows_extends .unicode s) (toUtf16_32_core (E := E) (X := X) (sc := sc) (r := r) (K := .done) (w := false) (s := s) (d := d) p hr) K
  unfold W16.Tchar.toTstring32
  unfold arg32 at h ⊢
  generalize p.map _ = y at h ⊢
  enter Ast.toTstring_32_unicode
  run [h]
  rw [out_bind]
  refine out_congr fun x => ?_
  run [readS16 E]
  refine out_congr fun x => ?_
  run
  rfl

theorem toTstring_S16_unicode (src : List U16) :
    E.call (Ast.onWindows .unicode s) X sc r (d + 1) (nat_lit 0) (name% "toTstring") [.str .c16 (units16 src)] K =
    (W16.Tchar.toTstring16S src).out fun x => K (.str .wchar (units16 x)) [none] := by
  unfold W16.Tchar.toTstring16S
  enter Ast.toTstring_S16_unicode
  run [readS16 E]
  refine out_congr fun x => ?_
  run
  rfl

theorem toTstring_16_unicode (p : Ptr U16) :
    E.call (Ast.onWindows .unicode s) X sc r (d + 1) (nat_lit 0) (name% "toTstring") [arg16 p] K =
    (W16.Tchar.toTstring16 p).out fun x => K (.str .wchar (units16 x)) [none] := by
  unfold W16.Tchar.toTstring16
  unfold arg16
  cases p with
  | none =>
    rw [Option.map_none]
    enter Ast.toTstring_16_unicode
    run
    rfl
  | some l =>
    rw [Option.map_some]
    enter Ast.toTstring_16_unicode
    run [read16 E]
    refine out_congr fun x => ?_
    run
    rfl

end Ansak.Cpp
