import Verif.Lemmas.Cpp.WindowsCalls
import Verif.Props.Wide

/-! # With `_MBCS`, `toTstring` for strings calls itself for ever -/

namespace Ansak.Cpp
open Source (Tchar)

variable {E : Sealed} {X : Externals} {sc : Bool} {r d : Nat} {K : Val → List (Option Val) → Out} {s : List Int}

/-- The functions up to the `i`-th `toTstring`. -/
def Ast.untilMbcs (i : Nat) (s : List Int) : Program :=
  ⟨(Ast.funs ++ Ast.funs16) ++ (Ast.funsWindows ++ Ast.funsMbcs.take (6 + (i + 1))), Ast.globals s, Ast.classes, .c16⟩

theorem parse_mbcsTo1' : parseAll (Source.mbcsTo.take 1) = some (Ast.itemsMbcsTo0 ++ []) :=
  parseAll_cons parse_mbcsTo0 <| rfl
theorem parse_mbcsTo3' : parseAll (Source.mbcsTo.take 3) = some (Ast.itemsMbcsTo0 ++ (Ast.itemsMbcsTo1 ++ (Ast.itemsMbcsTo2 ++ []))) :=
  parseAll_cons parse_mbcsTo0 <| parseAll_cons parse_mbcsTo1 <| parseAll_cons parse_mbcsTo2 <| rfl
theorem parse_mbcsTo5' : parseAll (Source.mbcsTo.take 5) = some (Ast.itemsMbcsTo0 ++ (Ast.itemsMbcsTo1 ++ (Ast.itemsMbcsTo2 ++
    (Ast.itemsMbcsTo3 ++ (Ast.itemsMbcsTo4 ++ []))))) :=
  parseAll_cons parse_mbcsTo0 <| parseAll_cons parse_mbcsTo1 <| parseAll_cons parse_mbcsTo2 <|
  parseAll_cons parse_mbcsTo3 <| parseAll_cons parse_mbcsTo4 <| rfl

theorem callPrefix_eq {i : Nat} {is : List Item} (hi : parseAll (Source.mbcsTo.take (i + 1)) = some is)
    (hx : externs (Ast.allItems false ++ (Ast.itemsWindows ++ (Ast.itemsMbcsIs ++ is))) = [name% "supportedUnicodeVersion"])
    (hk : ∀ (f : Nat → Ty → Int → Option Int) (s : List Int) (sc : Bool),
      program ⟨f, fun _ => some s⟩ sc .c16 (Ast.allItems false ++ (Ast.itemsWindows ++ (Ast.itemsMbcsIs ++ is))) =
        some (Ast.untilMbcs i s))
    {X : Externals} {s : List Int} (h : X.str (name% "supportedUnicodeVersion") = some s)
    (sc : Bool) (n cls name : Nat) (vs : List Val) :
    callText X sc .c16 (Source.untilMbcs i) n cls name vs = (Ast.untilMbcs i s).call X sc n n cls name vs .done := by
  have hp : program X sc .c16 (Ast.allItems false ++ (Ast.itemsWindows ++ (Ast.itemsMbcsIs ++ is))) = some (Ast.untilMbcs i s) := by
    rw [← hk X.fn s sc]
    unfold program
    rw [globalsOf_congr (Y := ⟨X.fn, fun _ => some s⟩) fun x hx' => ?_]
    rw [hx, List.mem_singleton] at hx'
    rw [hx', h]
  unfold callText
  have : parseAll (Source.untilMbcs i) = some (Ast.allItems false ++ (Ast.itemsWindows ++ (Ast.itemsMbcsIs ++ is))) :=
    parseAll_append (parse_pieces false) (parseAll_append parse_windows (parseAll_append parse_mbcsIs hi))
  rw [this]
  show (match program X sc .c16 (Ast.allItems false ++ (Ast.itemsWindows ++ (Ast.itemsMbcsIs ++ is))) with | some P => _ | none => _) = _
  rw [hp]

theorem call0_eq {X : Externals} {s : List Int} (h : X.str (name% "supportedUnicodeVersion") = some s)
    (sc : Bool) (n cls name : Nat) (vs : List Val) :
    callText X sc .c16 (Source.untilMbcs 0) n cls name vs = (Ast.untilMbcs 0 s).call X sc n n cls name vs .done :=
  callPrefix_eq parse_mbcsTo1' (by kernel_rfl) (fun f s sc => by kernel_rfl) h sc n cls name vs

theorem call2_eq {X : Externals} {s : List Int} (h : X.str (name% "supportedUnicodeVersion") = some s)
    (sc : Bool) (n cls name : Nat) (vs : List Val) :
    callText X sc .c16 (Source.untilMbcs 2) n cls name vs = (Ast.untilMbcs 2 s).call X sc n n cls name vs .done :=
  callPrefix_eq parse_mbcsTo3' (by kernel_rfl) (fun f s sc => by kernel_rfl) h sc n cls name vs

theorem call4_eq {X : Externals} {s : List Int} (h : X.str (name% "supportedUnicodeVersion") = some s)
    (sc : Bool) (n cls name : Nat) (vs : List Val) :
    callText X sc .c16 (Source.untilMbcs 4) n cls name vs = (Ast.untilMbcs 4 s).call X sc n n cls name vs .done :=
  callPrefix_eq parse_mbcsTo5' (by kernel_rfl) (fun f s sc => by kernel_rfl) h sc n cls name vs

theorem textS8 (E : Sealed) (l : List Byte) (k : List Int → Out) : E.readString ((units8 sc l).append [0]) 0 k =
    k (units8 sc (Spec.textOf l)) := by
  rw [readS8, Props.stringOfPtr_cStr]; rfl

theorem textS16 (E : Sealed) (l : List U16) (k : List Int → Out) : E.readString ((units16 l).append [0]) 0 k =
    k (units16 (Spec.textOf l)) := by
  rw [readS16, Props.stringOfPtr_cStr]; rfl

theorem textS32 (E : Sealed) (l : List U32) (k : List Int → Out) : E.readString ((units32 l).append [0]) 0 k =
    k (units32 (Spec.textOf l)) := by
  rw [readS32, Props.stringOfPtr_cStr]; rfl

theorem never8_ptr (src : List Byte) :
    E.call (Ast.untilMbcs 0 s) X sc r d (nat_lit 0) (name% "toTstring") [.ptr .char (some ((units8 sc src).append [0], 0))] K = .timeout := by
  induction d generalizing src K with
  | zero => rw [E.call_eq]; rfl
  | succ d ih =>
    enter Ast.toTstring_S8_mbcs
    have h (K) := ih (K := K) (Spec.textOf src)
    run [textS8 E, h]
    rfl

theorem never8 (src : List Byte) :
    E.call (Ast.untilMbcs 0 s) X sc r d (nat_lit 0) (name% "toTstring") [.str .char (units8 sc src)] K = .timeout := by
  cases d with
  | zero => rw [E.call_eq]; rfl
  | succ d =>
    have h (K) := never8_ptr (E := E) (X := X) (sc := sc) (r := r) (d := d) (s := s) (K := K) src
    enter Ast.toTstring_S8_mbcs
    run [h]
    rfl

theorem never16_ptr (src : List U16) :
    E.call (Ast.untilMbcs 2 s) X sc r d (nat_lit 0) (name% "toTstring") [.ptr .c16 (some ((units16 src).append [0], 0))] K = .timeout := by
  induction d generalizing src K with
  | zero => rw [E.call_eq]; rfl
  | succ d ih =>
    enter Ast.toTstring_S16_mbcs
    have h (K) := ih (K := K) (Spec.textOf src)
    run [textS16 E, h]
    rfl

theorem never16 (src : List U16) :
    E.call (Ast.untilMbcs 2 s) X sc r d (nat_lit 0) (name% "toTstring") [.str .c16 (units16 src)] K = .timeout := by
  cases d with
  | zero => rw [E.call_eq]; rfl
  | succ d =>
    have h (K) := never16_ptr (E := E) (X := X) (sc := sc) (r := r) (d := d) (s := s) (K := K) src
    enter Ast.toTstring_S16_mbcs
    run [h]
    rfl

theorem never32_ptr (src : List U32) :
    E.call (Ast.untilMbcs 4 s) X sc r d (nat_lit 0) (name% "toTstring") [.ptr .c32 (some ((units32 src).append [0], 0))] K = .timeout := by
  induction d generalizing src K with
  | zero => rw [E.call_eq]; rfl
  | succ d ih =>
    enter Ast.toTstring_S32_mbcs
    have h (K) := ih (K := K) (Spec.textOf src)
    run [textS32 E, h]
    rfl

theorem never32 (src : List U32) :
    E.call (Ast.untilMbcs 4 s) X sc r d (nat_lit 0) (name% "toTstring") [.str .c32 (units32 src)] K = .timeout := by
  cases d with
  | zero => rw [E.call_eq]; rfl
  | succ d =>
    have h (K) := never32_ptr (E := E) (X := X) (sc := sc) (r := r) (d := d) (s := s) (K := K) src
    enter Ast.toTstring_S32_mbcs
    run [h]
    rfl

end Ansak.Cpp
