import Verif.Lemmas.Cpp.Link
import Verif.Lemmas.Cpp.Wide
import Verif.Props.TextDefined

/-!
# C67: the functions for `wchar_t` as they are written

`interface/string.hxx` defines these functions inline, differently for a `wchar_t` of 16 bits and one of 32 bits. The first
argument of `RunsOn` says which.
-/

namespace Ansak.Props

open Cpp
open Spec (Arg RunsOn enough)

theorem units32_setWidth (s : List U16) : units32 (s.map (BitVec.setWidth 32)) = units16 s := by
  unfold units32 units16
  rw [List.map_map]
  refine List.map_congr_left fun c _ => ?_
  show (((c.setWidth 32).toNat : Nat) : Int) = _
  rw [BitVec.toNat_setWidth_of_le (by decide)]

theorem val_wstr16 (sc : Bool) (s : List U16) : (Arg.wstr16 s).val sc = .str .wchar (units16 s) :=
  congrArg (Val.str .wchar) (units32_setWidth s)

theorem val_wptr16 (sc : Bool) (p : Ptr U16) : (Arg.wptr16 p).val sc = argW16 p := by
  refine congrArg (Val.ptr .wchar) ?_
  cases p with
  | none => rfl
  | some l =>
    show some (units32 (l.map _), _) = some (units16 l, _)
    rw [units32_setWidth]

theorem size_wptr16 (p : Ptr U16) : (Arg.wptr16 p).size = size p := by
  cases p with
  | none => rfl
  | some l => exact List.length_map _

theorem size_wstr16 (s : List U16) : (Arg.wstr16 s).size = s.length := List.length_map _

/-- `runsOn_of` for values that are not written in the same way. -/
theorem runsOn_of' {α : Type} {w : Bool} {v : Version} {name : Nat} {args : List Arg} {x : Res α} {f : α → Arg}
    {refs : List (Option Val)} {m : Nat} (vs : Bool → List Val) (g : Bool → α → Val) (hm : enough args = m)
    (hv : ∀ sc, args.map (Arg.val sc) = vs sc) (hg : ∀ sc a, (f a).val sc = g sc a)
    (h : ∀ sc n, m ≤ n →
      Sealed.real.call (Ast.program w (versionText v sc)) (link v sc) sc n n (nat_lit 0) name (vs sc) .done =
        x.out fun a => .done (g sc a) refs)
    (hr : ∀ r ∈ refs, r = none := by simp) : RunsOn w v name args (x.map f) :=
  runsOn_of (refs := refs) (hr := hr) fun sc n hn => by
    rw [hv sc, funext fun a => congrArg (Out.done · refs) (hg sc a)]
    exact h sc n (hm ▸ hn)

set_option hygiene false in
/-- As `linked`. -/
macro "linked' " t:term : tactic => `(tactic| (
  obtain ⟨d, rfl⟩ : ∃ d, n = d + 8 := ⟨n - 8, by omega⟩
  exact $t))

/-! ## `wchar_t` of 16 bits -/

theorem C67_w16_isUtf8_PW (v : Version) (p : Ptr U16) :
    RunsOn false v (name% "isUtf8") [.wptr16 p] ((W16.isUtf8W (Unicode.charClass v) p).map .bool) :=
  runsOn_of' (m := size p + 8) (fun sc => [argW16 p]) (fun sc a => (Arg.bool a).val sc) (congrArg (· + 8) (size_wptr16 p)) (fun sc => congrArg (· :: []) (val_wptr16 sc p)) (fun sc a => rfl)
    fun sc n hn => by linked' isUtf8_W_W16 (E := Sealed.real) (d := d + 2) (link_are v sc) p (by omega)

theorem C67_w16_isUtf8_SW (v : Version) (s : List U16) :
    RunsOn false v (name% "isUtf8") [.wstr16 s] ((W16.isUtf8WS (Unicode.charClass v) s).map .bool) :=
  runsOn_of' (m := s.length + 8) (fun sc => [.str .wchar (units16 s)]) (fun sc a => (Arg.bool a).val sc) (congrArg (· + 8) (size_wstr16 s)) (fun sc => congrArg (· :: []) (val_wstr16 sc s)) (fun sc a => rfl)
    fun sc n hn => by linked' isUtf8_SW_W16 (E := Sealed.real) (d := d + 1) (link_are v sc) s (by omega)

theorem C67_w16_isUtf16_PW (v : Version) (p : Ptr U16) :
    RunsOn false v (name% "isUtf16") [.wptr16 p] ((W16.isUtf16W (Unicode.charClass v) p).map .bool) :=
  runsOn_of' (m := size p + 8) (fun sc => [argW16 p]) (fun sc a => (Arg.bool a).val sc) (congrArg (· + 8) (size_wptr16 p)) (fun sc => congrArg (· :: []) (val_wptr16 sc p)) (fun sc a => rfl)
    fun sc n hn => by linked' isUtf16_W_W16 (E := Sealed.real) (d := d + 2) (link_are v sc) p (by omega)

theorem C67_w16_isUtf16_SW (v : Version) (s : List U16) :
    RunsOn false v (name% "isUtf16") [.wstr16 s] ((W16.isUtf16WS (Unicode.charClass v) s).map .bool) :=
  runsOn_of' (m := s.length + 8) (fun sc => [.str .wchar (units16 s)]) (fun sc a => (Arg.bool a).val sc) (congrArg (· + 8) (size_wstr16 s)) (fun sc => congrArg (· :: []) (val_wstr16 sc s)) (fun sc a => rfl)
    fun sc n hn => by linked' isUtf16_SW_W16 (E := Sealed.real) (d := d + 1) (link_are v sc) s (by omega)

theorem C67_w16_isUcs2_PW (v : Version) (p : Ptr U16) :
    RunsOn false v (name% "isUcs2") [.wptr16 p] ((W16.isUcs2W (Unicode.charClass v) p).map .bool) :=
  runsOn_of' (m := size p + 8) (fun sc => [argW16 p]) (fun sc a => (Arg.bool a).val sc) (congrArg (· + 8) (size_wptr16 p)) (fun sc => congrArg (· :: []) (val_wptr16 sc p)) (fun sc a => rfl)
    fun sc n hn => by linked' isUcs2_W_W16 (E := Sealed.real) (d := d + 2) (link_are v sc) p (by omega)

theorem C67_w16_isUcs2_SW (v : Version) (s : List U16) :
    RunsOn false v (name% "isUcs2") [.wstr16 s] ((W16.isUcs2WS (Unicode.charClass v) s).map .bool) :=
  runsOn_of' (m := s.length + 8) (fun sc => [.str .wchar (units16 s)]) (fun sc a => (Arg.bool a).val sc) (congrArg (· + 8) (size_wstr16 s)) (fun sc => congrArg (· :: []) (val_wstr16 sc s)) (fun sc a => rfl)
    fun sc n hn => by linked' isUcs2_SW_W16 (E := Sealed.real) (d := d + 1) (link_are v sc) s (by omega)

theorem C67_w16_isUcs4_PW (v : Version) (p : Ptr U16) :
    RunsOn false v (name% "isUcs4") [.wptr16 p] ((W16.isUcs4W (Unicode.charClass v) p).map .bool) :=
  runsOn_of' (m := size p + 8) (fun sc => [argW16 p]) (fun sc a => (Arg.bool a).val sc) (congrArg (· + 8) (size_wptr16 p)) (fun sc => congrArg (· :: []) (val_wptr16 sc p)) (fun sc a => rfl)
    fun sc n hn => by linked' isUcs4_W_W16 (E := Sealed.real) (d := d + 2) (link_are v sc) p (by omega)

theorem C67_w16_isUcs4_SW (v : Version) (s : List U16) :
    RunsOn false v (name% "isUcs4") [.wstr16 s] ((W16.isUcs4WS (Unicode.charClass v) s).map .bool) :=
  runsOn_of' (m := s.length + 8) (fun sc => [.str .wchar (units16 s)]) (fun sc a => (Arg.bool a).val sc) (congrArg (· + 8) (size_wstr16 s)) (fun sc => congrArg (· :: []) (val_wstr16 sc s)) (fun sc a => rfl)
    fun sc n hn => by linked' isUcs4_SW_W16 (E := Sealed.real) (d := d + 1) (link_are v sc) s (by omega)

theorem C67_w16_isWstring_P8 (v : Version) (p : Ptr Byte) :
    RunsOn false v (name% "isWstring") [.ptr8 p] ((W16.isWstring8 (Unicode.charClass v) p).map .bool) :=
  runsOn_of fun sc n hn => by linked isWstring_8_W16 (E := Sealed.real) (d := d + 2) (link_are v sc) p (by fits)

theorem C67_w16_isWstring_S8 (v : Version) (s : List Byte) :
    RunsOn false v (name% "isWstring") [.str8 s] ((W16.isWstring8S (Unicode.charClass v) s).map .bool) :=
  runsOn_of fun sc n hn => by linked isWstring_S8_W16 (E := Sealed.real) (d := d + 2) (link_are v sc) s (by fits)

theorem C67_w16_isWstring_P16 (v : Version) (p : Ptr U16) :
    RunsOn false v (name% "isWstring") [.ptr16 p] ((W16.isWstring16 (Unicode.charClass v) p).map .bool) :=
  runsOn_of fun sc n hn => by linked isWstring_16_W16 (E := Sealed.real) (d := d + 2) (link_are v sc) p (by fits)

theorem C67_w16_isWstring_S16 (v : Version) (s : List U16) :
    RunsOn false v (name% "isWstring") [.str16 s] ((W16.isWstring16S (Unicode.charClass v) s).map .bool) :=
  runsOn_of fun sc n hn => by linked isWstring_S16_W16 (E := Sealed.real) (d := d + 2) (link_are v sc) s (by fits)

theorem C67_w16_isWstring_P32 (v : Version) (p : Ptr U32) :
    RunsOn false v (name% "isWstring") [.ptr32 p] ((W16.isWstring32 (Unicode.charClass v) p).map .bool) :=
  runsOn_of fun sc n hn => by linked isWstring_32_W16 (E := Sealed.real) (d := d + 2) (link_are v sc) p (by fits)

theorem C67_w16_isWstring_S32 (v : Version) (s : List U32) :
    RunsOn false v (name% "isWstring") [.str32 s] ((W16.isWstring32S (Unicode.charClass v) s).map .bool) :=
  runsOn_of fun sc n hn => by linked isWstring_S32_W16 (E := Sealed.real) (d := d + 2) (link_are v sc) s (by fits)

theorem C67_w16_toUtf8_PW (v : Version) (p : Ptr U16) :
    RunsOn false v (name% "toUtf8") [.wptr16 p] ((W16.toUtf8W p).map .str8) :=
  runsOn_of' (m := size p + 8) (fun sc => [argW16 p]) (fun sc a => (Arg.str8 a).val sc) (congrArg (· + 8) (size_wptr16 p)) (fun sc => congrArg (· :: []) (val_wptr16 sc p)) (fun sc a => rfl)
    fun sc n hn => by linked' toUtf8_W_W16 (E := Sealed.real) (d := d + 3) p (by omega)

theorem C67_w16_toUtf8_SW (v : Version) (s : List U16) :
    RunsOn false v (name% "toUtf8") [.wstr16 s] ((W16.toUtf8WS s).map .str8) :=
  runsOn_of' (m := s.length + 8) (fun sc => [.str .wchar (units16 s)]) (fun sc a => (Arg.str8 a).val sc) (congrArg (· + 8) (size_wstr16 s)) (fun sc => congrArg (· :: []) (val_wstr16 sc s)) (fun sc a => rfl)
    fun sc n hn => by linked' toUtf8_SW_W16 (E := Sealed.real) (d := d + 2) s (by omega)

theorem C67_w16_toUtf16_PW (v : Version) (p : Ptr U16) :
    RunsOn false v (name% "toUtf16") [.wptr16 p] ((W16.toUtf16W (Unicode.charClass v) p).map .str16) :=
  runsOn_of' (m := size p + 8) (fun sc => [argW16 p]) (fun sc a => (Arg.str16 a).val sc) (congrArg (· + 8) (size_wptr16 p)) (fun sc => congrArg (· :: []) (val_wptr16 sc p)) (fun sc a => rfl)
    fun sc n hn => by linked' toUtf16_W_W16 (E := Sealed.real) (d := d + 2) (link_are v sc) p (by omega)

theorem C67_w16_toUtf16_SW (v : Version) (s : List U16) :
    RunsOn false v (name% "toUtf16") [.wstr16 s] ((W16.toUtf16WS (Unicode.charClass v) s).map .str16) :=
  runsOn_of' (m := s.length + 8) (fun sc => [.str .wchar (units16 s)]) (fun sc a => (Arg.str16 a).val sc) (congrArg (· + 8) (size_wstr16 s)) (fun sc => congrArg (· :: []) (val_wstr16 sc s)) (fun sc a => rfl)
    fun sc n hn => by linked' toUtf16_SW_W16 (E := Sealed.real) (d := d + 1) (link_are v sc) s (by omega)

theorem C67_w16_toUcs2_PW (v : Version) (p : Ptr U16) :
    RunsOn false v (name% "toUcs2") [.wptr16 p] ((W16.toUcs2W (Unicode.charClass v) p).map .str16) :=
  runsOn_of' (m := size p + 8) (fun sc => [argW16 p]) (fun sc a => (Arg.str16 a).val sc) (congrArg (· + 8) (size_wptr16 p)) (fun sc => congrArg (· :: []) (val_wptr16 sc p)) (fun sc a => rfl)
    fun sc n hn => by linked' toUcs2_W_W16 (E := Sealed.real) (d := d + 2) (link_are v sc) p (by omega)

theorem C67_w16_toUcs2_SW (v : Version) (s : List U16) :
    RunsOn false v (name% "toUcs2") [.wstr16 s] ((W16.toUcs2WS (Unicode.charClass v) s).map .str16) :=
  runsOn_of' (m := s.length + 8) (fun sc => [.str .wchar (units16 s)]) (fun sc a => (Arg.str16 a).val sc) (congrArg (· + 8) (size_wstr16 s)) (fun sc => congrArg (· :: []) (val_wstr16 sc s)) (fun sc a => rfl)
    fun sc n hn => by linked' toUcs2_SW_W16 (E := Sealed.real) (d := d + 1) (link_are v sc) s (by omega)

theorem C67_w16_toUcs4_PW (v : Version) (p : Ptr U16) :
    RunsOn false v (name% "toUcs4") [.wptr16 p] ((W16.toUcs4W p).map .str32) :=
  runsOn_of' (m := size p + 8) (fun sc => [argW16 p]) (fun sc a => (Arg.str32 a).val sc) (congrArg (· + 8) (size_wptr16 p)) (fun sc => congrArg (· :: []) (val_wptr16 sc p)) (fun sc a => rfl)
    fun sc n hn => by linked' toUcs4_W_W16 (E := Sealed.real) (d := d + 3) p (by omega)

theorem C67_w16_toUcs4_SW (v : Version) (s : List U16) :
    RunsOn false v (name% "toUcs4") [.wstr16 s] ((W16.toUcs4WS s).map .str32) :=
  runsOn_of' (m := s.length + 8) (fun sc => [.str .wchar (units16 s)]) (fun sc a => (Arg.str32 a).val sc) (congrArg (· + 8) (size_wstr16 s)) (fun sc => congrArg (· :: []) (val_wstr16 sc s)) (fun sc a => rfl)
    fun sc n hn => by linked' toUcs4_SW_W16 (E := Sealed.real) (d := d + 2) s (by omega)

theorem C67_w16_toWstring_P8 (v : Version) (p : Ptr Byte) :
    RunsOn false v (name% "toWstring") [.ptr8 p] ((W16.toWstring8 p).map .wstr16) :=
  runsOn_of' (m := size p + 8) (fun sc => [(Arg.ptr8 p).val sc]) (fun sc a => .str .wchar (units16 a)) (rfl) (fun sc => rfl) (fun sc a => val_wstr16 sc a)
    fun sc n hn => by linked' toWstring_8_W16 (E := Sealed.real) (d := d + 3) p (by omega)

theorem C67_w16_toWstring_S8 (v : Version) (s : List Byte) :
    RunsOn false v (name% "toWstring") [.str8 s] ((W16.toWstring8S s).map .wstr16) :=
  runsOn_of' (m := s.length + 8) (fun sc => [(Arg.str8 s).val sc]) (fun sc a => .str .wchar (units16 a)) (rfl) (fun sc => rfl) (fun sc a => val_wstr16 sc a)
    fun sc n hn => by linked' toWstring_S8_W16 (E := Sealed.real) (d := d + 2) s (by omega)

theorem C67_w16_toWstring_P16 (v : Version) (p : Ptr U16) :
    RunsOn false v (name% "toWstring") [.ptr16 p] ((W16.toWstring16 (Unicode.charClass v) p).map .wstr16) :=
  runsOn_of' (m := size p + 8) (fun sc => [(Arg.ptr16 p).val sc]) (fun sc a => .str .wchar (units16 a)) (rfl) (fun sc => rfl) (fun sc a => val_wstr16 sc a)
    fun sc n hn => by linked' toWstring_16_W16 (E := Sealed.real) (d := d + 2) (link_are v sc) p (by omega)

theorem C67_w16_toWstring_S16 (v : Version) (s : List U16) :
    RunsOn false v (name% "toWstring") [.str16 s] ((W16.toWstring16S (Unicode.charClass v) s).map .wstr16) :=
  runsOn_of' (m := s.length + 8) (fun sc => [(Arg.str16 s).val sc]) (fun sc a => .str .wchar (units16 a)) (rfl) (fun sc => rfl) (fun sc a => val_wstr16 sc a)
    fun sc n hn => by linked' toWstring_S16_W16 (E := Sealed.real) (d := d + 1) (link_are v sc) s (by omega)

theorem C67_w16_toWstring_P32 (v : Version) (p : Ptr U32) :
    RunsOn false v (name% "toWstring") [.ptr32 p] ((W16.toWstring32 p).map .wstr16) :=
  runsOn_of' (m := size p + 8) (fun sc => [(Arg.ptr32 p).val sc]) (fun sc a => .str .wchar (units16 a)) (rfl) (fun sc => rfl) (fun sc a => val_wstr16 sc a)
    fun sc n hn => by linked' toWstring_32_W16 (E := Sealed.real) (d := d + 3) p (by omega)

theorem C67_w16_toWstring_S32 (v : Version) (s : List U32) :
    RunsOn false v (name% "toWstring") [.str32 s] ((W16.toWstring32S s).map .wstr16) :=
  runsOn_of' (m := s.length + 8) (fun sc => [(Arg.str32 s).val sc]) (fun sc a => .str .wchar (units16 a)) (rfl) (fun sc => rfl) (fun sc a => val_wstr16 sc a)
    fun sc n hn => by linked' toWstring_S32_W16 (E := Sealed.real) (d := d + 2) s (by omega)

/-! ## `wchar_t` of 32 bits -/

theorem C67_w32_isUtf8_PW (v : Version) (p : Ptr U32) :
    RunsOn true v (name% "isUtf8") [.wptr p] ((W32.isUtf8W (Unicode.charClass v) p).map .bool) :=
  runsOn_of fun sc n hn => by linked isUtf8_W_W32 (E := Sealed.real) (d := d + 2) (link_are v sc) p (by fits)

theorem C67_w32_isUtf8_SW (v : Version) (s : List U32) :
    RunsOn true v (name% "isUtf8") [.wstr s] ((W32.isUtf8WS (Unicode.charClass v) s).map .bool) :=
  runsOn_of fun sc n hn => by linked isUtf8_SW_W32 (E := Sealed.real) (d := d + 1) (link_are v sc) s (by fits)

theorem C67_w32_isUtf16_PW (v : Version) (p : Ptr U32) :
    RunsOn true v (name% "isUtf16") [.wptr p] ((W32.isUtf16W (Unicode.charClass v) p).map .bool) :=
  runsOn_of fun sc n hn => by linked isUtf16_W_W32 (E := Sealed.real) (d := d + 2) (link_are v sc) p (by fits)

theorem C67_w32_isUtf16_SW (v : Version) (s : List U32) :
    RunsOn true v (name% "isUtf16") [.wstr s] ((W32.isUtf16WS (Unicode.charClass v) s).map .bool) :=
  runsOn_of fun sc n hn => by linked isUtf16_SW_W32 (E := Sealed.real) (d := d + 1) (link_are v sc) s (by fits)

theorem C67_w32_isUcs2_PW (v : Version) (p : Ptr U32) :
    RunsOn true v (name% "isUcs2") [.wptr p] ((W32.isUcs2W (Unicode.charClass v) p).map .bool) :=
  runsOn_of fun sc n hn => by linked isUcs2_W_W32 (E := Sealed.real) (d := d + 2) (link_are v sc) p (by fits)

theorem C67_w32_isUcs2_SW (v : Version) (s : List U32) :
    RunsOn true v (name% "isUcs2") [.wstr s] ((W32.isUcs2WS (Unicode.charClass v) s).map .bool) :=
  runsOn_of fun sc n hn => by linked isUcs2_SW_W32 (E := Sealed.real) (d := d + 1) (link_are v sc) s (by fits)

theorem C67_w32_isUcs4_PW (v : Version) (p : Ptr U32) :
    RunsOn true v (name% "isUcs4") [.wptr p] ((W32.isUcs4W (Unicode.charClass v) p).map .bool) :=
  runsOn_of fun sc n hn => by linked isUcs4_W_W32 (E := Sealed.real) (d := d + 2) (link_are v sc) p (by fits)

theorem C67_w32_isUcs4_SW (v : Version) (s : List U32) :
    RunsOn true v (name% "isUcs4") [.wstr s] ((W32.isUcs4WS (Unicode.charClass v) s).map .bool) :=
  runsOn_of fun sc n hn => by linked isUcs4_SW_W32 (E := Sealed.real) (d := d + 1) (link_are v sc) s (by fits)

theorem C67_w32_isWstring_P8 (v : Version) (p : Ptr Byte) :
    RunsOn true v (name% "isWstring") [.ptr8 p] ((W32.isWstring8 (Unicode.charClass v) p).map .bool) :=
  runsOn_of fun sc n hn => by linked isWstring_8_W32 (E := Sealed.real) (d := d + 2) (link_are v sc) p (by fits)

theorem C67_w32_isWstring_S8 (v : Version) (s : List Byte) :
    RunsOn true v (name% "isWstring") [.str8 s] ((W32.isWstring8S (Unicode.charClass v) s).map .bool) :=
  runsOn_of fun sc n hn => by linked isWstring_S8_W32 (E := Sealed.real) (d := d + 2) (link_are v sc) s (by fits)

theorem C67_w32_isWstring_P16 (v : Version) (p : Ptr U16) :
    RunsOn true v (name% "isWstring") [.ptr16 p] ((W32.isWstring16 (Unicode.charClass v) p).map .bool) :=
  runsOn_of fun sc n hn => by linked isWstring_16_W32 (E := Sealed.real) (d := d + 2) (link_are v sc) p (by fits)

theorem C67_w32_isWstring_S16 (v : Version) (s : List U16) :
    RunsOn true v (name% "isWstring") [.str16 s] ((W32.isWstring16S (Unicode.charClass v) s).map .bool) :=
  runsOn_of fun sc n hn => by linked isWstring_S16_W32 (E := Sealed.real) (d := d + 2) (link_are v sc) s (by fits)

theorem C67_w32_isWstring_P32 (v : Version) (p : Ptr U32) :
    RunsOn true v (name% "isWstring") [.ptr32 p] ((W32.isWstring32 (Unicode.charClass v) p).map .bool) :=
  runsOn_of fun sc n hn => by linked isWstring_32_W32 (E := Sealed.real) (d := d + 2) (link_are v sc) p (by fits)

theorem C67_w32_isWstring_S32 (v : Version) (s : List U32) :
    RunsOn true v (name% "isWstring") [.str32 s] ((W32.isWstring32S (Unicode.charClass v) s).map .bool) :=
  runsOn_of fun sc n hn => by linked isWstring_S32_W32 (E := Sealed.real) (d := d + 2) (link_are v sc) s (by fits)

theorem C67_w32_toUtf8_PW (v : Version) (p : Ptr U32) :
    RunsOn true v (name% "toUtf8") [.wptr p] ((W32.toUtf8W p).map .str8) :=
  runsOn_of fun sc n hn => by linked toUtf8_W_W32 (E := Sealed.real) (d := d + 3) p (by fits)

theorem C67_w32_toUtf8_SW (v : Version) (s : List U32) :
    RunsOn true v (name% "toUtf8") [.wstr s] ((W32.toUtf8WS s).map .str8) :=
  runsOn_of fun sc n hn => by linked toUtf8_SW_W32 (E := Sealed.real) (d := d + 2) s (by fits)

theorem C67_w32_toUtf16_PW (v : Version) (p : Ptr U32) :
    RunsOn true v (name% "toUtf16") [.wptr p] ((W32.toUtf16W p).map .str16) :=
  runsOn_of fun sc n hn => by linked toUtf16_W_W32 (E := Sealed.real) (d := d + 3) p (by fits)

theorem C67_w32_toUtf16_SW (v : Version) (s : List U32) :
    RunsOn true v (name% "toUtf16") [.wstr s] ((W32.toUtf16WS s).map .str16) :=
  runsOn_of fun sc n hn => by linked toUtf16_SW_W32 (E := Sealed.real) (d := d + 2) s (by fits)

theorem C67_w32_toUcs2_PW (v : Version) (p : Ptr U32) :
    RunsOn true v (name% "toUcs2") [.wptr p] ((W32.toUcs2W p).map .str16) :=
  runsOn_of fun sc n hn => by linked toUcs2_W_W32 (E := Sealed.real) (d := d + 3) p (by fits)

theorem C67_w32_toUcs2_SW (v : Version) (s : List U32) :
    RunsOn true v (name% "toUcs2") [.wstr s] ((W32.toUcs2WS s).map .str16) :=
  runsOn_of fun sc n hn => by linked toUcs2_SW_W32 (E := Sealed.real) (d := d + 2) s (by fits)

theorem C67_w32_toUcs4_PW (v : Version) (p : Ptr U32) :
    RunsOn true v (name% "toUcs4") [.wptr p] ((W32.toUcs4W (Unicode.charClass v) p).map .str32) :=
  runsOn_of fun sc n hn => by linked toUcs4_W_W32 (E := Sealed.real) (d := d + 2) (link_are v sc) p (by fits)

theorem C67_w32_toUcs4_SW (v : Version) (s : List U32) :
    RunsOn true v (name% "toUcs4") [.wstr s] ((W32.toUcs4WS (Unicode.charClass v) s).map .str32) :=
  runsOn_of fun sc n hn => by linked toUcs4_SW_W32 (E := Sealed.real) (d := d + 1) (link_are v sc) s (by fits)

theorem C67_w32_toWstring_P8 (v : Version) (p : Ptr Byte) :
    RunsOn true v (name% "toWstring") [.ptr8 p] ((W32.toWstring8 p).map .wstr) :=
  runsOn_of fun sc n hn => by linked toWstring_8_W32 (E := Sealed.real) (d := d + 3) p (by fits)

theorem C67_w32_toWstring_S8 (v : Version) (s : List Byte) :
    RunsOn true v (name% "toWstring") [.str8 s] ((W32.toWstring8S s).map .wstr) :=
  runsOn_of fun sc n hn => by linked toWstring_S8_W32 (E := Sealed.real) (d := d + 2) s (by fits)

theorem C67_w32_toWstring_P16 (v : Version) (p : Ptr U16) :
    RunsOn true v (name% "toWstring") [.ptr16 p] ((W32.toWstring16 p).map .wstr) :=
  runsOn_of fun sc n hn => by linked toWstring_16_W32 (E := Sealed.real) (d := d + 3) p (by fits)

theorem C67_w32_toWstring_S16 (v : Version) (s : List U16) :
    RunsOn true v (name% "toWstring") [.str16 s] ((W32.toWstring16S s).map .wstr) :=
  runsOn_of fun sc n hn => by linked toWstring_S16_W32 (E := Sealed.real) (d := d + 2) s (by fits)

theorem C67_w32_toWstring_P32 (v : Version) (p : Ptr U32) :
    RunsOn true v (name% "toWstring") [.ptr32 p] ((W32.toWstring32 (Unicode.charClass v) p).map .wstr) :=
  runsOn_of fun sc n hn => by linked toWstring_32_W32 (E := Sealed.real) (d := d + 2) (link_are v sc) p (by fits)

theorem C67_w32_toWstring_S32 (v : Version) (s : List U32) :
    RunsOn true v (name% "toWstring") [.str32 s] ((W32.toWstring32S (Unicode.charClass v) s).map .wstr) :=
  runsOn_of fun sc n hn => by linked toWstring_S32_W32 (E := Sealed.real) (d := d + 1) (link_are v sc) s (by fits)

end Ansak.Props
