import Verif.Spec.ShallowWindows
import Verif.Lemmas.Cpp.Shallow
import Verif.Props.TextWindows

/-! # The text of the library on Windows with eight calls inside each other

As in `Verif.Props.TextWindows` once more. -/

namespace Ansak.Cpp

open Spec (callWithin)
open Source (Tchar)

theorem callWithin_of {X : Externals} {s : List Int} {wide : Ty} {ps : List Cxx.Text} {is : List Item} {P : Program} {sc : Bool}
    (hi : parseAll ps = some is) (hx : externs is = [name% "supportedUnicodeVersion"])
    (hk : program ⟨X.fn, fun _ => some s⟩ sc wide is = some P) (h : X.str (name% "supportedUnicodeVersion") = some s)
    (n d cls name : Nat) (vs : List Val) :
    callWithin X sc wide ps n d cls name vs = P.call X sc n d cls name vs .done := by
  have hp : program X sc wide is = some P := by
    rw [← hk]
    unfold program
    rw [globalsOf_congr (Y := ⟨X.fn, fun _ => some s⟩) fun x hx' => ?_]
    rw [hx, List.mem_singleton] at hx'
    rw [hx', h]
  unfold callWithin
  rw [hi]
  show (match program X sc wide is with | some P => _ | none => _) = _
  rw [hp]

theorem windowsWithin_eq {X : Externals} {s : List Int} (h : X.str (name% "supportedUnicodeVersion") = some s)
    (sc : Bool) (t : Tchar) (n d cls name : Nat) (vs : List Val) :
    callWithin X sc .c16 (Source.onWindows t) n d cls name vs = (Ast.onWindows t s).call X sc n d cls name vs .done :=
  callWithin_of (parse_onWindows t) (externs_windows t) (windows_known X.fn s sc t) h n d cls name vs

theorem mbcsWithin_eq {i : Nat} {is : List Item} (hi : parseAll (Source.mbcsTo.take (i + 1)) = some is)
    (hx : externs (Ast.allItems false ++ (Ast.itemsWindows ++ (Ast.itemsMbcsIs ++ is))) = [name% "supportedUnicodeVersion"])
    (hk : ∀ (f : Nat → Ty → Int → Option Int) (s : List Int) (sc : Bool),
      program ⟨f, fun _ => some s⟩ sc .c16 (Ast.allItems false ++ (Ast.itemsWindows ++ (Ast.itemsMbcsIs ++ is))) =
        some (Ast.untilMbcs i s))
    {X : Externals} {s : List Int} (h : X.str (name% "supportedUnicodeVersion") = some s)
    (sc : Bool) (n d cls name : Nat) (vs : List Val) :
    callWithin X sc .c16 (Source.untilMbcs i) n d cls name vs = (Ast.untilMbcs i s).call X sc n d cls name vs .done :=
  callWithin_of (parseAll_append (parse_pieces false) (parseAll_append parse_windows (parseAll_append parse_mbcsIs hi))) hx
    (hk X.fn s sc) h n d cls name vs

end Ansak.Cpp

namespace Ansak.Props

open Cpp
open Cpp.Source (Tchar)
open Spec (Arg enough callWithin ShallowOn ShallowWindows Bottomless Yields)

theorem shallowWindows_of {α : Type} {t : Tchar} {v : Version} {name : Nat} {args : List Arg} {x : Res α} {f : α → Arg}
    {refs : List (Option Val)} {l : Nat} (g : Bool → α → Val) (hm : enough args = l) (hg : ∀ sc a, (f a).val sc = g sc a)
    (h : ∀ sc n m, l ≤ n → 8 ≤ m →
      Sealed.real.call (Ast.onWindows t (versionText v sc)) (link v sc) sc n m (nat_lit 0) name (args.map (Arg.val sc)) .done =
        x.out fun a => .done (g sc a) refs)
    (hr : ∀ r ∈ refs, r = none := by simp) : ShallowWindows t v name args (x.map f) := by
  intro sc n m hn hd
  rw [windowsWithin_eq (link_str v sc)]
  have h := h sc n m (hm ▸ hn) hd
  cases x with
  | ok a => exact ⟨refs, by rw [hg]; exact h, hr⟩
  | ub => exact h

theorem bottomless_S8 (v : Version) (s : List Byte) : Bottomless 0 v (.str8 s) := fun sc n d => by
  rw [mbcsWithin_eq parse_mbcsTo1' (by kernel_rfl) (fun f s sc => by kernel_rfl) (link_str v sc)]
  exact never8 (E := Sealed.real) s

theorem bottomless_S16 (v : Version) (s : List U16) : Bottomless 2 v (.str16 s) := fun sc n d => by
  rw [mbcsWithin_eq parse_mbcsTo3' (by kernel_rfl) (fun f s sc => by kernel_rfl) (link_str v sc)]
  exact never16 (E := Sealed.real) s

theorem bottomless_S32 (v : Version) (s : List U32) : Bottomless 4 v (.str32 s) := fun sc n d => by
  rw [mbcsWithin_eq parse_mbcsTo5' (by kernel_rfl) (fun f s sc => by kernel_rfl) (link_str v sc)]
  exact never32 (E := Sealed.real) s

theorem shallow_win_isUtf16_P8 (t : Tchar) (v : Version) (p : Ptr Byte) :
    ShallowWindows t v (name% "isUtf16") [.ptr8 p] ((W16.isUtf16From8 (Unicode.charClass v) p).map .bool) :=
  shallowWindows_of (l := size p + 8) (fun sc a => (Arg.bool a).val sc) rfl (fun sc a => rfl)
    fun sc n m hn hd => by within' lift_call (tchar_extends t _) (isUtf16_8_win (E := Sealed.real) (K := .done) (d := d + 2) (link_are v sc) p (by omega)) .done

theorem shallow_win_isUtf16_S8 (t : Tchar) (v : Version) (s : List Byte) :
    ShallowWindows t v (name% "isUtf16") [.str8 s] ((W16.isUtf16From8S (Unicode.charClass v) s).map .bool) :=
  shallowWindows_of (l := s.length + 8) (fun sc a => (Arg.bool a).val sc) rfl (fun sc a => rfl)
    fun sc n m hn hd => by within' lift_call (tchar_extends t _) (isUtf16_S8_win (E := Sealed.real) (K := .done) (d := d + 1) (link_are v sc) s (by omega)) .done

theorem shallow_win_isUcs2_P8 (t : Tchar) (v : Version) (p : Ptr Byte) :
    ShallowWindows t v (name% "isUcs2") [.ptr8 p] ((W16.isUcs2From8 (Unicode.charClass v) p).map .bool) :=
  shallowWindows_of (l := size p + 8) (fun sc a => (Arg.bool a).val sc) rfl (fun sc a => rfl)
    fun sc n m hn hd => by within' lift_call (tchar_extends t _) (isUcs2_8_win (E := Sealed.real) (K := .done) (d := d + 2) (link_are v sc) p (by omega)) .done

theorem shallow_win_isUcs2_S8 (t : Tchar) (v : Version) (s : List Byte) :
    ShallowWindows t v (name% "isUcs2") [.str8 s] ((W16.isUcs2From8S (Unicode.charClass v) s).map .bool) :=
  shallowWindows_of (l := s.length + 8) (fun sc a => (Arg.bool a).val sc) rfl (fun sc a => rfl)
    fun sc n m hn hd => by within' lift_call (tchar_extends t _) (isUcs2_S8_win (E := Sealed.real) (K := .done) (d := d + 1) (link_are v sc) s (by omega)) .done

theorem shallow_win_isUcs4_P8 (t : Tchar) (v : Version) (p : Ptr Byte) :
    ShallowWindows t v (name% "isUcs4") [.ptr8 p] ((W16.isUcs4From8 (Unicode.charClass v) p).map .bool) :=
  shallowWindows_of (l := size p + 8) (fun sc a => (Arg.bool a).val sc) rfl (fun sc a => rfl)
    fun sc n m hn hd => by within' lift_call (tchar_extends t _) (isUcs4_8_win (E := Sealed.real) (K := .done) (d := d + 2) (link_are v sc) p (by omega)) .done

theorem shallow_win_isUcs4_S8 (t : Tchar) (v : Version) (s : List Byte) :
    ShallowWindows t v (name% "isUcs4") [.str8 s] ((W16.isUcs4From8S (Unicode.charClass v) s).map .bool) :=
  shallowWindows_of (l := s.length + 8) (fun sc a => (Arg.bool a).val sc) rfl (fun sc a => rfl)
    fun sc n m hn hd => by within' lift_call (tchar_extends t _) (isUcs4_S8_win (E := Sealed.real) (K := .done) (d := d + 1) (link_are v sc) s (by omega)) .done

theorem shallow_win_toUtf8_P8 (t : Tchar) (v : Version) (p : Ptr Byte) :
    ShallowWindows t v (name% "toUtf8") [.ptr8 p] ((W16.toUtf8From8 (Unicode.charClass v) p).map .str8) :=
  shallowWindows_of (l := size p + 8) (fun sc a => (Arg.str8 a).val sc) rfl (fun sc a => rfl)
    fun sc n m hn hd => by within' lift_call (tchar_extends t _) (toUtf8_8_win (E := Sealed.real) (K := .done) (d := d + 2) (link_are v sc) p (by omega)) .done

theorem shallow_win_toUtf8_S8 (t : Tchar) (v : Version) (s : List Byte) :
    ShallowWindows t v (name% "toUtf8") [.str8 s] ((W16.toUtf8From8S (Unicode.charClass v) s).map .str8) :=
  shallowWindows_of (l := s.length + 8) (fun sc a => (Arg.str8 a).val sc) rfl (fun sc a => rfl)
    fun sc n m hn hd => by within' lift_call (tchar_extends t _) (toUtf8_S8_win (E := Sealed.real) (K := .done) (d := d + 1) (link_are v sc) s (by omega)) .done

theorem shallow_mbcs_isTstring_S8 (v : Version) (s : List Byte) :
    ShallowWindows .mbcs v (name% "isTstring") [.str8 s] ((W16.isTstring8S (Unicode.charClass v) s).map .bool) :=
  shallowWindows_of (l := s.length + 8) (fun sc a => (Arg.bool a).val sc) rfl (fun sc a => rfl)
    fun sc n m hn hd => by within' isTstring_S8_mbcs (E := Sealed.real) (d := d + 2) (link_are v sc) s (by omega)

theorem shallow_mbcs_isTstring_P8 (v : Version) (p : Ptr Byte) :
    ShallowWindows .mbcs v (name% "isTstring") [.ptr8 p] ((W16.isTstring8 (Unicode.charClass v) p).map .bool) :=
  shallowWindows_of (l := size p + 8) (fun sc a => (Arg.bool a).val sc) rfl (fun sc a => rfl)
    fun sc n m hn hd => by within' isTstring_8_mbcs (E := Sealed.real) (d := d + 2) (link_are v sc) p (by omega)

theorem shallow_mbcs_isTstring_S16 (v : Version) (s : List U16) :
    ShallowWindows .mbcs v (name% "isTstring") [.str16 s] ((W16.isTstring16S (Unicode.charClass v) s).map .bool) :=
  shallowWindows_of (l := s.length + 8) (fun sc a => (Arg.bool a).val sc) rfl (fun sc a => rfl)
    fun sc n m hn hd => by within' isTstring_S16_mbcs (E := Sealed.real) (d := d + 2) (link_are v sc) s (by omega)

theorem shallow_mbcs_isTstring_P16 (v : Version) (p : Ptr U16) :
    ShallowWindows .mbcs v (name% "isTstring") [.ptr16 p] ((W16.isTstring16 (Unicode.charClass v) p).map .bool) :=
  shallowWindows_of (l := size p + 8) (fun sc a => (Arg.bool a).val sc) rfl (fun sc a => rfl)
    fun sc n m hn hd => by within' isTstring_16_mbcs (E := Sealed.real) (d := d + 2) (link_are v sc) p (by omega)

theorem shallow_mbcs_isTstring_S32 (v : Version) (s : List U32) :
    ShallowWindows .mbcs v (name% "isTstring") [.str32 s] ((W16.isTstring32S (Unicode.charClass v) s).map .bool) :=
  shallowWindows_of (l := s.length + 8) (fun sc a => (Arg.bool a).val sc) rfl (fun sc a => rfl)
    fun sc n m hn hd => by within' isTstring_S32_mbcs (E := Sealed.real) (d := d + 2) (link_are v sc) s (by omega)

theorem shallow_mbcs_isTstring_P32 (v : Version) (p : Ptr U32) :
    ShallowWindows .mbcs v (name% "isTstring") [.ptr32 p] ((W16.isTstring32 (Unicode.charClass v) p).map .bool) :=
  shallowWindows_of (l := size p + 8) (fun sc a => (Arg.bool a).val sc) rfl (fun sc a => rfl)
    fun sc n m hn hd => by within' isTstring_32_mbcs (E := Sealed.real) (d := d + 2) (link_are v sc) p (by omega)

theorem shallow_mbcs_toTstring_P8 (v : Version) (p : Ptr Byte) :
    ShallowWindows .mbcs v (name% "toTstring") [.ptr8 p] ((W16.Mbcs.toTstring8 (Unicode.charClass v) p).map .str8) :=
  shallowWindows_of (l := size p + 8) (fun sc a => (Arg.str8 a).val sc) rfl (fun sc a => rfl)
    fun sc n m hn hd => by within' toTstring_8_mbcs (E := Sealed.real) (d := d + 2) (link_are v sc) p (by omega)

theorem shallow_mbcs_toTstring_P16 (v : Version) (p : Ptr U16) :
    ShallowWindows .mbcs v (name% "toTstring") [.ptr16 p] ((W16.Mbcs.toTstring16 (Unicode.charClass v) p).map .str8) :=
  shallowWindows_of (l := size p + 8) (fun sc a => (Arg.str8 a).val sc) rfl (fun sc a => rfl)
    fun sc n m hn hd => by within' toTstring_16_mbcs (E := Sealed.real) (d := d + 2) (link_are v sc) p (by omega)

theorem shallow_mbcs_toTstring_P32 (v : Version) (p : Ptr U32) :
    ShallowWindows .mbcs v (name% "toTstring") [.ptr32 p] ((W16.Mbcs.toTstring32 (Unicode.charClass v) p).map .str8) :=
  shallowWindows_of (l := size p + 8) (fun sc a => (Arg.str8 a).val sc) rfl (fun sc a => rfl)
    fun sc n m hn hd => by within' toTstring_32_mbcs (E := Sealed.real) (d := d + 2) (link_are v sc) p (by omega)

theorem shallow_unicode_isTstring_S8 (v : Version) (s : List Byte) :
    ShallowWindows .unicode v (name% "isTstring") [.str8 s] ((W16.isTstring8S (Unicode.charClass v) s).map .bool) :=
  shallowWindows_of (l := s.length + 8) (fun sc a => (Arg.bool a).val sc) rfl (fun sc a => rfl)
    fun sc n m hn hd => by within' isTstring_S8_unicode (E := Sealed.real) (d := d + 2) (link_are v sc) s (by omega)

theorem shallow_unicode_isTstring_P8 (v : Version) (p : Ptr Byte) :
    ShallowWindows .unicode v (name% "isTstring") [.ptr8 p] ((W16.isTstring8 (Unicode.charClass v) p).map .bool) :=
  shallowWindows_of (l := size p + 8) (fun sc a => (Arg.bool a).val sc) rfl (fun sc a => rfl)
    fun sc n m hn hd => by within' isTstring_8_unicode (E := Sealed.real) (d := d + 2) (link_are v sc) p (by omega)

theorem shallow_unicode_isTstring_S16 (v : Version) (s : List U16) :
    ShallowWindows .unicode v (name% "isTstring") [.str16 s] ((W16.isTstring16S (Unicode.charClass v) s).map .bool) :=
  shallowWindows_of (l := s.length + 8) (fun sc a => (Arg.bool a).val sc) rfl (fun sc a => rfl)
    fun sc n m hn hd => by within' isTstring_S16_unicode (E := Sealed.real) (d := d + 2) (link_are v sc) s (by omega)

theorem shallow_unicode_isTstring_P16 (v : Version) (p : Ptr U16) :
    ShallowWindows .unicode v (name% "isTstring") [.ptr16 p] ((W16.isTstring16 (Unicode.charClass v) p).map .bool) :=
  shallowWindows_of (l := size p + 8) (fun sc a => (Arg.bool a).val sc) rfl (fun sc a => rfl)
    fun sc n m hn hd => by within' isTstring_16_unicode (E := Sealed.real) (d := d + 2) (link_are v sc) p (by omega)

theorem shallow_unicode_isTstring_S32 (v : Version) (s : List U32) :
    ShallowWindows .unicode v (name% "isTstring") [.str32 s] ((W16.isTstring32S (Unicode.charClass v) s).map .bool) :=
  shallowWindows_of (l := s.length + 8) (fun sc a => (Arg.bool a).val sc) rfl (fun sc a => rfl)
    fun sc n m hn hd => by within' isTstring_S32_unicode (E := Sealed.real) (d := d + 2) (link_are v sc) s (by omega)

theorem shallow_unicode_isTstring_P32 (v : Version) (p : Ptr U32) :
    ShallowWindows .unicode v (name% "isTstring") [.ptr32 p] ((W16.isTstring32 (Unicode.charClass v) p).map .bool) :=
  shallowWindows_of (l := size p + 8) (fun sc a => (Arg.bool a).val sc) rfl (fun sc a => rfl)
    fun sc n m hn hd => by within' isTstring_32_unicode (E := Sealed.real) (d := d + 2) (link_are v sc) p (by omega)

theorem shallow_unicode_toTstring_S8 (v : Version) (s : List Byte) :
    ShallowWindows .unicode v (name% "toTstring") [.str8 s] ((W16.Tchar.toTstring8S s).map .wstr16) :=
  shallowWindows_of (l := s.length + 8) (fun sc a => .str .wchar (units16 a)) rfl (fun sc a => val_wstr16 sc a)
    fun sc n m hn hd => by within' toTstring_S8_unicode (E := Sealed.real) (d := d + 2) s (by omega)

theorem shallow_unicode_toTstring_P8 (v : Version) (p : Ptr Byte) :
    ShallowWindows .unicode v (name% "toTstring") [.ptr8 p] ((W16.Tchar.toTstring8 p).map .wstr16) :=
  shallowWindows_of (l := size p + 8) (fun sc a => .str .wchar (units16 a)) rfl (fun sc a => val_wstr16 sc a)
    fun sc n m hn hd => by within' toTstring_8_unicode (E := Sealed.real) (d := d + 3) p (by omega)

theorem shallow_unicode_toTstring_S16 (v : Version) (s : List U16) :
    ShallowWindows .unicode v (name% "toTstring") [.str16 s] ((W16.Tchar.toTstring16S s).map .wstr16) :=
  shallowWindows_of (l := s.length + 8) (fun sc a => .str .wchar (units16 a)) rfl (fun sc a => val_wstr16 sc a)
    fun sc n m hn hd => by within' toTstring_S16_unicode (E := Sealed.real) (d := d + 7) s

theorem shallow_unicode_toTstring_P16 (v : Version) (p : Ptr U16) :
    ShallowWindows .unicode v (name% "toTstring") [.ptr16 p] ((W16.Tchar.toTstring16 p).map .wstr16) :=
  shallowWindows_of (l := size p + 8) (fun sc a => .str .wchar (units16 a)) rfl (fun sc a => val_wstr16 sc a)
    fun sc n m hn hd => by within' toTstring_16_unicode (E := Sealed.real) (d := d + 7) p

theorem shallow_unicode_toTstring_S32 (v : Version) (s : List U32) :
    ShallowWindows .unicode v (name% "toTstring") [.str32 s] ((W16.Tchar.toTstring32S s).map .wstr16) :=
  shallowWindows_of (l := s.length + 8) (fun sc a => .str .wchar (units16 a)) rfl (fun sc a => val_wstr16 sc a)
    fun sc n m hn hd => by within' toTstring_S32_unicode (E := Sealed.real) (d := d + 2) s (by omega)

theorem shallow_unicode_toTstring_P32 (v : Version) (p : Ptr U32) :
    ShallowWindows .unicode v (name% "toTstring") [.ptr32 p] ((W16.Tchar.toTstring32 p).map .wstr16) :=
  shallowWindows_of (l := size p + 8) (fun sc a => .str .wchar (units16 a)) rfl (fun sc a => val_wstr16 sc a)
    fun sc n m hn hd => by within' toTstring_32_unicode (E := Sealed.real) (d := d + 3) p (by omega)

end Ansak.Props
