import Verif.Spec.EarlyWindows
import Verif.Lemmas.Cpp.Early
import Verif.Props.TextWindows

/-! # The text of the library on Windows with any `supportedUnicodeVersion`

As in `Verif.Props.TextWindows`, for any content of that string. -/

namespace Ansak.Props

open Cpp
open Cpp.Source (Tchar)
open Spec (Arg enough unready EarlyOn EarlyWindows EarlyNever Yields)

theorem earlyWindows_of {α : Type} {t : Tchar} {v : Version} {name : Nat} {args : List Arg} {x : Res α} {f : α → Arg}
    {refs : List (Option Val)} {m : Nat} (g : Bool → α → Val) (hm : enough args = m) (hg : ∀ sc a, (f a).val sc = g sc a)
    (h : ∀ u sc n, m ≤ n →
      Sealed.real.call (Ast.onWindows t u) (unready v sc u) sc n n (nat_lit 0) name (args.map (Arg.val sc)) .done =
        x.out fun a => .done (g sc a) refs)
    (hr : ∀ r ∈ refs, r = none := by simp) : EarlyWindows t v name args (x.map f) := by
  intro u sc n hn
  rw [callWindows_eq (X := unready v sc u) (s := u) rfl]
  have h := h u sc n (hm ▸ hn)
  cases x with
  | ok a => exact ⟨refs, by rw [hg]; exact h, hr⟩
  | ub => exact h

theorem early_win_isUtf16_P8 (t : Tchar) (v : Version) (p : Ptr Byte) :
    EarlyWindows t v (name% "isUtf16") [.ptr8 p] ((W16.isUtf16From8 (Unicode.charClass v) p).map .bool) :=
  earlyWindows_of (m := size p + 8) (fun sc a => (Arg.bool a).val sc) rfl (fun sc a => rfl)
    fun u sc n hn => by linked' lift_call (tchar_extends t _) (isUtf16_8_win (E := Sealed.real) (K := .done) (d := d + 2) (unready_are v sc u) p (by omega)) .done

theorem early_win_isUtf16_S8 (t : Tchar) (v : Version) (s : List Byte) :
    EarlyWindows t v (name% "isUtf16") [.str8 s] ((W16.isUtf16From8S (Unicode.charClass v) s).map .bool) :=
  earlyWindows_of (m := s.length + 8) (fun sc a => (Arg.bool a).val sc) rfl (fun sc a => rfl)
    fun u sc n hn => by linked' lift_call (tchar_extends t _) (isUtf16_S8_win (E := Sealed.real) (K := .done) (d := d + 1) (unready_are v sc u) s (by omega)) .done

theorem early_win_isUcs2_P8 (t : Tchar) (v : Version) (p : Ptr Byte) :
    EarlyWindows t v (name% "isUcs2") [.ptr8 p] ((W16.isUcs2From8 (Unicode.charClass v) p).map .bool) :=
  earlyWindows_of (m := size p + 8) (fun sc a => (Arg.bool a).val sc) rfl (fun sc a => rfl)
    fun u sc n hn => by linked' lift_call (tchar_extends t _) (isUcs2_8_win (E := Sealed.real) (K := .done) (d := d + 2) (unready_are v sc u) p (by omega)) .done

theorem early_win_isUcs2_S8 (t : Tchar) (v : Version) (s : List Byte) :
    EarlyWindows t v (name% "isUcs2") [.str8 s] ((W16.isUcs2From8S (Unicode.charClass v) s).map .bool) :=
  earlyWindows_of (m := s.length + 8) (fun sc a => (Arg.bool a).val sc) rfl (fun sc a => rfl)
    fun u sc n hn => by linked' lift_call (tchar_extends t _) (isUcs2_S8_win (E := Sealed.real) (K := .done) (d := d + 1) (unready_are v sc u) s (by omega)) .done

theorem early_win_isUcs4_P8 (t : Tchar) (v : Version) (p : Ptr Byte) :
    EarlyWindows t v (name% "isUcs4") [.ptr8 p] ((W16.isUcs4From8 (Unicode.charClass v) p).map .bool) :=
  earlyWindows_of (m := size p + 8) (fun sc a => (Arg.bool a).val sc) rfl (fun sc a => rfl)
    fun u sc n hn => by linked' lift_call (tchar_extends t _) (isUcs4_8_win (E := Sealed.real) (K := .done) (d := d + 2) (unready_are v sc u) p (by omega)) .done

theorem early_win_isUcs4_S8 (t : Tchar) (v : Version) (s : List Byte) :
    EarlyWindows t v (name% "isUcs4") [.str8 s] ((W16.isUcs4From8S (Unicode.charClass v) s).map .bool) :=
  earlyWindows_of (m := s.length + 8) (fun sc a => (Arg.bool a).val sc) rfl (fun sc a => rfl)
    fun u sc n hn => by linked' lift_call (tchar_extends t _) (isUcs4_S8_win (E := Sealed.real) (K := .done) (d := d + 1) (unready_are v sc u) s (by omega)) .done

theorem early_win_toUtf8_P8 (t : Tchar) (v : Version) (p : Ptr Byte) :
    EarlyWindows t v (name% "toUtf8") [.ptr8 p] ((W16.toUtf8From8 (Unicode.charClass v) p).map .str8) :=
  earlyWindows_of (m := size p + 8) (fun sc a => (Arg.str8 a).val sc) rfl (fun sc a => rfl)
    fun u sc n hn => by linked' lift_call (tchar_extends t _) (toUtf8_8_win (E := Sealed.real) (K := .done) (d := d + 2) (unready_are v sc u) p (by omega)) .done

theorem early_win_toUtf8_S8 (t : Tchar) (v : Version) (s : List Byte) :
    EarlyWindows t v (name% "toUtf8") [.str8 s] ((W16.toUtf8From8S (Unicode.charClass v) s).map .str8) :=
  earlyWindows_of (m := s.length + 8) (fun sc a => (Arg.str8 a).val sc) rfl (fun sc a => rfl)
    fun u sc n hn => by linked' lift_call (tchar_extends t _) (toUtf8_S8_win (E := Sealed.real) (K := .done) (d := d + 1) (unready_are v sc u) s (by omega)) .done

theorem early_mbcs_isTstring_S8 (v : Version) (s : List Byte) :
    EarlyWindows .mbcs v (name% "isTstring") [.str8 s] ((W16.isTstring8S (Unicode.charClass v) s).map .bool) :=
  earlyWindows_of (m := s.length + 8) (fun sc a => (Arg.bool a).val sc) rfl (fun sc a => rfl)
    fun u sc n hn => by linked' isTstring_S8_mbcs (E := Sealed.real) (d := d + 2) (unready_are v sc u) s (by omega)

theorem early_mbcs_isTstring_P8 (v : Version) (p : Ptr Byte) :
    EarlyWindows .mbcs v (name% "isTstring") [.ptr8 p] ((W16.isTstring8 (Unicode.charClass v) p).map .bool) :=
  earlyWindows_of (m := size p + 8) (fun sc a => (Arg.bool a).val sc) rfl (fun sc a => rfl)
    fun u sc n hn => by linked' isTstring_8_mbcs (E := Sealed.real) (d := d + 2) (unready_are v sc u) p (by omega)

theorem early_mbcs_isTstring_S16 (v : Version) (s : List U16) :
    EarlyWindows .mbcs v (name% "isTstring") [.str16 s] ((W16.isTstring16S (Unicode.charClass v) s).map .bool) :=
  earlyWindows_of (m := s.length + 8) (fun sc a => (Arg.bool a).val sc) rfl (fun sc a => rfl)
    fun u sc n hn => by linked' isTstring_S16_mbcs (E := Sealed.real) (d := d + 2) (unready_are v sc u) s (by omega)

theorem early_mbcs_isTstring_P16 (v : Version) (p : Ptr U16) :
    EarlyWindows .mbcs v (name% "isTstring") [.ptr16 p] ((W16.isTstring16 (Unicode.charClass v) p).map .bool) :=
  earlyWindows_of (m := size p + 8) (fun sc a => (Arg.bool a).val sc) rfl (fun sc a => rfl)
    fun u sc n hn => by linked' isTstring_16_mbcs (E := Sealed.real) (d := d + 2) (unready_are v sc u) p (by omega)

theorem early_mbcs_isTstring_S32 (v : Version) (s : List U32) :
    EarlyWindows .mbcs v (name% "isTstring") [.str32 s] ((W16.isTstring32S (Unicode.charClass v) s).map .bool) :=
  earlyWindows_of (m := s.length + 8) (fun sc a => (Arg.bool a).val sc) rfl (fun sc a => rfl)
    fun u sc n hn => by linked' isTstring_S32_mbcs (E := Sealed.real) (d := d + 2) (unready_are v sc u) s (by omega)

theorem early_mbcs_isTstring_P32 (v : Version) (p : Ptr U32) :
    EarlyWindows .mbcs v (name% "isTstring") [.ptr32 p] ((W16.isTstring32 (Unicode.charClass v) p).map .bool) :=
  earlyWindows_of (m := size p + 8) (fun sc a => (Arg.bool a).val sc) rfl (fun sc a => rfl)
    fun u sc n hn => by linked' isTstring_32_mbcs (E := Sealed.real) (d := d + 2) (unready_are v sc u) p (by omega)

theorem early_mbcs_toTstring_P8 (v : Version) (p : Ptr Byte) :
    EarlyWindows .mbcs v (name% "toTstring") [.ptr8 p] ((W16.Mbcs.toTstring8 (Unicode.charClass v) p).map .str8) :=
  earlyWindows_of (m := size p + 8) (fun sc a => (Arg.str8 a).val sc) rfl (fun sc a => rfl)
    fun u sc n hn => by linked' toTstring_8_mbcs (E := Sealed.real) (d := d + 2) (unready_are v sc u) p (by omega)

theorem early_mbcs_toTstring_P16 (v : Version) (p : Ptr U16) :
    EarlyWindows .mbcs v (name% "toTstring") [.ptr16 p] ((W16.Mbcs.toTstring16 (Unicode.charClass v) p).map .str8) :=
  earlyWindows_of (m := size p + 8) (fun sc a => (Arg.str8 a).val sc) rfl (fun sc a => rfl)
    fun u sc n hn => by linked' toTstring_16_mbcs (E := Sealed.real) (d := d + 2) (unready_are v sc u) p (by omega)

theorem early_mbcs_toTstring_P32 (v : Version) (p : Ptr U32) :
    EarlyWindows .mbcs v (name% "toTstring") [.ptr32 p] ((W16.Mbcs.toTstring32 (Unicode.charClass v) p).map .str8) :=
  earlyWindows_of (m := size p + 8) (fun sc a => (Arg.str8 a).val sc) rfl (fun sc a => rfl)
    fun u sc n hn => by linked' toTstring_32_mbcs (E := Sealed.real) (d := d + 2) (unready_are v sc u) p (by omega)

theorem early_mbcs_toTstring_S8 (v : Version) (s : List Byte) : EarlyNever 0 v (.str8 s) := fun u sc n => by
  rw [call0_eq (X := unready v sc u) (s := u) rfl]
  exact never8 (E := Sealed.real) s

theorem early_mbcs_toTstring_S16 (v : Version) (s : List U16) : EarlyNever 2 v (.str16 s) := fun u sc n => by
  rw [call2_eq (X := unready v sc u) (s := u) rfl]
  exact never16 (E := Sealed.real) s

theorem early_mbcs_toTstring_S32 (v : Version) (s : List U32) : EarlyNever 4 v (.str32 s) := fun u sc n => by
  rw [call4_eq (X := unready v sc u) (s := u) rfl]
  exact never32 (E := Sealed.real) s

theorem early_unicode_isTstring_S8 (v : Version) (s : List Byte) :
    EarlyWindows .unicode v (name% "isTstring") [.str8 s] ((W16.isTstring8S (Unicode.charClass v) s).map .bool) :=
  earlyWindows_of (m := s.length + 8) (fun sc a => (Arg.bool a).val sc) rfl (fun sc a => rfl)
    fun u sc n hn => by linked' isTstring_S8_unicode (E := Sealed.real) (d := d + 2) (unready_are v sc u) s (by omega)

theorem early_unicode_isTstring_P8 (v : Version) (p : Ptr Byte) :
    EarlyWindows .unicode v (name% "isTstring") [.ptr8 p] ((W16.isTstring8 (Unicode.charClass v) p).map .bool) :=
  earlyWindows_of (m := size p + 8) (fun sc a => (Arg.bool a).val sc) rfl (fun sc a => rfl)
    fun u sc n hn => by linked' isTstring_8_unicode (E := Sealed.real) (d := d + 2) (unready_are v sc u) p (by omega)

theorem early_unicode_isTstring_S16 (v : Version) (s : List U16) :
    EarlyWindows .unicode v (name% "isTstring") [.str16 s] ((W16.isTstring16S (Unicode.charClass v) s).map .bool) :=
  earlyWindows_of (m := s.length + 8) (fun sc a => (Arg.bool a).val sc) rfl (fun sc a => rfl)
    fun u sc n hn => by linked' isTstring_S16_unicode (E := Sealed.real) (d := d + 2) (unready_are v sc u) s (by omega)

theorem early_unicode_isTstring_P16 (v : Version) (p : Ptr U16) :
    EarlyWindows .unicode v (name% "isTstring") [.ptr16 p] ((W16.isTstring16 (Unicode.charClass v) p).map .bool) :=
  earlyWindows_of (m := size p + 8) (fun sc a => (Arg.bool a).val sc) rfl (fun sc a => rfl)
    fun u sc n hn => by linked' isTstring_16_unicode (E := Sealed.real) (d := d + 2) (unready_are v sc u) p (by omega)

theorem early_unicode_isTstring_S32 (v : Version) (s : List U32) :
    EarlyWindows .unicode v (name% "isTstring") [.str32 s] ((W16.isTstring32S (Unicode.charClass v) s).map .bool) :=
  earlyWindows_of (m := s.length + 8) (fun sc a => (Arg.bool a).val sc) rfl (fun sc a => rfl)
    fun u sc n hn => by linked' isTstring_S32_unicode (E := Sealed.real) (d := d + 2) (unready_are v sc u) s (by omega)

theorem early_unicode_isTstring_P32 (v : Version) (p : Ptr U32) :
    EarlyWindows .unicode v (name% "isTstring") [.ptr32 p] ((W16.isTstring32 (Unicode.charClass v) p).map .bool) :=
  earlyWindows_of (m := size p + 8) (fun sc a => (Arg.bool a).val sc) rfl (fun sc a => rfl)
    fun u sc n hn => by linked' isTstring_32_unicode (E := Sealed.real) (d := d + 2) (unready_are v sc u) p (by omega)

theorem early_unicode_toTstring_S8 (v : Version) (s : List Byte) :
    EarlyWindows .unicode v (name% "toTstring") [.str8 s] ((W16.Tchar.toTstring8S s).map .wstr16) :=
  earlyWindows_of (m := s.length + 8) (fun sc a => .str .wchar (units16 a)) rfl (fun sc a => val_wstr16 sc a)
    fun u sc n hn => by linked' toTstring_S8_unicode (E := Sealed.real) (d := d + 2) s (by omega)

theorem early_unicode_toTstring_P8 (v : Version) (p : Ptr Byte) :
    EarlyWindows .unicode v (name% "toTstring") [.ptr8 p] ((W16.Tchar.toTstring8 p).map .wstr16) :=
  earlyWindows_of (m := size p + 8) (fun sc a => .str .wchar (units16 a)) rfl (fun sc a => val_wstr16 sc a)
    fun u sc n hn => by linked' toTstring_8_unicode (E := Sealed.real) (d := d + 3) p (by omega)

theorem early_unicode_toTstring_S16 (v : Version) (s : List U16) :
    EarlyWindows .unicode v (name% "toTstring") [.str16 s] ((W16.Tchar.toTstring16S s).map .wstr16) :=
  earlyWindows_of (m := s.length + 8) (fun sc a => .str .wchar (units16 a)) rfl (fun sc a => val_wstr16 sc a)
    fun u sc n hn => by linked' toTstring_S16_unicode (E := Sealed.real) (d := d + 7) s

theorem early_unicode_toTstring_P16 (v : Version) (p : Ptr U16) :
    EarlyWindows .unicode v (name% "toTstring") [.ptr16 p] ((W16.Tchar.toTstring16 p).map .wstr16) :=
  earlyWindows_of (m := size p + 8) (fun sc a => .str .wchar (units16 a)) rfl (fun sc a => val_wstr16 sc a)
    fun u sc n hn => by linked' toTstring_16_unicode (E := Sealed.real) (d := d + 7) p

theorem early_unicode_toTstring_S32 (v : Version) (s : List U32) :
    EarlyWindows .unicode v (name% "toTstring") [.str32 s] ((W16.Tchar.toTstring32S s).map .wstr16) :=
  earlyWindows_of (m := s.length + 8) (fun sc a => .str .wchar (units16 a)) rfl (fun sc a => val_wstr16 sc a)
    fun u sc n hn => by linked' toTstring_S32_unicode (E := Sealed.real) (d := d + 2) s (by omega)

theorem early_unicode_toTstring_P32 (v : Version) (p : Ptr U32) :
    EarlyWindows .unicode v (name% "toTstring") [.ptr32 p] ((W16.Tchar.toTstring32 p).map .wstr16) :=
  earlyWindows_of (m := size p + 8) (fun sc a => .str .wchar (units16 a)) rfl (fun sc a => val_wstr16 sc a)
    fun u sc n hn => by linked' toTstring_32_unicode (E := Sealed.real) (d := d + 3) p (by omega)

end Ansak.Props
