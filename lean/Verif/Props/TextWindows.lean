import Verif.Spec.LibraryWindows
import Verif.Lemmas.Cpp.WindowsNever
import Verif.Lemmas.Cpp.ReturnsWide

/-!
# C67: what the library has on Windows only, as it is written
-/

namespace Ansak.Props

open Cpp
open Cpp.Source (Tchar)
open Spec (Arg RunsOn RunsWindows ReturnsWindows NeverReturns Changes RunsMember enough Yields)

theorem runsWindows_of {α : Type} {t : Tchar} {v : Version} {name : Nat} {args : List Arg} {x : Res α} {f : α → Arg}
    {refs : List (Option Val)} {m : Nat} (g : Bool → α → Val) (hm : enough args = m) (hg : ∀ sc a, (f a).val sc = g sc a)
    (h : ∀ sc n, m ≤ n →
      Sealed.real.call (Ast.onWindows t (versionText v sc)) (link v sc) sc n n (nat_lit 0) name (args.map (Arg.val sc)) .done =
        x.out fun a => .done (g sc a) refs)
    (hr : ∀ r ∈ refs, r = none := by simp) : RunsWindows t v name args (x.map f) := by
  intro sc n hn
  rw [callWindows_eq (link_str v sc)]
  have h := h sc n (hm ▸ hn)
  cases x with
  | ok a => exact ⟨refs, by rw [hg]; exact h, hr⟩
  | ub => exact h

/-! ## In every build for Windows -/

theorem C67_win_isUtf16_P8 (t : Tchar) (v : Version) (p : Ptr Byte) :
    RunsWindows t v (name% "isUtf16") [.ptr8 p] ((W16.isUtf16From8 (Unicode.charClass v) p).map .bool) :=
  runsWindows_of (m := size p + 8) (fun sc a => (Arg.bool a).val sc) rfl (fun sc a => rfl)
    fun sc n hn => by linked' lift_call (tchar_extends t _) (isUtf16_8_win (E := Sealed.real) (K := .done) (d := d + 2) (link_are v sc) p (by omega)) .done

theorem C67_win_isUtf16_S8 (t : Tchar) (v : Version) (s : List Byte) :
    RunsWindows t v (name% "isUtf16") [.str8 s] ((W16.isUtf16From8S (Unicode.charClass v) s).map .bool) :=
  runsWindows_of (m := s.length + 8) (fun sc a => (Arg.bool a).val sc) rfl (fun sc a => rfl)
    fun sc n hn => by linked' lift_call (tchar_extends t _) (isUtf16_S8_win (E := Sealed.real) (K := .done) (d := d + 1) (link_are v sc) s (by omega)) .done

theorem C67_win_isUcs2_P8 (t : Tchar) (v : Version) (p : Ptr Byte) :
    RunsWindows t v (name% "isUcs2") [.ptr8 p] ((W16.isUcs2From8 (Unicode.charClass v) p).map .bool) :=
  runsWindows_of (m := size p + 8) (fun sc a => (Arg.bool a).val sc) rfl (fun sc a => rfl)
    fun sc n hn => by linked' lift_call (tchar_extends t _) (isUcs2_8_win (E := Sealed.real) (K := .done) (d := d + 2) (link_are v sc) p (by omega)) .done

theorem C67_win_isUcs2_S8 (t : Tchar) (v : Version) (s : List Byte) :
    RunsWindows t v (name% "isUcs2") [.str8 s] ((W16.isUcs2From8S (Unicode.charClass v) s).map .bool) :=
  runsWindows_of (m := s.length + 8) (fun sc a => (Arg.bool a).val sc) rfl (fun sc a => rfl)
    fun sc n hn => by linked' lift_call (tchar_extends t _) (isUcs2_S8_win (E := Sealed.real) (K := .done) (d := d + 1) (link_are v sc) s (by omega)) .done

theorem C67_win_isUcs4_P8 (t : Tchar) (v : Version) (p : Ptr Byte) :
    RunsWindows t v (name% "isUcs4") [.ptr8 p] ((W16.isUcs4From8 (Unicode.charClass v) p).map .bool) :=
  runsWindows_of (m := size p + 8) (fun sc a => (Arg.bool a).val sc) rfl (fun sc a => rfl)
    fun sc n hn => by linked' lift_call (tchar_extends t _) (isUcs4_8_win (E := Sealed.real) (K := .done) (d := d + 2) (link_are v sc) p (by omega)) .done

theorem C67_win_isUcs4_S8 (t : Tchar) (v : Version) (s : List Byte) :
    RunsWindows t v (name% "isUcs4") [.str8 s] ((W16.isUcs4From8S (Unicode.charClass v) s).map .bool) :=
  runsWindows_of (m := s.length + 8) (fun sc a => (Arg.bool a).val sc) rfl (fun sc a => rfl)
    fun sc n hn => by linked' lift_call (tchar_extends t _) (isUcs4_S8_win (E := Sealed.real) (K := .done) (d := d + 1) (link_are v sc) s (by omega)) .done

theorem C67_win_toUtf8_P8 (t : Tchar) (v : Version) (p : Ptr Byte) :
    RunsWindows t v (name% "toUtf8") [.ptr8 p] ((W16.toUtf8From8 (Unicode.charClass v) p).map .str8) :=
  runsWindows_of (m := size p + 8) (fun sc a => (Arg.str8 a).val sc) rfl (fun sc a => rfl)
    fun sc n hn => by linked' lift_call (tchar_extends t _) (toUtf8_8_win (E := Sealed.real) (K := .done) (d := d + 2) (link_are v sc) p (by omega)) .done

theorem C67_win_toUtf8_S8 (t : Tchar) (v : Version) (s : List Byte) :
    RunsWindows t v (name% "toUtf8") [.str8 s] ((W16.toUtf8From8S (Unicode.charClass v) s).map .str8) :=
  runsWindows_of (m := s.length + 8) (fun sc a => (Arg.str8 a).val sc) rfl (fun sc a => rfl)
    fun sc n hn => by linked' lift_call (tchar_extends t _) (toUtf8_S8_win (E := Sealed.real) (K := .done) (d := d + 1) (link_are v sc) s (by omega)) .done

/-! ## `_MBCS` -/

theorem C67_mbcs_isTstring_S8 (v : Version) (s : List Byte) :
    RunsWindows .mbcs v (name% "isTstring") [.str8 s] ((W16.isTstring8S (Unicode.charClass v) s).map .bool) :=
  runsWindows_of (m := s.length + 8) (fun sc a => (Arg.bool a).val sc) rfl (fun sc a => rfl)
    fun sc n hn => by linked' isTstring_S8_mbcs (E := Sealed.real) (d := d + 2) (link_are v sc) s (by omega)

theorem C67_mbcs_isTstring_P8 (v : Version) (p : Ptr Byte) :
    RunsWindows .mbcs v (name% "isTstring") [.ptr8 p] ((W16.isTstring8 (Unicode.charClass v) p).map .bool) :=
  runsWindows_of (m := size p + 8) (fun sc a => (Arg.bool a).val sc) rfl (fun sc a => rfl)
    fun sc n hn => by linked' isTstring_8_mbcs (E := Sealed.real) (d := d + 2) (link_are v sc) p (by omega)

theorem C67_mbcs_isTstring_S16 (v : Version) (s : List U16) :
    RunsWindows .mbcs v (name% "isTstring") [.str16 s] ((W16.isTstring16S (Unicode.charClass v) s).map .bool) :=
  runsWindows_of (m := s.length + 8) (fun sc a => (Arg.bool a).val sc) rfl (fun sc a => rfl)
    fun sc n hn => by linked' isTstring_S16_mbcs (E := Sealed.real) (d := d + 2) (link_are v sc) s (by omega)

theorem C67_mbcs_isTstring_P16 (v : Version) (p : Ptr U16) :
    RunsWindows .mbcs v (name% "isTstring") [.ptr16 p] ((W16.isTstring16 (Unicode.charClass v) p).map .bool) :=
  runsWindows_of (m := size p + 8) (fun sc a => (Arg.bool a).val sc) rfl (fun sc a => rfl)
    fun sc n hn => by linked' isTstring_16_mbcs (E := Sealed.real) (d := d + 2) (link_are v sc) p (by omega)

theorem C67_mbcs_isTstring_S32 (v : Version) (s : List U32) :
    RunsWindows .mbcs v (name% "isTstring") [.str32 s] ((W16.isTstring32S (Unicode.charClass v) s).map .bool) :=
  runsWindows_of (m := s.length + 8) (fun sc a => (Arg.bool a).val sc) rfl (fun sc a => rfl)
    fun sc n hn => by linked' isTstring_S32_mbcs (E := Sealed.real) (d := d + 2) (link_are v sc) s (by omega)

theorem C67_mbcs_isTstring_P32 (v : Version) (p : Ptr U32) :
    RunsWindows .mbcs v (name% "isTstring") [.ptr32 p] ((W16.isTstring32 (Unicode.charClass v) p).map .bool) :=
  runsWindows_of (m := size p + 8) (fun sc a => (Arg.bool a).val sc) rfl (fun sc a => rfl)
    fun sc n hn => by linked' isTstring_32_mbcs (E := Sealed.real) (d := d + 2) (link_are v sc) p (by omega)

theorem C67_mbcs_toTstring_P8 (v : Version) (p : Ptr Byte) :
    RunsWindows .mbcs v (name% "toTstring") [.ptr8 p] ((W16.Mbcs.toTstring8 (Unicode.charClass v) p).map .str8) :=
  runsWindows_of (m := size p + 8) (fun sc a => (Arg.str8 a).val sc) rfl (fun sc a => rfl)
    fun sc n hn => by linked' toTstring_8_mbcs (E := Sealed.real) (d := d + 2) (link_are v sc) p (by omega)

theorem C67_mbcs_toTstring_P16 (v : Version) (p : Ptr U16) :
    RunsWindows .mbcs v (name% "toTstring") [.ptr16 p] ((W16.Mbcs.toTstring16 (Unicode.charClass v) p).map .str8) :=
  runsWindows_of (m := size p + 8) (fun sc a => (Arg.str8 a).val sc) rfl (fun sc a => rfl)
    fun sc n hn => by linked' toTstring_16_mbcs (E := Sealed.real) (d := d + 2) (link_are v sc) p (by omega)

theorem C67_mbcs_toTstring_P32 (v : Version) (p : Ptr U32) :
    RunsWindows .mbcs v (name% "toTstring") [.ptr32 p] ((W16.Mbcs.toTstring32 (Unicode.charClass v) p).map .str8) :=
  runsWindows_of (m := size p + 8) (fun sc a => (Arg.str8 a).val sc) rfl (fun sc a => rfl)
    fun sc n hn => by linked' toTstring_32_mbcs (E := Sealed.real) (d := d + 2) (link_are v sc) p (by omega)

/-- With `_MBCS`, `toTstring` of a string never returns. -/
theorem C67_mbcs_toTstring_S8 (v : Version) (s : List Byte) : NeverReturns 0 v (.str8 s) := fun sc n => by
  rw [call0_eq (link_str v sc)]
  exact never8 (E := Sealed.real) s

theorem C67_mbcs_toTstring_S16 (v : Version) (s : List U16) : NeverReturns 2 v (.str16 s) := fun sc n => by
  rw [call2_eq (link_str v sc)]
  exact never16 (E := Sealed.real) s

theorem C67_mbcs_toTstring_S32 (v : Version) (s : List U32) : NeverReturns 4 v (.str32 s) := fun sc n => by
  rw [call4_eq (link_str v sc)]
  exact never32 (E := Sealed.real) s

/-! ## `_UNICODE` -/

theorem C67_unicode_isTstring_S8 (v : Version) (s : List Byte) :
    RunsWindows .unicode v (name% "isTstring") [.str8 s] ((W16.isTstring8S (Unicode.charClass v) s).map .bool) :=
  runsWindows_of (m := s.length + 8) (fun sc a => (Arg.bool a).val sc) rfl (fun sc a => rfl)
    fun sc n hn => by linked' isTstring_S8_unicode (E := Sealed.real) (d := d + 2) (link_are v sc) s (by omega)

theorem C67_unicode_isTstring_P8 (v : Version) (p : Ptr Byte) :
    RunsWindows .unicode v (name% "isTstring") [.ptr8 p] ((W16.isTstring8 (Unicode.charClass v) p).map .bool) :=
  runsWindows_of (m := size p + 8) (fun sc a => (Arg.bool a).val sc) rfl (fun sc a => rfl)
    fun sc n hn => by linked' isTstring_8_unicode (E := Sealed.real) (d := d + 2) (link_are v sc) p (by omega)

theorem C67_unicode_isTstring_S16 (v : Version) (s : List U16) :
    RunsWindows .unicode v (name% "isTstring") [.str16 s] ((W16.isTstring16S (Unicode.charClass v) s).map .bool) :=
  runsWindows_of (m := s.length + 8) (fun sc a => (Arg.bool a).val sc) rfl (fun sc a => rfl)
    fun sc n hn => by linked' isTstring_S16_unicode (E := Sealed.real) (d := d + 2) (link_are v sc) s (by omega)

theorem C67_unicode_isTstring_P16 (v : Version) (p : Ptr U16) :
    RunsWindows .unicode v (name% "isTstring") [.ptr16 p] ((W16.isTstring16 (Unicode.charClass v) p).map .bool) :=
  runsWindows_of (m := size p + 8) (fun sc a => (Arg.bool a).val sc) rfl (fun sc a => rfl)
    fun sc n hn => by linked' isTstring_16_unicode (E := Sealed.real) (d := d + 2) (link_are v sc) p (by omega)

theorem C67_unicode_isTstring_S32 (v : Version) (s : List U32) :
    RunsWindows .unicode v (name% "isTstring") [.str32 s] ((W16.isTstring32S (Unicode.charClass v) s).map .bool) :=
  runsWindows_of (m := s.length + 8) (fun sc a => (Arg.bool a).val sc) rfl (fun sc a => rfl)
    fun sc n hn => by linked' isTstring_S32_unicode (E := Sealed.real) (d := d + 2) (link_are v sc) s (by omega)

theorem C67_unicode_isTstring_P32 (v : Version) (p : Ptr U32) :
    RunsWindows .unicode v (name% "isTstring") [.ptr32 p] ((W16.isTstring32 (Unicode.charClass v) p).map .bool) :=
  runsWindows_of (m := size p + 8) (fun sc a => (Arg.bool a).val sc) rfl (fun sc a => rfl)
    fun sc n hn => by linked' isTstring_32_unicode (E := Sealed.real) (d := d + 2) (link_are v sc) p (by omega)

theorem C67_unicode_toTstring_S8 (v : Version) (s : List Byte) :
    RunsWindows .unicode v (name% "toTstring") [.str8 s] ((W16.Tchar.toTstring8S s).map .wstr16) :=
  runsWindows_of (m := s.length + 8) (fun sc a => .str .wchar (units16 a)) rfl (fun sc a => val_wstr16 sc a)
    fun sc n hn => by linked' toTstring_S8_unicode (E := Sealed.real) (d := d + 2) s (by omega)

theorem C67_unicode_toTstring_P8 (v : Version) (p : Ptr Byte) :
    RunsWindows .unicode v (name% "toTstring") [.ptr8 p] ((W16.Tchar.toTstring8 p).map .wstr16) :=
  runsWindows_of (m := size p + 8) (fun sc a => .str .wchar (units16 a)) rfl (fun sc a => val_wstr16 sc a)
    fun sc n hn => by linked' toTstring_8_unicode (E := Sealed.real) (d := d + 3) p (by omega)

theorem C67_unicode_toTstring_S16 (v : Version) (s : List U16) :
    RunsWindows .unicode v (name% "toTstring") [.str16 s] ((W16.Tchar.toTstring16S s).map .wstr16) :=
  runsWindows_of (m := s.length + 8) (fun sc a => .str .wchar (units16 a)) rfl (fun sc a => val_wstr16 sc a)
    fun sc n hn => by linked' toTstring_S16_unicode (E := Sealed.real) (d := d + 7) s

theorem C67_unicode_toTstring_P16 (v : Version) (p : Ptr U16) :
    RunsWindows .unicode v (name% "toTstring") [.ptr16 p] ((W16.Tchar.toTstring16 p).map .wstr16) :=
  runsWindows_of (m := size p + 8) (fun sc a => .str .wchar (units16 a)) rfl (fun sc a => val_wstr16 sc a)
    fun sc n hn => by linked' toTstring_16_unicode (E := Sealed.real) (d := d + 7) p

theorem C67_unicode_toTstring_S32 (v : Version) (s : List U32) :
    RunsWindows .unicode v (name% "toTstring") [.str32 s] ((W16.Tchar.toTstring32S s).map .wstr16) :=
  runsWindows_of (m := s.length + 8) (fun sc a => .str .wchar (units16 a)) rfl (fun sc a => val_wstr16 sc a)
    fun sc n hn => by linked' toTstring_S32_unicode (E := Sealed.real) (d := d + 2) s (by omega)

theorem C67_unicode_toTstring_P32 (v : Version) (p : Ptr U32) :
    RunsWindows .unicode v (name% "toTstring") [.ptr32 p] ((W16.Tchar.toTstring32 p).map .wstr16) :=
  runsWindows_of (m := size p + 8) (fun sc a => .str .wchar (units16 a)) rfl (fun sc a => val_wstr16 sc a)
    fun sc n hn => by linked' toTstring_32_unicode (E := Sealed.real) (d := d + 3) p (by omega)

/-! ## Everything else -/

/-- What the library does without the functions for Windows, it also does on Windows: a call of any function, or member
of a class, that returns a value or has undefined behaviour. -/
theorem C68_unchanged (t : Tchar) (v : Version) (sc : Bool) (n cls name : Nat) (vs : List Val) :
    (∀ r refs, callText (link v sc) sc .c16 (Source.pieces false) n cls name vs = .done r refs →
      callText (link v sc) sc .c16 (Source.onWindows t) n cls name vs = .done r refs) ∧
    (callText (link v sc) sc .c16 (Source.pieces false) n cls name vs = .ub →
      callText (link v sc) sc .c16 (Source.onWindows t) n cls name vs = .ub) := by
  have e : callText (link v sc) sc .c16 (Source.pieces false) n cls name vs = _ :=
    callText_eq (w := false) (link_str v sc) sc n cls name vs
  rw [e, callWindows_eq (link_str v sc)]
  exact ⟨fun r refs h => Program.call_done (windows_extends t _) (Nat.le_refl _) (Nat.le_refl _) h .done,
    fun h => Program.call_ub (windows_extends t _) (Nat.le_refl _) (Nat.le_refl _) h .done⟩

/-- The same in terms of `RunsOn`. -/
theorem C68_runs {v : Version} {name : Nat} {args : List Arg} {out : Res Arg} (t : Tchar) (h : RunsOn false v name args out) :
    RunsWindows t v name args out := by
  intro sc n hn
  have h := h sc n hn
  have u := C68_unchanged t v sc n (nat_lit 0) name (args.map (Arg.val sc))
  cases out with
  | ok a =>
    obtain ⟨refs, h, hr⟩ := h
    exact ⟨refs, u.1 _ _ h, hr⟩
  | ub => exact u.2 h

example (v : Version) : RunsWindows .unicode v (name% "toWstring") [.str8 [0x41, 0xC3, 0xA9]] (.ok (.wstr16 [0x41, 0xE9])) :=
  C68_runs _ (returns_w16_toWstring_S8.2 (by decide +kernel))

theorem runsWindows_unique {t : Tchar} {v : Version} {name : Nat} {args : List Arg} {x y : Res Arg}
    (hx : RunsWindows t v name args x) (hy : RunsWindows t v name args y) : x = y :=
  yields_unique (hx false _ (Nat.le_refl _)) (hy false _ (Nat.le_refl _))

theorem returnsWindows_iff {α : Type} {t : Tchar} {v : Version} {name : Nat} {args : List Arg} {x : Res α} {f : α → Arg}
    (h : RunsWindows t v name args (x.map f)) (hf : ∀ {a b}, f a = f b → a = b) {a : α} :
    ReturnsWindows t v name args (f a) ↔ x = .ok a := by
  constructor
  · intro h'
    have := runsWindows_unique h h'
    cases x with
    | ok b =>
      injection this with this
      rw [hf this]
    | ub => nomatch this
  · rintro rfl; exact h

theorem runsWindows_ub_iff {α : Type} {t : Tchar} {v : Version} {name : Nat} {args : List Arg} {x : Res α} {f : α → Arg}
    (h : RunsWindows t v name args (x.map f)) : RunsWindows t v name args .ub ↔ x = .ub := by
  constructor
  · intro h'
    have := runsWindows_unique h h'
    cases x with
    | ok b => nomatch this
    | ub => rfl
  · rintro rfl; exact h

@[text_iff] theorem returns_win_isUtf16_P8 {t : Tchar} {v : Version} {p : Ptr Byte} {r : Bool} :
    ReturnsWindows t v (name% "isUtf16") [.ptr8 p] (.bool r) ↔ W16.isUtf16From8 (Unicode.charClass v) p = .ok r :=
  returnsWindows_iff (C67_win_isUtf16_P8 t v p) (fun h => by injection h)

@[text_iff] theorem ub_win_isUtf16_P8 {t : Tchar} {v : Version} {p : Ptr Byte} :
    RunsWindows t v (name% "isUtf16") [.ptr8 p] .ub ↔ W16.isUtf16From8 (Unicode.charClass v) p = .ub :=
  runsWindows_ub_iff (C67_win_isUtf16_P8 t v p)

@[text_iff] theorem returns_win_isUtf16_S8 {t : Tchar} {v : Version} {s : List Byte} {r : Bool} :
    ReturnsWindows t v (name% "isUtf16") [.str8 s] (.bool r) ↔ W16.isUtf16From8S (Unicode.charClass v) s = .ok r :=
  returnsWindows_iff (C67_win_isUtf16_S8 t v s) (fun h => by injection h)

@[text_iff] theorem ub_win_isUtf16_S8 {t : Tchar} {v : Version} {s : List Byte} :
    RunsWindows t v (name% "isUtf16") [.str8 s] .ub ↔ W16.isUtf16From8S (Unicode.charClass v) s = .ub :=
  runsWindows_ub_iff (C67_win_isUtf16_S8 t v s)

@[text_iff] theorem returns_win_isUcs2_P8 {t : Tchar} {v : Version} {p : Ptr Byte} {r : Bool} :
    ReturnsWindows t v (name% "isUcs2") [.ptr8 p] (.bool r) ↔ W16.isUcs2From8 (Unicode.charClass v) p = .ok r :=
  returnsWindows_iff (C67_win_isUcs2_P8 t v p) (fun h => by injection h)

@[text_iff] theorem ub_win_isUcs2_P8 {t : Tchar} {v : Version} {p : Ptr Byte} :
    RunsWindows t v (name% "isUcs2") [.ptr8 p] .ub ↔ W16.isUcs2From8 (Unicode.charClass v) p = .ub :=
  runsWindows_ub_iff (C67_win_isUcs2_P8 t v p)

@[text_iff] theorem returns_win_isUcs2_S8 {t : Tchar} {v : Version} {s : List Byte} {r : Bool} :
    ReturnsWindows t v (name% "isUcs2") [.str8 s] (.bool r) ↔ W16.isUcs2From8S (Unicode.charClass v) s = .ok r :=
  returnsWindows_iff (C67_win_isUcs2_S8 t v s) (fun h => by injection h)

@[text_iff] theorem ub_win_isUcs2_S8 {t : Tchar} {v : Version} {s : List Byte} :
    RunsWindows t v (name% "isUcs2") [.str8 s] .ub ↔ W16.isUcs2From8S (Unicode.charClass v) s = .ub :=
  runsWindows_ub_iff (C67_win_isUcs2_S8 t v s)

@[text_iff] theorem returns_win_isUcs4_P8 {t : Tchar} {v : Version} {p : Ptr Byte} {r : Bool} :
    ReturnsWindows t v (name% "isUcs4") [.ptr8 p] (.bool r) ↔ W16.isUcs4From8 (Unicode.charClass v) p = .ok r :=
  returnsWindows_iff (C67_win_isUcs4_P8 t v p) (fun h => by injection h)

@[text_iff] theorem ub_win_isUcs4_P8 {t : Tchar} {v : Version} {p : Ptr Byte} :
    RunsWindows t v (name% "isUcs4") [.ptr8 p] .ub ↔ W16.isUcs4From8 (Unicode.charClass v) p = .ub :=
  runsWindows_ub_iff (C67_win_isUcs4_P8 t v p)

@[text_iff] theorem returns_win_isUcs4_S8 {t : Tchar} {v : Version} {s : List Byte} {r : Bool} :
    ReturnsWindows t v (name% "isUcs4") [.str8 s] (.bool r) ↔ W16.isUcs4From8S (Unicode.charClass v) s = .ok r :=
  returnsWindows_iff (C67_win_isUcs4_S8 t v s) (fun h => by injection h)

@[text_iff] theorem ub_win_isUcs4_S8 {t : Tchar} {v : Version} {s : List Byte} :
    RunsWindows t v (name% "isUcs4") [.str8 s] .ub ↔ W16.isUcs4From8S (Unicode.charClass v) s = .ub :=
  runsWindows_ub_iff (C67_win_isUcs4_S8 t v s)

@[text_iff] theorem returns_win_toUtf8_P8 {t : Tchar} {v : Version} {p : Ptr Byte} {r : List Byte} :
    ReturnsWindows t v (name% "toUtf8") [.ptr8 p] (.str8 r) ↔ W16.toUtf8From8 (Unicode.charClass v) p = .ok r :=
  returnsWindows_iff (C67_win_toUtf8_P8 t v p) (fun h => by injection h)

@[text_iff] theorem ub_win_toUtf8_P8 {t : Tchar} {v : Version} {p : Ptr Byte} :
    RunsWindows t v (name% "toUtf8") [.ptr8 p] .ub ↔ W16.toUtf8From8 (Unicode.charClass v) p = .ub :=
  runsWindows_ub_iff (C67_win_toUtf8_P8 t v p)

@[text_iff] theorem returns_win_toUtf8_S8 {t : Tchar} {v : Version} {s : List Byte} {r : List Byte} :
    ReturnsWindows t v (name% "toUtf8") [.str8 s] (.str8 r) ↔ W16.toUtf8From8S (Unicode.charClass v) s = .ok r :=
  returnsWindows_iff (C67_win_toUtf8_S8 t v s) (fun h => by injection h)

@[text_iff] theorem ub_win_toUtf8_S8 {t : Tchar} {v : Version} {s : List Byte} :
    RunsWindows t v (name% "toUtf8") [.str8 s] .ub ↔ W16.toUtf8From8S (Unicode.charClass v) s = .ub :=
  runsWindows_ub_iff (C67_win_toUtf8_S8 t v s)

@[text_iff] theorem returns_mbcs_isTstring_S8 {v : Version} {s : List Byte} {r : Bool} :
    ReturnsWindows .mbcs v (name% "isTstring") [.str8 s] (.bool r) ↔ W16.isTstring8S (Unicode.charClass v) s = .ok r :=
  returnsWindows_iff (C67_mbcs_isTstring_S8 v s) (fun h => by injection h)

@[text_iff] theorem ub_mbcs_isTstring_S8 {v : Version} {s : List Byte} :
    RunsWindows .mbcs v (name% "isTstring") [.str8 s] .ub ↔ W16.isTstring8S (Unicode.charClass v) s = .ub :=
  runsWindows_ub_iff (C67_mbcs_isTstring_S8 v s)

@[text_iff] theorem returns_mbcs_isTstring_P8 {v : Version} {p : Ptr Byte} {r : Bool} :
    ReturnsWindows .mbcs v (name% "isTstring") [.ptr8 p] (.bool r) ↔ W16.isTstring8 (Unicode.charClass v) p = .ok r :=
  returnsWindows_iff (C67_mbcs_isTstring_P8 v p) (fun h => by injection h)

@[text_iff] theorem ub_mbcs_isTstring_P8 {v : Version} {p : Ptr Byte} :
    RunsWindows .mbcs v (name% "isTstring") [.ptr8 p] .ub ↔ W16.isTstring8 (Unicode.charClass v) p = .ub :=
  runsWindows_ub_iff (C67_mbcs_isTstring_P8 v p)

@[text_iff] theorem returns_mbcs_isTstring_S16 {v : Version} {s : List U16} {r : Bool} :
    ReturnsWindows .mbcs v (name% "isTstring") [.str16 s] (.bool r) ↔ W16.isTstring16S (Unicode.charClass v) s = .ok r :=
  returnsWindows_iff (C67_mbcs_isTstring_S16 v s) (fun h => by injection h)

@[text_iff] theorem ub_mbcs_isTstring_S16 {v : Version} {s : List U16} :
    RunsWindows .mbcs v (name% "isTstring") [.str16 s] .ub ↔ W16.isTstring16S (Unicode.charClass v) s = .ub :=
  runsWindows_ub_iff (C67_mbcs_isTstring_S16 v s)

@[text_iff] theorem returns_mbcs_isTstring_P16 {v : Version} {p : Ptr U16} {r : Bool} :
    ReturnsWindows .mbcs v (name% "isTstring") [.ptr16 p] (.bool r) ↔ W16.isTstring16 (Unicode.charClass v) p = .ok r :=
  returnsWindows_iff (C67_mbcs_isTstring_P16 v p) (fun h => by injection h)

@[text_iff] theorem ub_mbcs_isTstring_P16 {v : Version} {p : Ptr U16} :
    RunsWindows .mbcs v (name% "isTstring") [.ptr16 p] .ub ↔ W16.isTstring16 (Unicode.charClass v) p = .ub :=
  runsWindows_ub_iff (C67_mbcs_isTstring_P16 v p)

@[text_iff] theorem returns_mbcs_isTstring_S32 {v : Version} {s : List U32} {r : Bool} :
    ReturnsWindows .mbcs v (name% "isTstring") [.str32 s] (.bool r) ↔ W16.isTstring32S (Unicode.charClass v) s = .ok r :=
  returnsWindows_iff (C67_mbcs_isTstring_S32 v s) (fun h => by injection h)

@[text_iff] theorem ub_mbcs_isTstring_S32 {v : Version} {s : List U32} :
    RunsWindows .mbcs v (name% "isTstring") [.str32 s] .ub ↔ W16.isTstring32S (Unicode.charClass v) s = .ub :=
  runsWindows_ub_iff (C67_mbcs_isTstring_S32 v s)

@[text_iff] theorem returns_mbcs_isTstring_P32 {v : Version} {p : Ptr U32} {r : Bool} :
    ReturnsWindows .mbcs v (name% "isTstring") [.ptr32 p] (.bool r) ↔ W16.isTstring32 (Unicode.charClass v) p = .ok r :=
  returnsWindows_iff (C67_mbcs_isTstring_P32 v p) (fun h => by injection h)

@[text_iff] theorem ub_mbcs_isTstring_P32 {v : Version} {p : Ptr U32} :
    RunsWindows .mbcs v (name% "isTstring") [.ptr32 p] .ub ↔ W16.isTstring32 (Unicode.charClass v) p = .ub :=
  runsWindows_ub_iff (C67_mbcs_isTstring_P32 v p)

@[text_iff] theorem returns_mbcs_toTstring_P8 {v : Version} {p : Ptr Byte} {r : List Byte} :
    ReturnsWindows .mbcs v (name% "toTstring") [.ptr8 p] (.str8 r) ↔ W16.Mbcs.toTstring8 (Unicode.charClass v) p = .ok r :=
  returnsWindows_iff (C67_mbcs_toTstring_P8 v p) (fun h => by injection h)

@[text_iff] theorem ub_mbcs_toTstring_P8 {v : Version} {p : Ptr Byte} :
    RunsWindows .mbcs v (name% "toTstring") [.ptr8 p] .ub ↔ W16.Mbcs.toTstring8 (Unicode.charClass v) p = .ub :=
  runsWindows_ub_iff (C67_mbcs_toTstring_P8 v p)

@[text_iff] theorem returns_mbcs_toTstring_P16 {v : Version} {p : Ptr U16} {r : List Byte} :
    ReturnsWindows .mbcs v (name% "toTstring") [.ptr16 p] (.str8 r) ↔ W16.Mbcs.toTstring16 (Unicode.charClass v) p = .ok r :=
  returnsWindows_iff (C67_mbcs_toTstring_P16 v p) (fun h => by injection h)

@[text_iff] theorem ub_mbcs_toTstring_P16 {v : Version} {p : Ptr U16} :
    RunsWindows .mbcs v (name% "toTstring") [.ptr16 p] .ub ↔ W16.Mbcs.toTstring16 (Unicode.charClass v) p = .ub :=
  runsWindows_ub_iff (C67_mbcs_toTstring_P16 v p)

@[text_iff] theorem returns_mbcs_toTstring_P32 {v : Version} {p : Ptr U32} {r : List Byte} :
    ReturnsWindows .mbcs v (name% "toTstring") [.ptr32 p] (.str8 r) ↔ W16.Mbcs.toTstring32 (Unicode.charClass v) p = .ok r :=
  returnsWindows_iff (C67_mbcs_toTstring_P32 v p) (fun h => by injection h)

@[text_iff] theorem ub_mbcs_toTstring_P32 {v : Version} {p : Ptr U32} :
    RunsWindows .mbcs v (name% "toTstring") [.ptr32 p] .ub ↔ W16.Mbcs.toTstring32 (Unicode.charClass v) p = .ub :=
  runsWindows_ub_iff (C67_mbcs_toTstring_P32 v p)

@[text_iff] theorem returns_unicode_isTstring_S8 {v : Version} {s : List Byte} {r : Bool} :
    ReturnsWindows .unicode v (name% "isTstring") [.str8 s] (.bool r) ↔ W16.isTstring8S (Unicode.charClass v) s = .ok r :=
  returnsWindows_iff (C67_unicode_isTstring_S8 v s) (fun h => by injection h)

@[text_iff] theorem ub_unicode_isTstring_S8 {v : Version} {s : List Byte} :
    RunsWindows .unicode v (name% "isTstring") [.str8 s] .ub ↔ W16.isTstring8S (Unicode.charClass v) s = .ub :=
  runsWindows_ub_iff (C67_unicode_isTstring_S8 v s)

@[text_iff] theorem returns_unicode_isTstring_P8 {v : Version} {p : Ptr Byte} {r : Bool} :
    ReturnsWindows .unicode v (name% "isTstring") [.ptr8 p] (.bool r) ↔ W16.isTstring8 (Unicode.charClass v) p = .ok r :=
  returnsWindows_iff (C67_unicode_isTstring_P8 v p) (fun h => by injection h)

@[text_iff] theorem ub_unicode_isTstring_P8 {v : Version} {p : Ptr Byte} :
    RunsWindows .unicode v (name% "isTstring") [.ptr8 p] .ub ↔ W16.isTstring8 (Unicode.charClass v) p = .ub :=
  runsWindows_ub_iff (C67_unicode_isTstring_P8 v p)

@[text_iff] theorem returns_unicode_isTstring_S16 {v : Version} {s : List U16} {r : Bool} :
    ReturnsWindows .unicode v (name% "isTstring") [.str16 s] (.bool r) ↔ W16.isTstring16S (Unicode.charClass v) s = .ok r :=
  returnsWindows_iff (C67_unicode_isTstring_S16 v s) (fun h => by injection h)

@[text_iff] theorem ub_unicode_isTstring_S16 {v : Version} {s : List U16} :
    RunsWindows .unicode v (name% "isTstring") [.str16 s] .ub ↔ W16.isTstring16S (Unicode.charClass v) s = .ub :=
  runsWindows_ub_iff (C67_unicode_isTstring_S16 v s)

@[text_iff] theorem returns_unicode_isTstring_P16 {v : Version} {p : Ptr U16} {r : Bool} :
    ReturnsWindows .unicode v (name% "isTstring") [.ptr16 p] (.bool r) ↔ W16.isTstring16 (Unicode.charClass v) p = .ok r :=
  returnsWindows_iff (C67_unicode_isTstring_P16 v p) (fun h => by injection h)

@[text_iff] theorem ub_unicode_isTstring_P16 {v : Version} {p : Ptr U16} :
    RunsWindows .unicode v (name% "isTstring") [.ptr16 p] .ub ↔ W16.isTstring16 (Unicode.charClass v) p = .ub :=
  runsWindows_ub_iff (C67_unicode_isTstring_P16 v p)

@[text_iff] theorem returns_unicode_isTstring_S32 {v : Version} {s : List U32} {r : Bool} :
    ReturnsWindows .unicode v (name% "isTstring") [.str32 s] (.bool r) ↔ W16.isTstring32S (Unicode.charClass v) s = .ok r :=
  returnsWindows_iff (C67_unicode_isTstring_S32 v s) (fun h => by injection h)

@[text_iff] theorem ub_unicode_isTstring_S32 {v : Version} {s : List U32} :
    RunsWindows .unicode v (name% "isTstring") [.str32 s] .ub ↔ W16.isTstring32S (Unicode.charClass v) s = .ub :=
  runsWindows_ub_iff (C67_unicode_isTstring_S32 v s)

@[text_iff] theorem returns_unicode_isTstring_P32 {v : Version} {p : Ptr U32} {r : Bool} :
    ReturnsWindows .unicode v (name% "isTstring") [.ptr32 p] (.bool r) ↔ W16.isTstring32 (Unicode.charClass v) p = .ok r :=
  returnsWindows_iff (C67_unicode_isTstring_P32 v p) (fun h => by injection h)

@[text_iff] theorem ub_unicode_isTstring_P32 {v : Version} {p : Ptr U32} :
    RunsWindows .unicode v (name% "isTstring") [.ptr32 p] .ub ↔ W16.isTstring32 (Unicode.charClass v) p = .ub :=
  runsWindows_ub_iff (C67_unicode_isTstring_P32 v p)

@[text_iff] theorem returns_unicode_toTstring_S8 {v : Version} {s : List Byte} {r : List U16} :
    ReturnsWindows .unicode v (name% "toTstring") [.str8 s] (.wstr16 r) ↔ W16.Tchar.toTstring8S s = .ok r :=
  returnsWindows_iff (C67_unicode_toTstring_S8 v s) wstr16_injective

@[text_iff] theorem ub_unicode_toTstring_S8 {v : Version} {s : List Byte} :
    RunsWindows .unicode v (name% "toTstring") [.str8 s] .ub ↔ W16.Tchar.toTstring8S s = .ub :=
  runsWindows_ub_iff (C67_unicode_toTstring_S8 v s)

@[text_iff] theorem returns_unicode_toTstring_P8 {v : Version} {p : Ptr Byte} {r : List U16} :
    ReturnsWindows .unicode v (name% "toTstring") [.ptr8 p] (.wstr16 r) ↔ W16.Tchar.toTstring8 p = .ok r :=
  returnsWindows_iff (C67_unicode_toTstring_P8 v p) wstr16_injective

@[text_iff] theorem ub_unicode_toTstring_P8 {v : Version} {p : Ptr Byte} :
    RunsWindows .unicode v (name% "toTstring") [.ptr8 p] .ub ↔ W16.Tchar.toTstring8 p = .ub :=
  runsWindows_ub_iff (C67_unicode_toTstring_P8 v p)

@[text_iff] theorem returns_unicode_toTstring_S16 {v : Version} {s : List U16} {r : List U16} :
    ReturnsWindows .unicode v (name% "toTstring") [.str16 s] (.wstr16 r) ↔ W16.Tchar.toTstring16S s = .ok r :=
  returnsWindows_iff (C67_unicode_toTstring_S16 v s) wstr16_injective

@[text_iff] theorem ub_unicode_toTstring_S16 {v : Version} {s : List U16} :
    RunsWindows .unicode v (name% "toTstring") [.str16 s] .ub ↔ W16.Tchar.toTstring16S s = .ub :=
  runsWindows_ub_iff (C67_unicode_toTstring_S16 v s)

@[text_iff] theorem returns_unicode_toTstring_P16 {v : Version} {p : Ptr U16} {r : List U16} :
    ReturnsWindows .unicode v (name% "toTstring") [.ptr16 p] (.wstr16 r) ↔ W16.Tchar.toTstring16 p = .ok r :=
  returnsWindows_iff (C67_unicode_toTstring_P16 v p) wstr16_injective

@[text_iff] theorem ub_unicode_toTstring_P16 {v : Version} {p : Ptr U16} :
    RunsWindows .unicode v (name% "toTstring") [.ptr16 p] .ub ↔ W16.Tchar.toTstring16 p = .ub :=
  runsWindows_ub_iff (C67_unicode_toTstring_P16 v p)

@[text_iff] theorem returns_unicode_toTstring_S32 {v : Version} {s : List U32} {r : List U16} :
    ReturnsWindows .unicode v (name% "toTstring") [.str32 s] (.wstr16 r) ↔ W16.Tchar.toTstring32S s = .ok r :=
  returnsWindows_iff (C67_unicode_toTstring_S32 v s) wstr16_injective

@[text_iff] theorem ub_unicode_toTstring_S32 {v : Version} {s : List U32} :
    RunsWindows .unicode v (name% "toTstring") [.str32 s] .ub ↔ W16.Tchar.toTstring32S s = .ub :=
  runsWindows_ub_iff (C67_unicode_toTstring_S32 v s)

@[text_iff] theorem returns_unicode_toTstring_P32 {v : Version} {p : Ptr U32} {r : List U16} :
    ReturnsWindows .unicode v (name% "toTstring") [.ptr32 p] (.wstr16 r) ↔ W16.Tchar.toTstring32 p = .ok r :=
  returnsWindows_iff (C67_unicode_toTstring_P32 v p) wstr16_injective

@[text_iff] theorem ub_unicode_toTstring_P32 {v : Version} {p : Ptr U32} :
    RunsWindows .unicode v (name% "toTstring") [.ptr32 p] .ub ↔ W16.Tchar.toTstring32 p = .ub :=
  runsWindows_ub_iff (C67_unicode_toTstring_P32 v p)

end Ansak.Props
