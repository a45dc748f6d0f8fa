import Verif.Lemmas.Cpp.ShallowWindows
import Verif.Props.Shallow

/-! # C74 on Windows -/

namespace Ansak.Props

open Cpp
open Cpp.Source (Tchar)
open Spec (Arg enough callWithin RunsOn RunsWindows ShallowOn ShallowWindows Bottomless OverloadWindows)

theorem shallowWindows_same {t : Tchar} {v : Version} {name : Nat} {args : List Arg} {x : Res Arg} (h : RunsWindows t v name args x)
    (h' : ShallowWindows t v name args x) {out : Res Arg} (ho : RunsWindows t v name args out) : ShallowWindows t v name args out :=
  runsWindows_unique h ho ▸ h'

/-- What the library does within these limits without the functions for Windows, it also does within them on Windows: a call of any
function, or member of a class, that returns a value or has undefined behaviour. So `C74_text_calls` and the others are also about
Windows. -/
theorem C74_text_unchanged_windows (t : Tchar) (v : Version) (sc : Bool) (n d cls name : Nat) (vs : List Val) :
    (∀ r refs, callWithin (link v sc) sc .c16 (Source.pieces false) n d cls name vs = .done r refs →
      callWithin (link v sc) sc .c16 (Source.onWindows t) n d cls name vs = .done r refs) ∧
    (callWithin (link v sc) sc .c16 (Source.pieces false) n d cls name vs = .ub →
      callWithin (link v sc) sc .c16 (Source.onWindows t) n d cls name vs = .ub) := by
  have e : callWithin (link v sc) sc .c16 (Source.pieces false) n d cls name vs = _ :=
    callWithin_eq (link_str v sc) (w := false) sc n d cls name vs
  rw [e, windowsWithin_eq (link_str v sc)]
  exact ⟨fun r refs h => Program.call_done (windows_extends t _) (Nat.le_refl _) (Nat.le_refl _) h .done,
    fun h => Program.call_ub (windows_extends t _) (Nat.le_refl _) (Nat.le_refl _) h .done⟩

/-- The same in terms of `ShallowOn`. -/
theorem C74_text_shallow_windows {v : Version} {name : Nat} {args : List Arg} {out : Res Arg} (t : Tchar)
    (h : ShallowOn false v name args out) : ShallowWindows t v name args out := by
  intro sc n d hn hd
  have h := h sc n d hn hd
  have c := C74_text_unchanged_windows t v sc n d (nat_lit 0) name (args.map (Arg.val sc))
  cases out with
  | ok a =>
    obtain ⟨refs, h, hr⟩ := h
    exact ⟨refs, c.1 _ _ h, hr⟩
  | ub => exact c.2 h

/-- A call of a function that the library has on Windows only has its outcome with eight calls inside each other. Missing: `toTstring`
of a string with `_MBCS` (`C74_text_windows_violated`). -/
theorem C74_text_windows_partial (v : Version) {t : Tchar} {name : Nat} {args : List Arg} (h : OverloadWindows t name args)
    {out : Res Arg} (ho : RunsWindows t v name args out) : ShallowWindows t v name args out := by
  cases h with
  | isUtf16 ha =>
    cases ha with
    | str s => exact shallowWindows_same (C67_win_isUtf16_S8 t v s) (shallow_win_isUtf16_S8 t v s) ho
    | ptr p => exact shallowWindows_same (C67_win_isUtf16_P8 t v p) (shallow_win_isUtf16_P8 t v p) ho
  | isUcs2 ha =>
    cases ha with
    | str s => exact shallowWindows_same (C67_win_isUcs2_S8 t v s) (shallow_win_isUcs2_S8 t v s) ho
    | ptr p => exact shallowWindows_same (C67_win_isUcs2_P8 t v p) (shallow_win_isUcs2_P8 t v p) ho
  | isUcs4 ha =>
    cases ha with
    | str s => exact shallowWindows_same (C67_win_isUcs4_S8 t v s) (shallow_win_isUcs4_S8 t v s) ho
    | ptr p => exact shallowWindows_same (C67_win_isUcs4_P8 t v p) (shallow_win_isUcs4_P8 t v p) ho
  | toUtf8 ha =>
    cases ha with
    | str s => exact shallowWindows_same (C67_win_toUtf8_S8 t v s) (shallow_win_toUtf8_S8 t v s) ho
    | ptr p => exact shallowWindows_same (C67_win_toUtf8_P8 t v p) (shallow_win_toUtf8_P8 t v p) ho
  | isTstring ha =>
    cases ha with
    | chars8 ha =>
      cases ha with
      | str s => exact shallowWindows_same (C67_mbcs_isTstring_S8 v s) (shallow_mbcs_isTstring_S8 v s) ho
      | ptr p => exact shallowWindows_same (C67_mbcs_isTstring_P8 v p) (shallow_mbcs_isTstring_P8 v p) ho
    | chars16 ha =>
      cases ha with
      | str s => exact shallowWindows_same (C67_mbcs_isTstring_S16 v s) (shallow_mbcs_isTstring_S16 v s) ho
      | ptr p => exact shallowWindows_same (C67_mbcs_isTstring_P16 v p) (shallow_mbcs_isTstring_P16 v p) ho
    | chars32 ha =>
      cases ha with
      | str s => exact shallowWindows_same (C67_mbcs_isTstring_S32 v s) (shallow_mbcs_isTstring_S32 v s) ho
      | ptr p => exact shallowWindows_same (C67_mbcs_isTstring_P32 v p) (shallow_mbcs_isTstring_P32 v p) ho
  | isTstringW ha =>
    cases ha with
    | chars8 ha =>
      cases ha with
      | str s => exact shallowWindows_same (C67_unicode_isTstring_S8 v s) (shallow_unicode_isTstring_S8 v s) ho
      | ptr p => exact shallowWindows_same (C67_unicode_isTstring_P8 v p) (shallow_unicode_isTstring_P8 v p) ho
    | chars16 ha =>
      cases ha with
      | str s => exact shallowWindows_same (C67_unicode_isTstring_S16 v s) (shallow_unicode_isTstring_S16 v s) ho
      | ptr p => exact shallowWindows_same (C67_unicode_isTstring_P16 v p) (shallow_unicode_isTstring_P16 v p) ho
    | chars32 ha =>
      cases ha with
      | str s => exact shallowWindows_same (C67_unicode_isTstring_S32 v s) (shallow_unicode_isTstring_S32 v s) ho
      | ptr p => exact shallowWindows_same (C67_unicode_isTstring_P32 v p) (shallow_unicode_isTstring_P32 v p) ho
  | toTstring8 p => exact shallowWindows_same (C67_mbcs_toTstring_P8 v p) (shallow_mbcs_toTstring_P8 v p) ho
  | toTstring16 p => exact shallowWindows_same (C67_mbcs_toTstring_P16 v p) (shallow_mbcs_toTstring_P16 v p) ho
  | toTstring32 p => exact shallowWindows_same (C67_mbcs_toTstring_P32 v p) (shallow_mbcs_toTstring_P32 v p) ho
  | toTstringW ha =>
    cases ha with
    | chars8 ha =>
      cases ha with
      | str s => exact shallowWindows_same (C67_unicode_toTstring_S8 v s) (shallow_unicode_toTstring_S8 v s) ho
      | ptr p => exact shallowWindows_same (C67_unicode_toTstring_P8 v p) (shallow_unicode_toTstring_P8 v p) ho
    | chars16 ha =>
      cases ha with
      | str s => exact shallowWindows_same (C67_unicode_toTstring_S16 v s) (shallow_unicode_toTstring_S16 v s) ho
      | ptr p => exact shallowWindows_same (C67_unicode_toTstring_P16 v p) (shallow_unicode_toTstring_P16 v p) ho
    | chars32 ha =>
      cases ha with
      | str s => exact shallowWindows_same (C67_unicode_toTstring_S32 v s) (shallow_unicode_toTstring_S32 v s) ho
      | ptr p => exact shallowWindows_same (C67_unicode_toTstring_P32 v p) (shallow_unicode_toTstring_P32 v p) ho

/-- `toTstring` of a string with `_MBCS` calls itself without end: no number of calls inside each other is enough. -/
theorem C74_text_windows_violated (v : Version) (s : List Byte) (s' : List U16) (s'' : List U32) :
    Bottomless 0 v (.str8 s) ∧ Bottomless 2 v (.str16 s') ∧ Bottomless 4 v (.str32 s'') :=
  ⟨bottomless_S8 v s, bottomless_S16 v s', bottomless_S32 v s''⟩

example (v : Version) (s : List Byte) : OverloadWindows .unicode (name% "toTstring") [.str8 s] ∧
    ShallowWindows .unicode v (name% "toTstring") [.str8 s] ((W16.Tchar.toTstring8S s).map .wstr16) :=
  ⟨.toTstringW (.chars8 (.str _)), C74_text_windows_partial v (.toTstringW (.chars8 (.str _))) (C67_unicode_toTstring_S8 v s)⟩

end Ansak.Props
