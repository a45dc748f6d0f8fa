import Verif.Lemmas.Cpp.EarlyWindows
import Verif.Props.Early

/-! # C72 on Windows -/

namespace Ansak.Props

open Cpp
open Cpp.Source (Tchar)
open Spec (Arg enough unready RunsOn RunsWindows NeverReturns EarlyOn EarlyWindows EarlyNever OverloadWindows)

theorem earlyWindows_same {t : Tchar} {v : Version} {name : Nat} {args : List Arg} {x : Res Arg} (h : RunsWindows t v name args x)
    (h' : EarlyWindows t v name args x) {out : Res Arg} (ho : RunsWindows t v name args out) : EarlyWindows t v name args out :=
  runsWindows_unique h ho ▸ h'

/-- What the library does early without the functions for Windows, it also does early on Windows: a call of any function, or member
of a class, that returns a value or has undefined behaviour. So `C72_text_calls_partial` and the others are also about Windows. -/
theorem C72_text_unchanged_windows (t : Tchar) (v : Version) (u : List Int) (sc : Bool) (n cls name : Nat) (vs : List Val) :
    (∀ r refs, callText (unready v sc u) sc .c16 (Source.pieces false) n cls name vs = .done r refs →
      callText (unready v sc u) sc .c16 (Source.onWindows t) n cls name vs = .done r refs) ∧
    (callText (unready v sc u) sc .c16 (Source.pieces false) n cls name vs = .ub →
      callText (unready v sc u) sc .c16 (Source.onWindows t) n cls name vs = .ub) := by
  have e : callText (unready v sc u) sc .c16 (Source.pieces false) n cls name vs = _ :=
    callText_eq (X := unready v sc u) (s := u) (w := false) rfl sc n cls name vs
  rw [e, callWindows_eq (X := unready v sc u) (s := u) rfl]
  exact ⟨fun r refs h => Program.call_done (windows_extends t _) (Nat.le_refl _) (Nat.le_refl _) h .done,
    fun h => Program.call_ub (windows_extends t _) (Nat.le_refl _) (Nat.le_refl _) h .done⟩

/-- The same in terms of `EarlyOn`. -/
theorem C72_text_early_windows {v : Version} {name : Nat} {args : List Arg} {out : Res Arg} (t : Tchar)
    (h : EarlyOn false v name args out) : EarlyWindows t v name args out := by
  intro u sc n hn
  have h := h u sc n hn
  have c := C72_text_unchanged_windows t v u sc n (nat_lit 0) name (args.map (Arg.val sc))
  cases out with
  | ok a =>
    obtain ⟨refs, h, hr⟩ := h
    exact ⟨refs, c.1 _ _ h, hr⟩
  | ub => exact c.2 h

/-- A call of a function that the library has on Windows only has the same outcome when it is made before the globals are
initialised. -/
theorem C72_text_windows_partial (v : Version) {t : Tchar} {name : Nat} {args : List Arg} (h : OverloadWindows t name args)
    {out : Res Arg} (ho : RunsWindows t v name args out) : EarlyWindows t v name args out := by
  cases h with
  | isUtf16 ha =>
    cases ha with
    | str s => exact earlyWindows_same (C67_win_isUtf16_S8 t v s) (early_win_isUtf16_S8 t v s) ho
    | ptr p => exact earlyWindows_same (C67_win_isUtf16_P8 t v p) (early_win_isUtf16_P8 t v p) ho
  | isUcs2 ha =>
    cases ha with
    | str s => exact earlyWindows_same (C67_win_isUcs2_S8 t v s) (early_win_isUcs2_S8 t v s) ho
    | ptr p => exact earlyWindows_same (C67_win_isUcs2_P8 t v p) (early_win_isUcs2_P8 t v p) ho
  | isUcs4 ha =>
    cases ha with
    | str s => exact earlyWindows_same (C67_win_isUcs4_S8 t v s) (early_win_isUcs4_S8 t v s) ho
    | ptr p => exact earlyWindows_same (C67_win_isUcs4_P8 t v p) (early_win_isUcs4_P8 t v p) ho
  | toUtf8 ha =>
    cases ha with
    | str s => exact earlyWindows_same (C67_win_toUtf8_S8 t v s) (early_win_toUtf8_S8 t v s) ho
    | ptr p => exact earlyWindows_same (C67_win_toUtf8_P8 t v p) (early_win_toUtf8_P8 t v p) ho
  | isTstring ha =>
    cases ha with
    | chars8 ha =>
      cases ha with
      | str s => exact earlyWindows_same (C67_mbcs_isTstring_S8 v s) (early_mbcs_isTstring_S8 v s) ho
      | ptr p => exact earlyWindows_same (C67_mbcs_isTstring_P8 v p) (early_mbcs_isTstring_P8 v p) ho
    | chars16 ha =>
      cases ha with
      | str s => exact earlyWindows_same (C67_mbcs_isTstring_S16 v s) (early_mbcs_isTstring_S16 v s) ho
      | ptr p => exact earlyWindows_same (C67_mbcs_isTstring_P16 v p) (early_mbcs_isTstring_P16 v p) ho
    | chars32 ha =>
      cases ha with
      | str s => exact earlyWindows_same (C67_mbcs_isTstring_S32 v s) (early_mbcs_isTstring_S32 v s) ho
      | ptr p => exact earlyWindows_same (C67_mbcs_isTstring_P32 v p) (early_mbcs_isTstring_P32 v p) ho
  | isTstringW ha =>
    cases ha with
    | chars8 ha =>
      cases ha with
      | str s => exact earlyWindows_same (C67_unicode_isTstring_S8 v s) (early_unicode_isTstring_S8 v s) ho
      | ptr p => exact earlyWindows_same (C67_unicode_isTstring_P8 v p) (early_unicode_isTstring_P8 v p) ho
    | chars16 ha =>
      cases ha with
      | str s => exact earlyWindows_same (C67_unicode_isTstring_S16 v s) (early_unicode_isTstring_S16 v s) ho
      | ptr p => exact earlyWindows_same (C67_unicode_isTstring_P16 v p) (early_unicode_isTstring_P16 v p) ho
    | chars32 ha =>
      cases ha with
      | str s => exact earlyWindows_same (C67_unicode_isTstring_S32 v s) (early_unicode_isTstring_S32 v s) ho
      | ptr p => exact earlyWindows_same (C67_unicode_isTstring_P32 v p) (early_unicode_isTstring_P32 v p) ho
  | toTstring8 p => exact earlyWindows_same (C67_mbcs_toTstring_P8 v p) (early_mbcs_toTstring_P8 v p) ho
  | toTstring16 p => exact earlyWindows_same (C67_mbcs_toTstring_P16 v p) (early_mbcs_toTstring_P16 v p) ho
  | toTstring32 p => exact earlyWindows_same (C67_mbcs_toTstring_P32 v p) (early_mbcs_toTstring_P32 v p) ho
  | toTstringW ha =>
    cases ha with
    | chars8 ha =>
      cases ha with
      | str s => exact earlyWindows_same (C67_unicode_toTstring_S8 v s) (early_unicode_toTstring_S8 v s) ho
      | ptr p => exact earlyWindows_same (C67_unicode_toTstring_P8 v p) (early_unicode_toTstring_P8 v p) ho
    | chars16 ha =>
      cases ha with
      | str s => exact earlyWindows_same (C67_unicode_toTstring_S16 v s) (early_unicode_toTstring_S16 v s) ho
      | ptr p => exact earlyWindows_same (C67_unicode_toTstring_P16 v p) (early_unicode_toTstring_P16 v p) ho
    | chars32 ha =>
      cases ha with
      | str s => exact earlyWindows_same (C67_unicode_toTstring_S32 v s) (early_unicode_toTstring_S32 v s) ho
      | ptr p => exact earlyWindows_same (C67_unicode_toTstring_P32 v p) (early_unicode_toTstring_P32 v p) ho

/-- The calls that never return do not return then either. -/
theorem C72_text_never_windows (v : Version) (s : List Byte) (s' : List U16) (s'' : List U32) :
    EarlyNever 0 v (.str8 s) ∧ EarlyNever 2 v (.str16 s') ∧ EarlyNever 4 v (.str32 s'') :=
  ⟨early_mbcs_toTstring_S8 v s, early_mbcs_toTstring_S16 v s', early_mbcs_toTstring_S32 v s''⟩

/-- `supportedUnicodeVersion` is the only variable that the text for Windows takes from elsewhere. -/
theorem C72_text_globals_windows (t : Tchar) : ∃ is, Cpp.parseAll (Cpp.Source.onWindows t) = some is ∧
    Spec.definedElsewhere is = [name% "supportedUnicodeVersion"] := by
  refine ⟨_, Cpp.parse_onWindows t, ?_⟩
  cases t <;> kernel_rfl

example (v : Version) : OverloadWindows .unicode (name% "toTstring") [.str8 [0x41]] ∧
    EarlyWindows .unicode v (name% "toTstring") [.str8 [0x41]] (.ok (.wstr16 [0x41])) := by
  refine ⟨.toTstringW (.chars8 (.str _)), ?_⟩
  have h := C67_unicode_toTstring_S8 v [0x41]
  rw [show W16.Tchar.toTstring8S [0x41] = .ok [0x41] by decide +kernel] at h
  exact C72_text_windows_partial v (.toTstringW (.chars8 (.str _))) h

end Ansak.Props
