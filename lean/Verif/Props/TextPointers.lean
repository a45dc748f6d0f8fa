import Verif.Props.TextWideMain
import Verif.Props.TextWindowsMain
import Verif.Props.AsciiOnly
import Verif.Spec.Pointer
import Verif.Lemmas.Cpp.ReturnsWide

/-!
# Pointers and strings

Every function that takes a string also takes a pointer to characters ended by NUL. The two overloads are separate code. Here
both do the same, for each function of the library, for `wchar_t` of either width, and in builds for Windows; so all that is
said about the overloads for strings holds for pointers to the same text.
-/

namespace Ansak.Props

open Cpp
open Cpp.Source (Tchar)
open Spec (Arg Runs Returns RunsOn ReturnsOn RunsWindows ReturnsWindows PointsTo StaysInBounds textOf)

example : PointsTo (some [0xC3, 0xA9, 0, 0xFF] : Ptr Byte) [0xC3, 0xA9] ∧ PointsTo (some [0x41, 0] : Ptr U16) [0x41, 0, 0x42] ∧
    ¬ PointsTo (some [0x41, 0x42, 0] : Ptr U32) [0x41] :=
  ⟨⟨[0xFF], by decide⟩, ⟨[], by decide⟩, fun ⟨_, h⟩ => absurd (List.cons.inj (List.cons.inj (Option.some.inj h)).2).1 (by decide)⟩

theorem same_text {w : Nat} {β : Type} {f : Ptr (BitVec w) → Res β} (hf : StaysInBounds f) {p : Ptr (BitVec w)}
    {s : List (BitVec w)} (h : PointsTo p s) : f p = f (cStr s) := by
  obtain ⟨post, rfl⟩ := h
  obtain ⟨post', hp⟩ := cStr_text s
  obtain ⟨r, _, hr⟩ := hf _ (textOf_nulFree s)
  rw [hp, hr, hr]

theorem runs_same {v : Version} {name : Nat} {a b : List Arg} {α : Type} {f : α → Arg} {x y : Res α}
    (h1 : Runs v name a (x.map f)) (h2 : Runs v name b (y.map f)) (e : x = y) (z : Res Arg) :
    Runs v name a z ↔ Runs v name b z := by
  subst e
  exact ⟨fun h => C67_unique h h1 ▸ h2, fun h => C67_unique h h2 ▸ h1⟩

theorem runsOn_same {w : Bool} {v : Version} {name : Nat} {a b : List Arg} {α : Type} {f : α → Arg} {x y : Res α}
    (h1 : RunsOn w v name a (x.map f)) (h2 : RunsOn w v name b (y.map f)) (e : x = y) (z : Res Arg) :
    RunsOn w v name a z ↔ RunsOn w v name b z := by
  subst e
  exact ⟨fun h => runsOn_unique h h1 ▸ h2, fun h => runsOn_unique h h2 ▸ h1⟩

theorem runsWindows_same {t : Tchar} {v : Version} {name : Nat} {a b : List Arg} {α : Type} {f : α → Arg} {x y : Res α}
    (h1 : RunsWindows t v name a (x.map f)) (h2 : RunsWindows t v name b (y.map f)) (e : x = y) (z : Res Arg) :
    RunsWindows t v name a z ↔ RunsWindows t v name b z := by
  subst e
  exact ⟨fun h => runsWindows_unique h h1 ▸ h2, fun h => runsWindows_unique h h2 ▸ h1⟩

/-- `isUtf8` of a pointer and of a string, with and without the range and the predicate. -/
theorem C12_text_isUtf8_pointers (v : Version) {p : Ptr Byte} {s : List Byte} (h : PointsTo p s) (t : Int) (q : Pred) (x : Res Arg) :
    (Runs v (name% "isUtf8") [.ptr8 p] x ↔ Runs v (name% "isUtf8") [.str8 s] x) ∧
    (Runs v (name% "isUtf8") [.ptr8 p, .range t] x ↔ Runs v (name% "isUtf8") [.str8 s, .range t] x) ∧
    (Runs v (name% "isUtf8") [.ptr8 p, .pred q] x ↔ Runs v (name% "isUtf8") [.str8 s, .pred q] x) ∧
    (Runs v (name% "isUtf8") [.ptr8 p, .range t, .pred q] x ↔ Runs v (name% "isUtf8") [.str8 s, .range t, .pred q] x) :=
  ⟨runs_same (C67_isUtf8_P1 v p ) (C67_isUtf8_S1 v s ) (same_text (C10_isUtf8 _ _ Pred.none) h) x,
    runs_same (C67_isUtf8_PR v p t) (C67_isUtf8_SR v s t) (same_text (C10_isUtf8 _ t Pred.none) h) x,
    runs_same (C67_isUtf8_P2 v p q) (C67_isUtf8_S2 v s q) (same_text (C10_isUtf8 _ _ q) h) x,
    runs_same (C67_isUtf8_P3 v p t q) (C67_isUtf8_S3 v s t q) (same_text (C10_isUtf8 _ t q) h) x⟩

/-- `isUtf16` of a pointer and of a string, with and without the range and the predicate. -/
theorem C12_text_isUtf16_pointers (v : Version) {p : Ptr U16} {s : List U16} (h : PointsTo p s) (t : Int) (q : Pred) (x : Res Arg) :
    (Runs v (name% "isUtf16") [.ptr16 p] x ↔ Runs v (name% "isUtf16") [.str16 s] x) ∧
    (Runs v (name% "isUtf16") [.ptr16 p, .range t] x ↔ Runs v (name% "isUtf16") [.str16 s, .range t] x) ∧
    (Runs v (name% "isUtf16") [.ptr16 p, .pred q] x ↔ Runs v (name% "isUtf16") [.str16 s, .pred q] x) ∧
    (Runs v (name% "isUtf16") [.ptr16 p, .range t, .pred q] x ↔ Runs v (name% "isUtf16") [.str16 s, .range t, .pred q] x) :=
  ⟨runs_same (C67_isUtf16_P1 v p ) (C67_isUtf16_S1 v s ) (same_text (C10_isUtf16 _ _ Pred.none) h) x,
    runs_same (C67_isUtf16_PR v p t) (C67_isUtf16_SR v s t) (same_text (C10_isUtf16 _ t Pred.none) h) x,
    runs_same (C67_isUtf16_P2 v p q) (C67_isUtf16_S2 v s q) (same_text (C10_isUtf16 _ _ q) h) x,
    runs_same (C67_isUtf16_P3 v p t q) (C67_isUtf16_S3 v s t q) (same_text (C10_isUtf16 _ t q) h) x⟩

/-- `isUcs2` of a pointer and of a string, with and without the range and the predicate. -/
theorem C12_text_isUcs2_pointers (v : Version) {p : Ptr U16} {s : List U16} (h : PointsTo p s) (t : Int) (q : Pred) (x : Res Arg) :
    (Runs v (name% "isUcs2") [.ptr16 p] x ↔ Runs v (name% "isUcs2") [.str16 s] x) ∧
    (Runs v (name% "isUcs2") [.ptr16 p, .range t] x ↔ Runs v (name% "isUcs2") [.str16 s, .range t] x) ∧
    (Runs v (name% "isUcs2") [.ptr16 p, .pred q] x ↔ Runs v (name% "isUcs2") [.str16 s, .pred q] x) ∧
    (Runs v (name% "isUcs2") [.ptr16 p, .range t, .pred q] x ↔ Runs v (name% "isUcs2") [.str16 s, .range t, .pred q] x) :=
  ⟨runs_same (C67_isUcs2_P1 v p ) (C67_isUcs2_S1 v s ) (same_text (C10_isUcs2 _ _ Pred.none) h) x,
    runs_same (C67_isUcs2_PR v p t) (C67_isUcs2_SR v s t) (same_text (C10_isUcs2 _ t Pred.none) h) x,
    runs_same (C67_isUcs2_P2 v p q) (C67_isUcs2_S2 v s q) (same_text (C10_isUcs2 _ _ q) h) x,
    runs_same (C67_isUcs2_P3 v p t q) (C67_isUcs2_S3 v s t q) (same_text (C10_isUcs2 _ t q) h) x⟩

/-- `isUcs4` of a pointer and of a string, with and without the range and the predicate. -/
theorem C12_text_isUcs4_pointers (v : Version) {p : Ptr U32} {s : List U32} (h : PointsTo p s) (t : Int) (q : Pred) (x : Res Arg) :
    (Runs v (name% "isUcs4") [.ptr32 p] x ↔ Runs v (name% "isUcs4") [.str32 s] x) ∧
    (Runs v (name% "isUcs4") [.ptr32 p, .range t] x ↔ Runs v (name% "isUcs4") [.str32 s, .range t] x) ∧
    (Runs v (name% "isUcs4") [.ptr32 p, .pred q] x ↔ Runs v (name% "isUcs4") [.str32 s, .pred q] x) ∧
    (Runs v (name% "isUcs4") [.ptr32 p, .range t, .pred q] x ↔ Runs v (name% "isUcs4") [.str32 s, .range t, .pred q] x) :=
  ⟨runs_same (C67_isUcs4_P1 v p ) (C67_isUcs4_S1 v s ) (same_text (C10_isUcs4 _ _ Pred.none) h) x,
    runs_same (C67_isUcs4_PR v p t) (C67_isUcs4_SR v s t) (same_text (C10_isUcs4 _ t Pred.none) h) x,
    runs_same (C67_isUcs4_P2 v p q) (C67_isUcs4_S2 v s q) (same_text (C10_isUcs4 _ _ q) h) x,
    runs_same (C67_isUcs4_P3 v p t q) (C67_isUcs4_S3 v s t q) (same_text (C10_isUcs4 _ t q) h) x⟩

/-- Conversions from and length of a pointer and a string of 8-bit units. -/
theorem C12_text_from8_pointers (v : Version) {p : Ptr Byte} {s : List Byte} (h : PointsTo p s) (x : Res Arg) :
    (Runs v (name% "toUcs2") [.ptr8 p] x ↔ Runs v (name% "toUcs2") [.str8 s] x) ∧
    (Runs v (name% "toUtf16") [.ptr8 p] x ↔ Runs v (name% "toUtf16") [.str8 s] x) ∧
    (Runs v (name% "toUcs4") [.ptr8 p] x ↔ Runs v (name% "toUcs4") [.str8 s] x) ∧
    (Runs v (name% "unicodeLength") [.ptr8 p] x ↔ Runs v (name% "unicodeLength") [.str8 s] x) :=
  ⟨runs_same (C67_toUcs2_P8 v p) (C67_toUcs2_S8 v s) (same_text C10_from_utf8.2.2 h) x,
    runs_same (C67_toUtf16_P8 v p) (C67_toUtf16_S8 v s) (same_text C10_from_utf8.2.1 h) x,
    runs_same (C67_toUcs4_P8 v p) (C67_toUcs4_S8 v s) (same_text C10_from_utf8.1 h) x,
    runs_same (C67_unicodeLength_P8 v p) (C67_unicodeLength_S8 v s) (same_text C10_unicodeLength.1 h) x⟩

/-- Conversions from and length of a pointer and a string of 16-bit units. -/
theorem C12_text_from16_pointers (v : Version) {p : Ptr U16} {s : List U16} (h : PointsTo p s) (x : Res Arg) :
    (Runs v (name% "toUtf8") [.ptr16 p] x ↔ Runs v (name% "toUtf8") [.str16 s] x) ∧
    (Runs v (name% "toUcs4") [.ptr16 p] x ↔ Runs v (name% "toUcs4") [.str16 s] x) ∧
    (Runs v (name% "unicodeLength") [.ptr16 p] x ↔ Runs v (name% "unicodeLength") [.str16 s] x) :=
  ⟨runs_same (C67_toUtf8_P16 v p) (C67_toUtf8_S16 v s) (same_text C10_from_utf16.2 h) x,
    runs_same (C67_toUcs4_P16 v p) (C67_toUcs4_S16 v s) (same_text C10_from_utf16.1 h) x,
    runs_same (C67_unicodeLength_P16 v p) (C67_unicodeLength_S16 v s) (same_text C10_unicodeLength.2.1 h) x⟩

/-- Conversions from and length of a pointer and a string of 32-bit units. -/
theorem C12_text_from32_pointers (v : Version) {p : Ptr U32} {s : List U32} (h : PointsTo p s) (x : Res Arg) :
    (Runs v (name% "toUtf8") [.ptr32 p] x ↔ Runs v (name% "toUtf8") [.str32 s] x) ∧
    (Runs v (name% "toUtf16") [.ptr32 p] x ↔ Runs v (name% "toUtf16") [.str32 s] x) ∧
    (Runs v (name% "toUcs2") [.ptr32 p] x ↔ Runs v (name% "toUcs2") [.str32 s] x) ∧
    (Runs v (name% "unicodeLength") [.ptr32 p] x ↔ Runs v (name% "unicodeLength") [.str32 s] x) :=
  ⟨runs_same (C67_toUtf8_P32 v p) (C67_toUtf8_S32 v s) (same_text C10_from_ucs4.1 h) x,
    runs_same (C67_toUtf16_P32 v p) (C67_toUtf16_S32 v s) (same_text C10_from_ucs4.2.1 h) x,
    runs_same (C67_toUcs2_P32 v p) (C67_toUcs2_S32 v s) (same_text C10_from_ucs4.2.2 h) x,
    runs_same (C67_unicodeLength_P32 v p) (C67_unicodeLength_S32 v s) (same_text C10_unicodeLength.2.2 h) x⟩

/-- `wchar_t` of 16 bits: a pointer and a string. -/
theorem C38_text_w16_pointers (v : Version) {p : Ptr U16} {s : List U16} (h : PointsTo p s) (x : Res Arg) :
    (RunsOn false v (name% "isUtf8") [.wptr16 p] x ↔ RunsOn false v (name% "isUtf8") [.wstr16 s] x) ∧
    (RunsOn false v (name% "isUtf16") [.wptr16 p] x ↔ RunsOn false v (name% "isUtf16") [.wstr16 s] x) ∧
    (RunsOn false v (name% "isUcs2") [.wptr16 p] x ↔ RunsOn false v (name% "isUcs2") [.wstr16 s] x) ∧
    (RunsOn false v (name% "isUcs4") [.wptr16 p] x ↔ RunsOn false v (name% "isUcs4") [.wstr16 s] x) ∧
    (RunsOn false v (name% "toUtf8") [.wptr16 p] x ↔ RunsOn false v (name% "toUtf8") [.wstr16 s] x) ∧
    (RunsOn false v (name% "toUtf16") [.wptr16 p] x ↔ RunsOn false v (name% "toUtf16") [.wstr16 s] x) ∧
    (RunsOn false v (name% "toUcs2") [.wptr16 p] x ↔ RunsOn false v (name% "toUcs2") [.wstr16 s] x) ∧
    (RunsOn false v (name% "toUcs4") [.wptr16 p] x ↔ RunsOn false v (name% "toUcs4") [.wstr16 s] x) :=
  ⟨runsOn_same (C67_w16_isUtf8_PW v p) (C67_w16_isUtf8_SW v s) (same_text (C38_w16_in_bounds (Unicode.charClass v)).1 h) x,
    runsOn_same (C67_w16_isUtf16_PW v p) (C67_w16_isUtf16_SW v s) (same_text (C38_w16_in_bounds (Unicode.charClass v)).2.1 h) x,
    runsOn_same (C67_w16_isUcs2_PW v p) (C67_w16_isUcs2_SW v s) (same_text (C38_w16_in_bounds (Unicode.charClass v)).2.2.1 h) x,
    runsOn_same (C67_w16_isUcs4_PW v p) (C67_w16_isUcs4_SW v s) (same_text (C38_w16_in_bounds (Unicode.charClass v)).2.2.2.1 h) x,
    runsOn_same (C67_w16_toUtf8_PW v p) (C67_w16_toUtf8_SW v s) (same_text (C38_w16_in_bounds (Unicode.charClass v)).2.2.2.2.2.2.2.1 h) x,
    runsOn_same (C67_w16_toUtf16_PW v p) (C67_w16_toUtf16_SW v s) (same_text (C38_w16_in_bounds (Unicode.charClass v)).2.2.2.2.2.2.2.2.1 h) x,
    runsOn_same (C67_w16_toUcs2_PW v p) (C67_w16_toUcs2_SW v s) (same_text (C38_w16_in_bounds (Unicode.charClass v)).2.2.2.2.2.2.2.2.2.1 h) x,
    runsOn_same (C67_w16_toUcs4_PW v p) (C67_w16_toUcs4_SW v s) (same_text (C38_w16_in_bounds (Unicode.charClass v)).2.2.2.2.2.2.2.2.2.2.1 h) x⟩

/-- `wchar_t` of 16 bits, for a source of 8-bit units: a pointer and a string. -/
theorem C38_text_w16_from8_pointers (v : Version) {p : Ptr Byte} {s : List Byte} (h : PointsTo p s) (x : Res Arg) :
    (RunsOn false v (name% "isWstring") [.ptr8 p] x ↔ RunsOn false v (name% "isWstring") [.str8 s] x) ∧
    (RunsOn false v (name% "toWstring") [.ptr8 p] x ↔ RunsOn false v (name% "toWstring") [.str8 s] x) :=
  ⟨runsOn_same (C67_w16_isWstring_P8 v p) (C67_w16_isWstring_S8 v s) (same_text (C38_w16_in_bounds (Unicode.charClass v)).2.2.2.2.1 h) x,
    runsOn_same (C67_w16_toWstring_P8 v p) (C67_w16_toWstring_S8 v s) (same_text (C38_w16_in_bounds (Unicode.charClass v)).2.2.2.2.2.2.2.2.2.2.2.1 h) x⟩

/-- `wchar_t` of 16 bits, for a source of 16-bit units: a pointer and a string. -/
theorem C38_text_w16_from16_pointers (v : Version) {p : Ptr U16} {s : List U16} (h : PointsTo p s) (x : Res Arg) :
    (RunsOn false v (name% "isWstring") [.ptr16 p] x ↔ RunsOn false v (name% "isWstring") [.str16 s] x) ∧
    (RunsOn false v (name% "toWstring") [.ptr16 p] x ↔ RunsOn false v (name% "toWstring") [.str16 s] x) :=
  ⟨runsOn_same (C67_w16_isWstring_P16 v p) (C67_w16_isWstring_S16 v s) (same_text (C38_w16_in_bounds (Unicode.charClass v)).2.2.2.2.2.1 h) x,
    runsOn_same (C67_w16_toWstring_P16 v p) (C67_w16_toWstring_S16 v s) (same_text (C38_w16_in_bounds (Unicode.charClass v)).2.2.2.2.2.2.2.2.2.2.2.2.1 h) x⟩

/-- `wchar_t` of 16 bits, for a source of 32-bit units: a pointer and a string. -/
theorem C38_text_w16_from32_pointers (v : Version) {p : Ptr U32} {s : List U32} (h : PointsTo p s) (x : Res Arg) :
    (RunsOn false v (name% "isWstring") [.ptr32 p] x ↔ RunsOn false v (name% "isWstring") [.str32 s] x) ∧
    (RunsOn false v (name% "toWstring") [.ptr32 p] x ↔ RunsOn false v (name% "toWstring") [.str32 s] x) :=
  ⟨runsOn_same (C67_w16_isWstring_P32 v p) (C67_w16_isWstring_S32 v s) (same_text (C38_w16_in_bounds (Unicode.charClass v)).2.2.2.2.2.2.1 h) x,
    runsOn_same (C67_w16_toWstring_P32 v p) (C67_w16_toWstring_S32 v s) (same_text (C38_w16_in_bounds (Unicode.charClass v)).2.2.2.2.2.2.2.2.2.2.2.2.2 h) x⟩

/-- `wchar_t` of 32 bits: a pointer and a string. -/
theorem C38_text_w32_pointers (v : Version) {p : Ptr U32} {s : List U32} (h : PointsTo p s) (x : Res Arg) :
    (RunsOn true v (name% "isUtf8") [.wptr p] x ↔ RunsOn true v (name% "isUtf8") [.wstr s] x) ∧
    (RunsOn true v (name% "isUtf16") [.wptr p] x ↔ RunsOn true v (name% "isUtf16") [.wstr s] x) ∧
    (RunsOn true v (name% "isUcs2") [.wptr p] x ↔ RunsOn true v (name% "isUcs2") [.wstr s] x) ∧
    (RunsOn true v (name% "isUcs4") [.wptr p] x ↔ RunsOn true v (name% "isUcs4") [.wstr s] x) ∧
    (RunsOn true v (name% "toUtf8") [.wptr p] x ↔ RunsOn true v (name% "toUtf8") [.wstr s] x) ∧
    (RunsOn true v (name% "toUtf16") [.wptr p] x ↔ RunsOn true v (name% "toUtf16") [.wstr s] x) ∧
    (RunsOn true v (name% "toUcs2") [.wptr p] x ↔ RunsOn true v (name% "toUcs2") [.wstr s] x) ∧
    (RunsOn true v (name% "toUcs4") [.wptr p] x ↔ RunsOn true v (name% "toUcs4") [.wstr s] x) :=
  ⟨runsOn_same (C67_w32_isUtf8_PW v p) (C67_w32_isUtf8_SW v s) (same_text (C38_w32_in_bounds (Unicode.charClass v)).1 h) x,
    runsOn_same (C67_w32_isUtf16_PW v p) (C67_w32_isUtf16_SW v s) (same_text (C38_w32_in_bounds (Unicode.charClass v)).2.1 h) x,
    runsOn_same (C67_w32_isUcs2_PW v p) (C67_w32_isUcs2_SW v s) (same_text (C38_w32_in_bounds (Unicode.charClass v)).2.2.1 h) x,
    runsOn_same (C67_w32_isUcs4_PW v p) (C67_w32_isUcs4_SW v s) (same_text (C38_w32_in_bounds (Unicode.charClass v)).2.2.2.1 h) x,
    runsOn_same (C67_w32_toUtf8_PW v p) (C67_w32_toUtf8_SW v s) (same_text (C38_w32_in_bounds (Unicode.charClass v)).2.2.2.2.2.2.2.1 h) x,
    runsOn_same (C67_w32_toUtf16_PW v p) (C67_w32_toUtf16_SW v s) (same_text (C38_w32_in_bounds (Unicode.charClass v)).2.2.2.2.2.2.2.2.1 h) x,
    runsOn_same (C67_w32_toUcs2_PW v p) (C67_w32_toUcs2_SW v s) (same_text (C38_w32_in_bounds (Unicode.charClass v)).2.2.2.2.2.2.2.2.2.1 h) x,
    runsOn_same (C67_w32_toUcs4_PW v p) (C67_w32_toUcs4_SW v s) (same_text (C38_w32_in_bounds (Unicode.charClass v)).2.2.2.2.2.2.2.2.2.2.1 h) x⟩

/-- `wchar_t` of 32 bits, for a source of 8-bit units: a pointer and a string. -/
theorem C38_text_w32_from8_pointers (v : Version) {p : Ptr Byte} {s : List Byte} (h : PointsTo p s) (x : Res Arg) :
    (RunsOn true v (name% "isWstring") [.ptr8 p] x ↔ RunsOn true v (name% "isWstring") [.str8 s] x) ∧
    (RunsOn true v (name% "toWstring") [.ptr8 p] x ↔ RunsOn true v (name% "toWstring") [.str8 s] x) :=
  ⟨runsOn_same (C67_w32_isWstring_P8 v p) (C67_w32_isWstring_S8 v s) (same_text (C38_w32_in_bounds (Unicode.charClass v)).2.2.2.2.1 h) x,
    runsOn_same (C67_w32_toWstring_P8 v p) (C67_w32_toWstring_S8 v s) (same_text (C38_w32_in_bounds (Unicode.charClass v)).2.2.2.2.2.2.2.2.2.2.2.1 h) x⟩

/-- `wchar_t` of 32 bits, for a source of 16-bit units: a pointer and a string. -/
theorem C38_text_w32_from16_pointers (v : Version) {p : Ptr U16} {s : List U16} (h : PointsTo p s) (x : Res Arg) :
    (RunsOn true v (name% "isWstring") [.ptr16 p] x ↔ RunsOn true v (name% "isWstring") [.str16 s] x) ∧
    (RunsOn true v (name% "toWstring") [.ptr16 p] x ↔ RunsOn true v (name% "toWstring") [.str16 s] x) :=
  ⟨runsOn_same (C67_w32_isWstring_P16 v p) (C67_w32_isWstring_S16 v s) (same_text (C38_w32_in_bounds (Unicode.charClass v)).2.2.2.2.2.1 h) x,
    runsOn_same (C67_w32_toWstring_P16 v p) (C67_w32_toWstring_S16 v s) (same_text (C38_w32_in_bounds (Unicode.charClass v)).2.2.2.2.2.2.2.2.2.2.2.2.1 h) x⟩

/-- `wchar_t` of 32 bits, for a source of 32-bit units: a pointer and a string. -/
theorem C38_text_w32_from32_pointers (v : Version) {p : Ptr U32} {s : List U32} (h : PointsTo p s) (x : Res Arg) :
    (RunsOn true v (name% "isWstring") [.ptr32 p] x ↔ RunsOn true v (name% "isWstring") [.str32 s] x) ∧
    (RunsOn true v (name% "toWstring") [.ptr32 p] x ↔ RunsOn true v (name% "toWstring") [.str32 s] x) :=
  ⟨runsOn_same (C67_w32_isWstring_P32 v p) (C67_w32_isWstring_S32 v s) (same_text (C38_w32_in_bounds (Unicode.charClass v)).2.2.2.2.2.2.1 h) x,
    runsOn_same (C67_w32_toWstring_P32 v p) (C67_w32_toWstring_S32 v s) (same_text (C38_w32_in_bounds (Unicode.charClass v)).2.2.2.2.2.2.2.2.2.2.2.2.2 h) x⟩

/-- Windows: a pointer and a string of `char`. -/
theorem C39_text_char_pointers (t : Tchar) (v : Version) {p : Ptr Byte} {s : List Byte} (h : PointsTo p s) (x : Res Arg) :
    (RunsWindows t v (name% "isUtf16") [.ptr8 p] x ↔ RunsWindows t v (name% "isUtf16") [.str8 s] x) ∧
    (RunsWindows t v (name% "isUcs2") [.ptr8 p] x ↔ RunsWindows t v (name% "isUcs2") [.str8 s] x) ∧
    (RunsWindows t v (name% "isUcs4") [.ptr8 p] x ↔ RunsWindows t v (name% "isUcs4") [.str8 s] x) ∧
    (RunsWindows t v (name% "toUtf8") [.ptr8 p] x ↔ RunsWindows t v (name% "toUtf8") [.str8 s] x) :=
  ⟨runsWindows_same (C67_win_isUtf16_P8 t v p) (C67_win_isUtf16_S8 t v s) (same_text (C39_in_bounds (Unicode.charClass v)).1 h) x,
    runsWindows_same (C67_win_isUcs2_P8 t v p) (C67_win_isUcs2_S8 t v s) (same_text (C39_in_bounds (Unicode.charClass v)).2.1 h) x,
    runsWindows_same (C67_win_isUcs4_P8 t v p) (C67_win_isUcs4_S8 t v s) (same_text (C39_in_bounds (Unicode.charClass v)).2.2.1 h) x,
    runsWindows_same (C67_win_toUtf8_P8 t v p) (C67_win_toUtf8_S8 t v s) (same_text (C39_in_bounds (Unicode.charClass v)).2.2.2.2.2.2.1 h) x⟩

/-- `TCHAR`, from 8-bit units: a pointer and a string. Missing: with `_MBCS`, `toTstring` of a string never returns. -/
theorem C39_text_from8_pointers_partial (v : Version) {p : Ptr Byte} {s : List Byte} (h : PointsTo p s) (x : Res Arg) :
    (RunsWindows .unicode v (name% "isTstring") [.ptr8 p] x ↔ RunsWindows .unicode v (name% "isTstring") [.str8 s] x) ∧
    (RunsWindows .unicode v (name% "toTstring") [.ptr8 p] x ↔ RunsWindows .unicode v (name% "toTstring") [.str8 s] x) ∧
    (RunsWindows .mbcs v (name% "isTstring") [.ptr8 p] x ↔ RunsWindows .mbcs v (name% "isTstring") [.str8 s] x) :=
  ⟨runsWindows_same (C67_unicode_isTstring_P8 v p) (C67_unicode_isTstring_S8 v s) (same_text (C39_in_bounds (Unicode.charClass v)).2.2.2.1 h) x,
    runsWindows_same (C67_unicode_toTstring_P8 v p) (C67_unicode_toTstring_S8 v s) (same_text (C39_in_bounds (Unicode.charClass v)).2.2.2.2.2.2.2.2.2.2.1 h) x,
    runsWindows_same (C67_mbcs_isTstring_P8 v p) (C67_mbcs_isTstring_S8 v s) (same_text (C39_in_bounds (Unicode.charClass v)).2.2.2.1 h) x⟩

/-- `TCHAR`, from 16-bit units: a pointer and a string. Missing: with `_MBCS`, `toTstring` of a string never returns. -/
theorem C39_text_from16_pointers_partial (v : Version) {p : Ptr U16} {s : List U16} (h : PointsTo p s) (x : Res Arg) :
    (RunsWindows .unicode v (name% "isTstring") [.ptr16 p] x ↔ RunsWindows .unicode v (name% "isTstring") [.str16 s] x) ∧
    (RunsWindows .unicode v (name% "toTstring") [.ptr16 p] x ↔ RunsWindows .unicode v (name% "toTstring") [.str16 s] x) ∧
    (RunsWindows .mbcs v (name% "isTstring") [.ptr16 p] x ↔ RunsWindows .mbcs v (name% "isTstring") [.str16 s] x) :=
  ⟨runsWindows_same (C67_unicode_isTstring_P16 v p) (C67_unicode_isTstring_S16 v s) (same_text (C39_in_bounds (Unicode.charClass v)).2.2.2.2.1 h) x,
    runsWindows_same (C67_unicode_toTstring_P16 v p) (C67_unicode_toTstring_S16 v s) (same_text (C39_in_bounds (Unicode.charClass v)).2.2.2.2.2.2.2.2.2.2.2.1 h) x,
    runsWindows_same (C67_mbcs_isTstring_P16 v p) (C67_mbcs_isTstring_S16 v s) (same_text (C39_in_bounds (Unicode.charClass v)).2.2.2.2.1 h) x⟩

/-- `TCHAR`, from 32-bit units: a pointer and a string. Missing: with `_MBCS`, `toTstring` of a string never returns. -/
theorem C39_text_from32_pointers_partial (v : Version) {p : Ptr U32} {s : List U32} (h : PointsTo p s) (x : Res Arg) :
    (RunsWindows .unicode v (name% "isTstring") [.ptr32 p] x ↔ RunsWindows .unicode v (name% "isTstring") [.str32 s] x) ∧
    (RunsWindows .unicode v (name% "toTstring") [.ptr32 p] x ↔ RunsWindows .unicode v (name% "toTstring") [.str32 s] x) ∧
    (RunsWindows .mbcs v (name% "isTstring") [.ptr32 p] x ↔ RunsWindows .mbcs v (name% "isTstring") [.str32 s] x) :=
  ⟨runsWindows_same (C67_unicode_isTstring_P32 v p) (C67_unicode_isTstring_S32 v s) (same_text (C39_in_bounds (Unicode.charClass v)).2.2.2.2.2.1 h) x,
    runsWindows_same (C67_unicode_toTstring_P32 v p) (C67_unicode_toTstring_S32 v s) (same_text (C39_in_bounds (Unicode.charClass v)).2.2.2.2.2.2.2.2.2.2.2.2 h) x,
    runsWindows_same (C67_mbcs_isTstring_P32 v p) (C67_mbcs_isTstring_S32 v s) (same_text (C39_in_bounds (Unicode.charClass v)).2.2.2.2.2.1 h) x⟩

/-! ## What the overloads for pointers do in builds with `_MBCS` -/

/-- `_MBCS`: `toTstring` of a pointer returns ASCII text with the same characters, and nothing for any other text. Missing from
C39: other text that `isTstring` accepts should not be lost. -/
theorem C39_text_mbcs_all_partial (v : Version) :
    (∀ p s, PointsTo p s →
      ReturnsWindows .mbcs v (name% "toTstring") [.ptr8 p] (.str8 (if Ascii (textOf s) then textOf s else []))) ∧
    (∀ p s, PointsTo p s → ReturnsWindows .mbcs v (name% "toTstring") [.ptr16 p]
      (.str8 (if Ascii (textOf s) then (textOf s).map (BitVec.setWidth 8) else []))) ∧
    (∀ p s, PointsTo p s → ReturnsWindows .mbcs v (name% "toTstring") [.ptr32 p]
      (.str8 (if Ascii (textOf s) then (textOf s).map (BitVec.setWidth 8) else []))) := by
  simp only [text_iff]
  obtain ⟨_, _, _, _, _, _, _, h8, h16, h32, _⟩ := C39_in_bounds (Unicode.charClass v)
  obtain ⟨e8, e16, e32⟩ := C39_mbcs_all_partial (Unicode.charClass v)
  exact ⟨fun _ s h => (same_text h8 h).trans (e8 s), fun _ s h => (same_text h16 h).trans (e16 s),
    fun _ s h => (same_text h32 h).trans (e32 s)⟩

/-- `_UNICODE`: `toTstring` of UTF-16 returns the text as it is, also for pointers. -/
theorem C39_text_unicode_copy (v : Version) {p : Ptr U16} {s : List U16} (h : PointsTo p s) :
    ReturnsWindows .unicode v (name% "toTstring") [.str16 s] (.wstr16 (textOf s)) ∧
    ReturnsWindows .unicode v (name% "toTstring") [.ptr16 p] (.wstr16 (textOf s)) := by
  have := (C39_text_isTstring_converts_partial v).2.1 s
  exact ⟨this, ((C39_text_from16_pointers_partial v h _).2.1).2 this⟩

/-! ## ASCII -/

/-- For the target range ASCII each validator accepts exactly the strings of ASCII characters. -/
theorem C53_text_exact (v : Version) :
    (∀ s, ∃ b, Returns v (name% "isUtf8") [.str8 s, .range kAscii] (.bool b) ∧ (b = true ↔ Ascii (textOf s))) ∧
    (∀ s, ∃ b, Returns v (name% "isUtf16") [.str16 s, .range kAscii] (.bool b) ∧ (b = true ↔ Ascii (textOf s))) ∧
    (∀ s, ∃ b, Returns v (name% "isUcs2") [.str16 s, .range kAscii] (.bool b) ∧ (b = true ↔ Ascii (textOf s))) ∧
    (∀ s, ∃ b, Returns v (name% "isUcs4") [.str32 s, .range kAscii] (.bool b) ∧ (b = true ↔ Ascii (textOf s))) := by
  simp only [text_iff]
  exact C53_exact _

/-! ## Null pointers -/

/-- `wchar_t` of 16 bits: a null pointer is valid and is converted to the empty string. Missing from C13 and C38: where the
encoding stays the same (`C38_text_w16_null_violated`). -/
theorem C38_text_w16_null_partial (v : Version) :
    ReturnsOn false v (name% "isUtf8") [.wptr16 none] (.bool true) ∧
    ReturnsOn false v (name% "isUtf16") [.wptr16 none] (.bool true) ∧
    ReturnsOn false v (name% "isUcs2") [.wptr16 none] (.bool true) ∧
    ReturnsOn false v (name% "isUcs4") [.wptr16 none] (.bool true) ∧
    ReturnsOn false v (name% "isWstring") [.ptr8 none] (.bool true) ∧
    ReturnsOn false v (name% "isWstring") [.ptr16 none] (.bool true) ∧
    ReturnsOn false v (name% "isWstring") [.ptr32 none] (.bool true) ∧
    ReturnsOn false v (name% "toUtf8") [.wptr16 none] (.str8 []) ∧
    ReturnsOn false v (name% "toUcs4") [.wptr16 none] (.str32 []) ∧
    ReturnsOn false v (name% "toWstring") [.ptr8 none] (.wstr16 []) ∧
    ReturnsOn false v (name% "toWstring") [.ptr32 none] (.wstr16 []) := by
  simp only [text_iff]
  exact ⟨rfl, rfl, rfl, rfl, rfl, rfl, rfl, rfl, rfl, rfl, rfl⟩

/-- `wchar_t` of 32 bits: a null pointer is valid and is converted to the empty string. Missing from C13 and C38: where the
encoding stays the same (`C38_text_w32_null_violated`). -/
theorem C38_text_w32_null_partial (v : Version) :
    ReturnsOn true v (name% "isUtf8") [.wptr none] (.bool true) ∧
    ReturnsOn true v (name% "isUtf16") [.wptr none] (.bool true) ∧
    ReturnsOn true v (name% "isUcs2") [.wptr none] (.bool true) ∧
    ReturnsOn true v (name% "isUcs4") [.wptr none] (.bool true) ∧
    ReturnsOn true v (name% "isWstring") [.ptr8 none] (.bool true) ∧
    ReturnsOn true v (name% "isWstring") [.ptr16 none] (.bool true) ∧
    ReturnsOn true v (name% "isWstring") [.ptr32 none] (.bool true) ∧
    ReturnsOn true v (name% "toUtf8") [.wptr none] (.str8 []) ∧
    ReturnsOn true v (name% "toUtf16") [.wptr none] (.str16 []) ∧
    ReturnsOn true v (name% "toUcs2") [.wptr none] (.str16 []) ∧
    ReturnsOn true v (name% "toWstring") [.ptr8 none] (.wstr []) ∧
    ReturnsOn true v (name% "toWstring") [.ptr16 none] (.wstr []) := by
  simp only [text_iff]
  exact ⟨rfl, rfl, rfl, rfl, rfl, rfl, rfl, rfl, rfl, rfl, rfl, rfl⟩

/-- `TCHAR`: a null pointer is valid and is converted to the empty string. Missing from C13 and C39: where the encoding stays the
same (`C39_text_unicode_violated`, `C39_text_mbcs_null_violated`). -/
theorem C39_text_null_partial (v : Version) :
    ReturnsWindows .unicode v (name% "isTstring") [.ptr8 none] (.bool true) ∧
    ReturnsWindows .unicode v (name% "isTstring") [.ptr16 none] (.bool true) ∧
    ReturnsWindows .unicode v (name% "isTstring") [.ptr32 none] (.bool true) ∧
    ReturnsWindows .mbcs v (name% "isTstring") [.ptr8 none] (.bool true) ∧
    ReturnsWindows .mbcs v (name% "isTstring") [.ptr16 none] (.bool true) ∧
    ReturnsWindows .mbcs v (name% "isTstring") [.ptr32 none] (.bool true) ∧
    ReturnsWindows .unicode v (name% "toTstring") [.ptr8 none] (.wstr16 []) ∧
    ReturnsWindows .unicode v (name% "toTstring") [.ptr32 none] (.wstr16 []) ∧
    ReturnsWindows .mbcs v (name% "toTstring") [.ptr16 none] (.str8 []) ∧
    ReturnsWindows .mbcs v (name% "toTstring") [.ptr32 none] (.str8 []) := by
  simp only [text_iff]
  exact ⟨rfl, rfl, rfl, rfl, rfl, rfl, rfl, rfl, rfl, rfl⟩

/-- Violation of C13 and C39: with `_MBCS`, `toTstring` of a null pointer to `char` is undefined behaviour, although `isTstring`
accepts it. -/
theorem C39_text_mbcs_null_violated (v : Version) :
    ReturnsWindows .mbcs v (name% "isTstring") [.ptr8 none] (.bool true) ∧
    RunsWindows .mbcs v (name% "toTstring") [.ptr8 none] .ub := by
  simp only [text_iff]
  exact ⟨rfl, rfl⟩

end Ansak.Props
