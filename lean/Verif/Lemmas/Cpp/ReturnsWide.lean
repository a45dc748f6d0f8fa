import Verif.Props.TextWide
import Verif.Lemmas.Cpp.TextAttr

/-! # What a call of a function for `wchar_t` returns, in terms of the model -/

namespace Ansak.Props

open Cpp
open Spec (Arg RunsOn ReturnsOn)

theorem runsOn_unique {w : Bool} {v : Version} {name : Nat} {args : List Arg} {x y : Res Arg} (hx : RunsOn w v name args x)
    (hy : RunsOn w v name args y) : x = y :=
  yields_unique (hx false _ (Nat.le_refl _)) (hy false _ (Nat.le_refl _))

theorem returnsOn_iff {α : Type} {w : Bool} {v : Version} {name : Nat} {args : List Arg} {x : Res α} {f : α → Arg}
    (h : RunsOn w v name args (x.map f)) (hf : ∀ {a b}, f a = f b → a = b) {a : α} :
    ReturnsOn w v name args (f a) ↔ x = .ok a := by
  constructor
  · intro h'
    have := runsOn_unique h h'
    cases x with
    | ok b =>
      injection this with this
      rw [hf this]
    | ub => nomatch this
  · rintro rfl; exact h

theorem runsOn_ub_iff {α : Type} {w : Bool} {v : Version} {name : Nat} {args : List Arg} {x : Res α} {f : α → Arg}
    (h : RunsOn w v name args (x.map f)) : RunsOn w v name args .ub ↔ x = .ub := by
  constructor
  · intro h'
    have := runsOn_unique h h'
    cases x with
    | ok b => nomatch this
    | ub => rfl
  · rintro rfl; exact h

theorem wstr16_injective {a b : List U16} (h : Arg.wstr16 a = Arg.wstr16 b) : a = b := by
  injection h with h
  exact units16_injective (by rw [← units32_setWidth, ← units32_setWidth, h])

@[text_iff] theorem returns_w16_isUtf8_PW {v : Version} {p : Ptr U16} {r : Bool} :
    ReturnsOn false v (name% "isUtf8") [.wptr16 p] (.bool r) ↔ W16.isUtf8W (Unicode.charClass v) p = .ok r :=
  returnsOn_iff (C67_w16_isUtf8_PW v p) (fun h => by injection h)

@[text_iff] theorem ub_w16_isUtf8_PW {v : Version} {p : Ptr U16} :
    RunsOn false v (name% "isUtf8") [.wptr16 p] .ub ↔ W16.isUtf8W (Unicode.charClass v) p = .ub :=
  runsOn_ub_iff (C67_w16_isUtf8_PW v p)

@[text_iff] theorem returns_w16_isUtf8_SW {v : Version} {s : List U16} {r : Bool} :
    ReturnsOn false v (name% "isUtf8") [.wstr16 s] (.bool r) ↔ W16.isUtf8WS (Unicode.charClass v) s = .ok r :=
  returnsOn_iff (C67_w16_isUtf8_SW v s) (fun h => by injection h)

@[text_iff] theorem ub_w16_isUtf8_SW {v : Version} {s : List U16} :
    RunsOn false v (name% "isUtf8") [.wstr16 s] .ub ↔ W16.isUtf8WS (Unicode.charClass v) s = .ub :=
  runsOn_ub_iff (C67_w16_isUtf8_SW v s)

@[text_iff] theorem returns_w16_isUtf16_PW {v : Version} {p : Ptr U16} {r : Bool} :
    ReturnsOn false v (name% "isUtf16") [.wptr16 p] (.bool r) ↔ W16.isUtf16W (Unicode.charClass v) p = .ok r :=
  returnsOn_iff (C67_w16_isUtf16_PW v p) (fun h => by injection h)

@[text_iff] theorem ub_w16_isUtf16_PW {v : Version} {p : Ptr U16} :
    RunsOn false v (name% "isUtf16") [.wptr16 p] .ub ↔ W16.isUtf16W (Unicode.charClass v) p = .ub :=
  runsOn_ub_iff (C67_w16_isUtf16_PW v p)

@[text_iff] theorem returns_w16_isUtf16_SW {v : Version} {s : List U16} {r : Bool} :
    ReturnsOn false v (name% "isUtf16") [.wstr16 s] (.bool r) ↔ W16.isUtf16WS (Unicode.charClass v) s = .ok r :=
  returnsOn_iff (C67_w16_isUtf16_SW v s) (fun h => by injection h)

@[text_iff] theorem ub_w16_isUtf16_SW {v : Version} {s : List U16} :
    RunsOn false v (name% "isUtf16") [.wstr16 s] .ub ↔ W16.isUtf16WS (Unicode.charClass v) s = .ub :=
  runsOn_ub_iff (C67_w16_isUtf16_SW v s)

@[text_iff] theorem returns_w16_isUcs2_PW {v : Version} {p : Ptr U16} {r : Bool} :
    ReturnsOn false v (name% "isUcs2") [.wptr16 p] (.bool r) ↔ W16.isUcs2W (Unicode.charClass v) p = .ok r :=
  returnsOn_iff (C67_w16_isUcs2_PW v p) (fun h => by injection h)

@[text_iff] theorem ub_w16_isUcs2_PW {v : Version} {p : Ptr U16} :
    RunsOn false v (name% "isUcs2") [.wptr16 p] .ub ↔ W16.isUcs2W (Unicode.charClass v) p = .ub :=
  runsOn_ub_iff (C67_w16_isUcs2_PW v p)

@[text_iff] theorem returns_w16_isUcs2_SW {v : Version} {s : List U16} {r : Bool} :
    ReturnsOn false v (name% "isUcs2") [.wstr16 s] (.bool r) ↔ W16.isUcs2WS (Unicode.charClass v) s = .ok r :=
  returnsOn_iff (C67_w16_isUcs2_SW v s) (fun h => by injection h)

@[text_iff] theorem ub_w16_isUcs2_SW {v : Version} {s : List U16} :
    RunsOn false v (name% "isUcs2") [.wstr16 s] .ub ↔ W16.isUcs2WS (Unicode.charClass v) s = .ub :=
  runsOn_ub_iff (C67_w16_isUcs2_SW v s)

@[text_iff] theorem returns_w16_isUcs4_PW {v : Version} {p : Ptr U16} {r : Bool} :
    ReturnsOn false v (name% "isUcs4") [.wptr16 p] (.bool r) ↔ W16.isUcs4W (Unicode.charClass v) p = .ok r :=
  returnsOn_iff (C67_w16_isUcs4_PW v p) (fun h => by injection h)

@[text_iff] theorem ub_w16_isUcs4_PW {v : Version} {p : Ptr U16} :
    RunsOn false v (name% "isUcs4") [.wptr16 p] .ub ↔ W16.isUcs4W (Unicode.charClass v) p = .ub :=
  runsOn_ub_iff (C67_w16_isUcs4_PW v p)

@[text_iff] theorem returns_w16_isUcs4_SW {v : Version} {s : List U16} {r : Bool} :
    ReturnsOn false v (name% "isUcs4") [.wstr16 s] (.bool r) ↔ W16.isUcs4WS (Unicode.charClass v) s = .ok r :=
  returnsOn_iff (C67_w16_isUcs4_SW v s) (fun h => by injection h)

@[text_iff] theorem ub_w16_isUcs4_SW {v : Version} {s : List U16} :
    RunsOn false v (name% "isUcs4") [.wstr16 s] .ub ↔ W16.isUcs4WS (Unicode.charClass v) s = .ub :=
  runsOn_ub_iff (C67_w16_isUcs4_SW v s)

@[text_iff] theorem returns_w16_isWstring_P8 {v : Version} {p : Ptr Byte} {r : Bool} :
    ReturnsOn false v (name% "isWstring") [.ptr8 p] (.bool r) ↔ W16.isWstring8 (Unicode.charClass v) p = .ok r :=
  returnsOn_iff (C67_w16_isWstring_P8 v p) (fun h => by injection h)

@[text_iff] theorem ub_w16_isWstring_P8 {v : Version} {p : Ptr Byte} :
    RunsOn false v (name% "isWstring") [.ptr8 p] .ub ↔ W16.isWstring8 (Unicode.charClass v) p = .ub :=
  runsOn_ub_iff (C67_w16_isWstring_P8 v p)

@[text_iff] theorem returns_w16_isWstring_S8 {v : Version} {s : List Byte} {r : Bool} :
    ReturnsOn false v (name% "isWstring") [.str8 s] (.bool r) ↔ W16.isWstring8S (Unicode.charClass v) s = .ok r :=
  returnsOn_iff (C67_w16_isWstring_S8 v s) (fun h => by injection h)

@[text_iff] theorem ub_w16_isWstring_S8 {v : Version} {s : List Byte} :
    RunsOn false v (name% "isWstring") [.str8 s] .ub ↔ W16.isWstring8S (Unicode.charClass v) s = .ub :=
  runsOn_ub_iff (C67_w16_isWstring_S8 v s)

@[text_iff] theorem returns_w16_isWstring_P16 {v : Version} {p : Ptr U16} {r : Bool} :
    ReturnsOn false v (name% "isWstring") [.ptr16 p] (.bool r) ↔ W16.isWstring16 (Unicode.charClass v) p = .ok r :=
  returnsOn_iff (C67_w16_isWstring_P16 v p) (fun h => by injection h)

@[text_iff] theorem ub_w16_isWstring_P16 {v : Version} {p : Ptr U16} :
    RunsOn false v (name% "isWstring") [.ptr16 p] .ub ↔ W16.isWstring16 (Unicode.charClass v) p = .ub :=
  runsOn_ub_iff (C67_w16_isWstring_P16 v p)

@[text_iff] theorem returns_w16_isWstring_S16 {v : Version} {s : List U16} {r : Bool} :
    ReturnsOn false v (name% "isWstring") [.str16 s] (.bool r) ↔ W16.isWstring16S (Unicode.charClass v) s = .ok r :=
  returnsOn_iff (C67_w16_isWstring_S16 v s) (fun h => by injection h)

@[text_iff] theorem ub_w16_isWstring_S16 {v : Version} {s : List U16} :
    RunsOn false v (name% "isWstring") [.str16 s] .ub ↔ W16.isWstring16S (Unicode.charClass v) s = .ub :=
  runsOn_ub_iff (C67_w16_isWstring_S16 v s)

@[text_iff] theorem returns_w16_isWstring_P32 {v : Version} {p : Ptr U32} {r : Bool} :
    ReturnsOn false v (name% "isWstring") [.ptr32 p] (.bool r) ↔ W16.isWstring32 (Unicode.charClass v) p = .ok r :=
  returnsOn_iff (C67_w16_isWstring_P32 v p) (fun h => by injection h)

@[text_iff] theorem ub_w16_isWstring_P32 {v : Version} {p : Ptr U32} :
    RunsOn false v (name% "isWstring") [.ptr32 p] .ub ↔ W16.isWstring32 (Unicode.charClass v) p = .ub :=
  runsOn_ub_iff (C67_w16_isWstring_P32 v p)

@[text_iff] theorem returns_w16_isWstring_S32 {v : Version} {s : List U32} {r : Bool} :
    ReturnsOn false v (name% "isWstring") [.str32 s] (.bool r) ↔ W16.isWstring32S (Unicode.charClass v) s = .ok r :=
  returnsOn_iff (C67_w16_isWstring_S32 v s) (fun h => by injection h)

@[text_iff] theorem ub_w16_isWstring_S32 {v : Version} {s : List U32} :
    RunsOn false v (name% "isWstring") [.str32 s] .ub ↔ W16.isWstring32S (Unicode.charClass v) s = .ub :=
  runsOn_ub_iff (C67_w16_isWstring_S32 v s)

@[text_iff] theorem returns_w16_toUtf8_PW {v : Version} {p : Ptr U16} {r : List Byte} :
    ReturnsOn false v (name% "toUtf8") [.wptr16 p] (.str8 r) ↔ W16.toUtf8W p = .ok r :=
  returnsOn_iff (C67_w16_toUtf8_PW v p) (fun h => by injection h)

@[text_iff] theorem ub_w16_toUtf8_PW {v : Version} {p : Ptr U16} :
    RunsOn false v (name% "toUtf8") [.wptr16 p] .ub ↔ W16.toUtf8W p = .ub :=
  runsOn_ub_iff (C67_w16_toUtf8_PW v p)

@[text_iff] theorem returns_w16_toUtf8_SW {v : Version} {s : List U16} {r : List Byte} :
    ReturnsOn false v (name% "toUtf8") [.wstr16 s] (.str8 r) ↔ W16.toUtf8WS s = .ok r :=
  returnsOn_iff (C67_w16_toUtf8_SW v s) (fun h => by injection h)

@[text_iff] theorem ub_w16_toUtf8_SW {v : Version} {s : List U16} :
    RunsOn false v (name% "toUtf8") [.wstr16 s] .ub ↔ W16.toUtf8WS s = .ub :=
  runsOn_ub_iff (C67_w16_toUtf8_SW v s)

@[text_iff] theorem returns_w16_toUtf16_PW {v : Version} {p : Ptr U16} {r : List U16} :
    ReturnsOn false v (name% "toUtf16") [.wptr16 p] (.str16 r) ↔ W16.toUtf16W (Unicode.charClass v) p = .ok r :=
  returnsOn_iff (C67_w16_toUtf16_PW v p) (fun h => by injection h)

@[text_iff] theorem ub_w16_toUtf16_PW {v : Version} {p : Ptr U16} :
    RunsOn false v (name% "toUtf16") [.wptr16 p] .ub ↔ W16.toUtf16W (Unicode.charClass v) p = .ub :=
  runsOn_ub_iff (C67_w16_toUtf16_PW v p)

@[text_iff] theorem returns_w16_toUtf16_SW {v : Version} {s : List U16} {r : List U16} :
    ReturnsOn false v (name% "toUtf16") [.wstr16 s] (.str16 r) ↔ W16.toUtf16WS (Unicode.charClass v) s = .ok r :=
  returnsOn_iff (C67_w16_toUtf16_SW v s) (fun h => by injection h)

@[text_iff] theorem ub_w16_toUtf16_SW {v : Version} {s : List U16} :
    RunsOn false v (name% "toUtf16") [.wstr16 s] .ub ↔ W16.toUtf16WS (Unicode.charClass v) s = .ub :=
  runsOn_ub_iff (C67_w16_toUtf16_SW v s)

@[text_iff] theorem returns_w16_toUcs2_PW {v : Version} {p : Ptr U16} {r : List U16} :
    ReturnsOn false v (name% "toUcs2") [.wptr16 p] (.str16 r) ↔ W16.toUcs2W (Unicode.charClass v) p = .ok r :=
  returnsOn_iff (C67_w16_toUcs2_PW v p) (fun h => by injection h)

@[text_iff] theorem ub_w16_toUcs2_PW {v : Version} {p : Ptr U16} :
    RunsOn false v (name% "toUcs2") [.wptr16 p] .ub ↔ W16.toUcs2W (Unicode.charClass v) p = .ub :=
  runsOn_ub_iff (C67_w16_toUcs2_PW v p)

@[text_iff] theorem returns_w16_toUcs2_SW {v : Version} {s : List U16} {r : List U16} :
    ReturnsOn false v (name% "toUcs2") [.wstr16 s] (.str16 r) ↔ W16.toUcs2WS (Unicode.charClass v) s = .ok r :=
  returnsOn_iff (C67_w16_toUcs2_SW v s) (fun h => by injection h)

@[text_iff] theorem ub_w16_toUcs2_SW {v : Version} {s : List U16} :
    RunsOn false v (name% "toUcs2") [.wstr16 s] .ub ↔ W16.toUcs2WS (Unicode.charClass v) s = .ub :=
  runsOn_ub_iff (C67_w16_toUcs2_SW v s)

@[text_iff] theorem returns_w16_toUcs4_PW {v : Version} {p : Ptr U16} {r : List U32} :
    ReturnsOn false v (name% "toUcs4") [.wptr16 p] (.str32 r) ↔ W16.toUcs4W p = .ok r :=
  returnsOn_iff (C67_w16_toUcs4_PW v p) (fun h => by injection h)

@[text_iff] theorem ub_w16_toUcs4_PW {v : Version} {p : Ptr U16} :
    RunsOn false v (name% "toUcs4") [.wptr16 p] .ub ↔ W16.toUcs4W p = .ub :=
  runsOn_ub_iff (C67_w16_toUcs4_PW v p)

@[text_iff] theorem returns_w16_toUcs4_SW {v : Version} {s : List U16} {r : List U32} :
    ReturnsOn false v (name% "toUcs4") [.wstr16 s] (.str32 r) ↔ W16.toUcs4WS s = .ok r :=
  returnsOn_iff (C67_w16_toUcs4_SW v s) (fun h => by injection h)

@[text_iff] theorem ub_w16_toUcs4_SW {v : Version} {s : List U16} :
    RunsOn false v (name% "toUcs4") [.wstr16 s] .ub ↔ W16.toUcs4WS s = .ub :=
  runsOn_ub_iff (C67_w16_toUcs4_SW v s)

@[text_iff] theorem returns_w16_toWstring_P8 {v : Version} {p : Ptr Byte} {r : List U16} :
    ReturnsOn false v (name% "toWstring") [.ptr8 p] (.wstr16 r) ↔ W16.toWstring8 p = .ok r :=
  returnsOn_iff (C67_w16_toWstring_P8 v p) wstr16_injective

@[text_iff] theorem ub_w16_toWstring_P8 {v : Version} {p : Ptr Byte} :
    RunsOn false v (name% "toWstring") [.ptr8 p] .ub ↔ W16.toWstring8 p = .ub :=
  runsOn_ub_iff (C67_w16_toWstring_P8 v p)

@[text_iff] theorem returns_w16_toWstring_S8 {v : Version} {s : List Byte} {r : List U16} :
    ReturnsOn false v (name% "toWstring") [.str8 s] (.wstr16 r) ↔ W16.toWstring8S s = .ok r :=
  returnsOn_iff (C67_w16_toWstring_S8 v s) wstr16_injective

@[text_iff] theorem ub_w16_toWstring_S8 {v : Version} {s : List Byte} :
    RunsOn false v (name% "toWstring") [.str8 s] .ub ↔ W16.toWstring8S s = .ub :=
  runsOn_ub_iff (C67_w16_toWstring_S8 v s)

@[text_iff] theorem returns_w16_toWstring_P16 {v : Version} {p : Ptr U16} {r : List U16} :
    ReturnsOn false v (name% "toWstring") [.ptr16 p] (.wstr16 r) ↔ W16.toWstring16 (Unicode.charClass v) p = .ok r :=
  returnsOn_iff (C67_w16_toWstring_P16 v p) wstr16_injective

@[text_iff] theorem ub_w16_toWstring_P16 {v : Version} {p : Ptr U16} :
    RunsOn false v (name% "toWstring") [.ptr16 p] .ub ↔ W16.toWstring16 (Unicode.charClass v) p = .ub :=
  runsOn_ub_iff (C67_w16_toWstring_P16 v p)

@[text_iff] theorem returns_w16_toWstring_S16 {v : Version} {s : List U16} {r : List U16} :
    ReturnsOn false v (name% "toWstring") [.str16 s] (.wstr16 r) ↔ W16.toWstring16S (Unicode.charClass v) s = .ok r :=
  returnsOn_iff (C67_w16_toWstring_S16 v s) wstr16_injective

@[text_iff] theorem ub_w16_toWstring_S16 {v : Version} {s : List U16} :
    RunsOn false v (name% "toWstring") [.str16 s] .ub ↔ W16.toWstring16S (Unicode.charClass v) s = .ub :=
  runsOn_ub_iff (C67_w16_toWstring_S16 v s)

@[text_iff] theorem returns_w16_toWstring_P32 {v : Version} {p : Ptr U32} {r : List U16} :
    ReturnsOn false v (name% "toWstring") [.ptr32 p] (.wstr16 r) ↔ W16.toWstring32 p = .ok r :=
  returnsOn_iff (C67_w16_toWstring_P32 v p) wstr16_injective

@[text_iff] theorem ub_w16_toWstring_P32 {v : Version} {p : Ptr U32} :
    RunsOn false v (name% "toWstring") [.ptr32 p] .ub ↔ W16.toWstring32 p = .ub :=
  runsOn_ub_iff (C67_w16_toWstring_P32 v p)

@[text_iff] theorem returns_w16_toWstring_S32 {v : Version} {s : List U32} {r : List U16} :
    ReturnsOn false v (name% "toWstring") [.str32 s] (.wstr16 r) ↔ W16.toWstring32S s = .ok r :=
  returnsOn_iff (C67_w16_toWstring_S32 v s) wstr16_injective

@[text_iff] theorem ub_w16_toWstring_S32 {v : Version} {s : List U32} :
    RunsOn false v (name% "toWstring") [.str32 s] .ub ↔ W16.toWstring32S s = .ub :=
  runsOn_ub_iff (C67_w16_toWstring_S32 v s)

@[text_iff] theorem returns_w32_isUtf8_PW {v : Version} {p : Ptr U32} {r : Bool} :
    ReturnsOn true v (name% "isUtf8") [.wptr p] (.bool r) ↔ W32.isUtf8W (Unicode.charClass v) p = .ok r :=
  returnsOn_iff (C67_w32_isUtf8_PW v p) (fun h => by injection h)

@[text_iff] theorem ub_w32_isUtf8_PW {v : Version} {p : Ptr U32} :
    RunsOn true v (name% "isUtf8") [.wptr p] .ub ↔ W32.isUtf8W (Unicode.charClass v) p = .ub :=
  runsOn_ub_iff (C67_w32_isUtf8_PW v p)

@[text_iff] theorem returns_w32_isUtf8_SW {v : Version} {s : List U32} {r : Bool} :
    ReturnsOn true v (name% "isUtf8") [.wstr s] (.bool r) ↔ W32.isUtf8WS (Unicode.charClass v) s = .ok r :=
  returnsOn_iff (C67_w32_isUtf8_SW v s) (fun h => by injection h)

@[text_iff] theorem ub_w32_isUtf8_SW {v : Version} {s : List U32} :
    RunsOn true v (name% "isUtf8") [.wstr s] .ub ↔ W32.isUtf8WS (Unicode.charClass v) s = .ub :=
  runsOn_ub_iff (C67_w32_isUtf8_SW v s)

@[text_iff] theorem returns_w32_isUtf16_PW {v : Version} {p : Ptr U32} {r : Bool} :
    ReturnsOn true v (name% "isUtf16") [.wptr p] (.bool r) ↔ W32.isUtf16W (Unicode.charClass v) p = .ok r :=
  returnsOn_iff (C67_w32_isUtf16_PW v p) (fun h => by injection h)

@[text_iff] theorem ub_w32_isUtf16_PW {v : Version} {p : Ptr U32} :
    RunsOn true v (name% "isUtf16") [.wptr p] .ub ↔ W32.isUtf16W (Unicode.charClass v) p = .ub :=
  runsOn_ub_iff (C67_w32_isUtf16_PW v p)

@[text_iff] theorem returns_w32_isUtf16_SW {v : Version} {s : List U32} {r : Bool} :
    ReturnsOn true v (name% "isUtf16") [.wstr s] (.bool r) ↔ W32.isUtf16WS (Unicode.charClass v) s = .ok r :=
  returnsOn_iff (C67_w32_isUtf16_SW v s) (fun h => by injection h)

@[text_iff] theorem ub_w32_isUtf16_SW {v : Version} {s : List U32} :
    RunsOn true v (name% "isUtf16") [.wstr s] .ub ↔ W32.isUtf16WS (Unicode.charClass v) s = .ub :=
  runsOn_ub_iff (C67_w32_isUtf16_SW v s)

@[text_iff] theorem returns_w32_isUcs2_PW {v : Version} {p : Ptr U32} {r : Bool} :
    ReturnsOn true v (name% "isUcs2") [.wptr p] (.bool r) ↔ W32.isUcs2W (Unicode.charClass v) p = .ok r :=
  returnsOn_iff (C67_w32_isUcs2_PW v p) (fun h => by injection h)

@[text_iff] theorem ub_w32_isUcs2_PW {v : Version} {p : Ptr U32} :
    RunsOn true v (name% "isUcs2") [.wptr p] .ub ↔ W32.isUcs2W (Unicode.charClass v) p = .ub :=
  runsOn_ub_iff (C67_w32_isUcs2_PW v p)

@[text_iff] theorem returns_w32_isUcs2_SW {v : Version} {s : List U32} {r : Bool} :
    ReturnsOn true v (name% "isUcs2") [.wstr s] (.bool r) ↔ W32.isUcs2WS (Unicode.charClass v) s = .ok r :=
  returnsOn_iff (C67_w32_isUcs2_SW v s) (fun h => by injection h)

@[text_iff] theorem ub_w32_isUcs2_SW {v : Version} {s : List U32} :
    RunsOn true v (name% "isUcs2") [.wstr s] .ub ↔ W32.isUcs2WS (Unicode.charClass v) s = .ub :=
  runsOn_ub_iff (C67_w32_isUcs2_SW v s)

@[text_iff] theorem returns_w32_isUcs4_PW {v : Version} {p : Ptr U32} {r : Bool} :
    ReturnsOn true v (name% "isUcs4") [.wptr p] (.bool r) ↔ W32.isUcs4W (Unicode.charClass v) p = .ok r :=
  returnsOn_iff (C67_w32_isUcs4_PW v p) (fun h => by injection h)

@[text_iff] theorem ub_w32_isUcs4_PW {v : Version} {p : Ptr U32} :
    RunsOn true v (name% "isUcs4") [.wptr p] .ub ↔ W32.isUcs4W (Unicode.charClass v) p = .ub :=
  runsOn_ub_iff (C67_w32_isUcs4_PW v p)

@[text_iff] theorem returns_w32_isUcs4_SW {v : Version} {s : List U32} {r : Bool} :
    ReturnsOn true v (name% "isUcs4") [.wstr s] (.bool r) ↔ W32.isUcs4WS (Unicode.charClass v) s = .ok r :=
  returnsOn_iff (C67_w32_isUcs4_SW v s) (fun h => by injection h)

@[text_iff] theorem ub_w32_isUcs4_SW {v : Version} {s : List U32} :
    RunsOn true v (name% "isUcs4") [.wstr s] .ub ↔ W32.isUcs4WS (Unicode.charClass v) s = .ub :=
  runsOn_ub_iff (C67_w32_isUcs4_SW v s)

@[text_iff] theorem returns_w32_isWstring_P8 {v : Version} {p : Ptr Byte} {r : Bool} :
    ReturnsOn true v (name% "isWstring") [.ptr8 p] (.bool r) ↔ W32.isWstring8 (Unicode.charClass v) p = .ok r :=
  returnsOn_iff (C67_w32_isWstring_P8 v p) (fun h => by injection h)

@[text_iff] theorem ub_w32_isWstring_P8 {v : Version} {p : Ptr Byte} :
    RunsOn true v (name% "isWstring") [.ptr8 p] .ub ↔ W32.isWstring8 (Unicode.charClass v) p = .ub :=
  runsOn_ub_iff (C67_w32_isWstring_P8 v p)

@[text_iff] theorem returns_w32_isWstring_S8 {v : Version} {s : List Byte} {r : Bool} :
    ReturnsOn true v (name% "isWstring") [.str8 s] (.bool r) ↔ W32.isWstring8S (Unicode.charClass v) s = .ok r :=
  returnsOn_iff (C67_w32_isWstring_S8 v s) (fun h => by injection h)

@[text_iff] theorem ub_w32_isWstring_S8 {v : Version} {s : List Byte} :
    RunsOn true v (name% "isWstring") [.str8 s] .ub ↔ W32.isWstring8S (Unicode.charClass v) s = .ub :=
  runsOn_ub_iff (C67_w32_isWstring_S8 v s)

@[text_iff] theorem returns_w32_isWstring_P16 {v : Version} {p : Ptr U16} {r : Bool} :
    ReturnsOn true v (name% "isWstring") [.ptr16 p] (.bool r) ↔ W32.isWstring16 (Unicode.charClass v) p = .ok r :=
  returnsOn_iff (C67_w32_isWstring_P16 v p) (fun h => by injection h)

@[text_iff] theorem ub_w32_isWstring_P16 {v : Version} {p : Ptr U16} :
    RunsOn true v (name% "isWstring") [.ptr16 p] .ub ↔ W32.isWstring16 (Unicode.charClass v) p = .ub :=
  runsOn_ub_iff (C67_w32_isWstring_P16 v p)

@[text_iff] theorem returns_w32_isWstring_S16 {v : Version} {s : List U16} {r : Bool} :
    ReturnsOn true v (name% "isWstring") [.str16 s] (.bool r) ↔ W32.isWstring16S (Unicode.charClass v) s = .ok r :=
  returnsOn_iff (C67_w32_isWstring_S16 v s) (fun h => by injection h)

@[text_iff] theorem ub_w32_isWstring_S16 {v : Version} {s : List U16} :
    RunsOn true v (name% "isWstring") [.str16 s] .ub ↔ W32.isWstring16S (Unicode.charClass v) s = .ub :=
  runsOn_ub_iff (C67_w32_isWstring_S16 v s)

@[text_iff] theorem returns_w32_isWstring_P32 {v : Version} {p : Ptr U32} {r : Bool} :
    ReturnsOn true v (name% "isWstring") [.ptr32 p] (.bool r) ↔ W32.isWstring32 (Unicode.charClass v) p = .ok r :=
  returnsOn_iff (C67_w32_isWstring_P32 v p) (fun h => by injection h)

@[text_iff] theorem ub_w32_isWstring_P32 {v : Version} {p : Ptr U32} :
    RunsOn true v (name% "isWstring") [.ptr32 p] .ub ↔ W32.isWstring32 (Unicode.charClass v) p = .ub :=
  runsOn_ub_iff (C67_w32_isWstring_P32 v p)

@[text_iff] theorem returns_w32_isWstring_S32 {v : Version} {s : List U32} {r : Bool} :
    ReturnsOn true v (name% "isWstring") [.str32 s] (.bool r) ↔ W32.isWstring32S (Unicode.charClass v) s = .ok r :=
  returnsOn_iff (C67_w32_isWstring_S32 v s) (fun h => by injection h)

@[text_iff] theorem ub_w32_isWstring_S32 {v : Version} {s : List U32} :
    RunsOn true v (name% "isWstring") [.str32 s] .ub ↔ W32.isWstring32S (Unicode.charClass v) s = .ub :=
  runsOn_ub_iff (C67_w32_isWstring_S32 v s)

@[text_iff] theorem returns_w32_toUtf8_PW {v : Version} {p : Ptr U32} {r : List Byte} :
    ReturnsOn true v (name% "toUtf8") [.wptr p] (.str8 r) ↔ W32.toUtf8W p = .ok r :=
  returnsOn_iff (C67_w32_toUtf8_PW v p) (fun h => by injection h)

@[text_iff] theorem ub_w32_toUtf8_PW {v : Version} {p : Ptr U32} :
    RunsOn true v (name% "toUtf8") [.wptr p] .ub ↔ W32.toUtf8W p = .ub :=
  runsOn_ub_iff (C67_w32_toUtf8_PW v p)

@[text_iff] theorem returns_w32_toUtf8_SW {v : Version} {s : List U32} {r : List Byte} :
    ReturnsOn true v (name% "toUtf8") [.wstr s] (.str8 r) ↔ W32.toUtf8WS s = .ok r :=
  returnsOn_iff (C67_w32_toUtf8_SW v s) (fun h => by injection h)

@[text_iff] theorem ub_w32_toUtf8_SW {v : Version} {s : List U32} :
    RunsOn true v (name% "toUtf8") [.wstr s] .ub ↔ W32.toUtf8WS s = .ub :=
  runsOn_ub_iff (C67_w32_toUtf8_SW v s)

@[text_iff] theorem returns_w32_toUtf16_PW {v : Version} {p : Ptr U32} {r : List U16} :
    ReturnsOn true v (name% "toUtf16") [.wptr p] (.str16 r) ↔ W32.toUtf16W p = .ok r :=
  returnsOn_iff (C67_w32_toUtf16_PW v p) (fun h => by injection h)

@[text_iff] theorem ub_w32_toUtf16_PW {v : Version} {p : Ptr U32} :
    RunsOn true v (name% "toUtf16") [.wptr p] .ub ↔ W32.toUtf16W p = .ub :=
  runsOn_ub_iff (C67_w32_toUtf16_PW v p)

@[text_iff] theorem returns_w32_toUtf16_SW {v : Version} {s : List U32} {r : List U16} :
    ReturnsOn true v (name% "toUtf16") [.wstr s] (.str16 r) ↔ W32.toUtf16WS s = .ok r :=
  returnsOn_iff (C67_w32_toUtf16_SW v s) (fun h => by injection h)

@[text_iff] theorem ub_w32_toUtf16_SW {v : Version} {s : List U32} :
    RunsOn true v (name% "toUtf16") [.wstr s] .ub ↔ W32.toUtf16WS s = .ub :=
  runsOn_ub_iff (C67_w32_toUtf16_SW v s)

@[text_iff] theorem returns_w32_toUcs2_PW {v : Version} {p : Ptr U32} {r : List U16} :
    ReturnsOn true v (name% "toUcs2") [.wptr p] (.str16 r) ↔ W32.toUcs2W p = .ok r :=
  returnsOn_iff (C67_w32_toUcs2_PW v p) (fun h => by injection h)

@[text_iff] theorem ub_w32_toUcs2_PW {v : Version} {p : Ptr U32} :
    RunsOn true v (name% "toUcs2") [.wptr p] .ub ↔ W32.toUcs2W p = .ub :=
  runsOn_ub_iff (C67_w32_toUcs2_PW v p)

@[text_iff] theorem returns_w32_toUcs2_SW {v : Version} {s : List U32} {r : List U16} :
    ReturnsOn true v (name% "toUcs2") [.wstr s] (.str16 r) ↔ W32.toUcs2WS s = .ok r :=
  returnsOn_iff (C67_w32_toUcs2_SW v s) (fun h => by injection h)

@[text_iff] theorem ub_w32_toUcs2_SW {v : Version} {s : List U32} :
    RunsOn true v (name% "toUcs2") [.wstr s] .ub ↔ W32.toUcs2WS s = .ub :=
  runsOn_ub_iff (C67_w32_toUcs2_SW v s)

@[text_iff] theorem returns_w32_toUcs4_PW {v : Version} {p : Ptr U32} {r : List U32} :
    ReturnsOn true v (name% "toUcs4") [.wptr p] (.str32 r) ↔ W32.toUcs4W (Unicode.charClass v) p = .ok r :=
  returnsOn_iff (C67_w32_toUcs4_PW v p) (fun h => by injection h)

@[text_iff] theorem ub_w32_toUcs4_PW {v : Version} {p : Ptr U32} :
    RunsOn true v (name% "toUcs4") [.wptr p] .ub ↔ W32.toUcs4W (Unicode.charClass v) p = .ub :=
  runsOn_ub_iff (C67_w32_toUcs4_PW v p)

@[text_iff] theorem returns_w32_toUcs4_SW {v : Version} {s : List U32} {r : List U32} :
    ReturnsOn true v (name% "toUcs4") [.wstr s] (.str32 r) ↔ W32.toUcs4WS (Unicode.charClass v) s = .ok r :=
  returnsOn_iff (C67_w32_toUcs4_SW v s) (fun h => by injection h)

@[text_iff] theorem ub_w32_toUcs4_SW {v : Version} {s : List U32} :
    RunsOn true v (name% "toUcs4") [.wstr s] .ub ↔ W32.toUcs4WS (Unicode.charClass v) s = .ub :=
  runsOn_ub_iff (C67_w32_toUcs4_SW v s)

@[text_iff] theorem returns_w32_toWstring_P8 {v : Version} {p : Ptr Byte} {r : List U32} :
    ReturnsOn true v (name% "toWstring") [.ptr8 p] (.wstr r) ↔ W32.toWstring8 p = .ok r :=
  returnsOn_iff (C67_w32_toWstring_P8 v p) (fun h => by injection h)

@[text_iff] theorem ub_w32_toWstring_P8 {v : Version} {p : Ptr Byte} :
    RunsOn true v (name% "toWstring") [.ptr8 p] .ub ↔ W32.toWstring8 p = .ub :=
  runsOn_ub_iff (C67_w32_toWstring_P8 v p)

@[text_iff] theorem returns_w32_toWstring_S8 {v : Version} {s : List Byte} {r : List U32} :
    ReturnsOn true v (name% "toWstring") [.str8 s] (.wstr r) ↔ W32.toWstring8S s = .ok r :=
  returnsOn_iff (C67_w32_toWstring_S8 v s) (fun h => by injection h)

@[text_iff] theorem ub_w32_toWstring_S8 {v : Version} {s : List Byte} :
    RunsOn true v (name% "toWstring") [.str8 s] .ub ↔ W32.toWstring8S s = .ub :=
  runsOn_ub_iff (C67_w32_toWstring_S8 v s)

@[text_iff] theorem returns_w32_toWstring_P16 {v : Version} {p : Ptr U16} {r : List U32} :
    ReturnsOn true v (name% "toWstring") [.ptr16 p] (.wstr r) ↔ W32.toWstring16 p = .ok r :=
  returnsOn_iff (C67_w32_toWstring_P16 v p) (fun h => by injection h)

@[text_iff] theorem ub_w32_toWstring_P16 {v : Version} {p : Ptr U16} :
    RunsOn true v (name% "toWstring") [.ptr16 p] .ub ↔ W32.toWstring16 p = .ub :=
  runsOn_ub_iff (C67_w32_toWstring_P16 v p)

@[text_iff] theorem returns_w32_toWstring_S16 {v : Version} {s : List U16} {r : List U32} :
    ReturnsOn true v (name% "toWstring") [.str16 s] (.wstr r) ↔ W32.toWstring16S s = .ok r :=
  returnsOn_iff (C67_w32_toWstring_S16 v s) (fun h => by injection h)

@[text_iff] theorem ub_w32_toWstring_S16 {v : Version} {s : List U16} :
    RunsOn true v (name% "toWstring") [.str16 s] .ub ↔ W32.toWstring16S s = .ub :=
  runsOn_ub_iff (C67_w32_toWstring_S16 v s)

@[text_iff] theorem returns_w32_toWstring_P32 {v : Version} {p : Ptr U32} {r : List U32} :
    ReturnsOn true v (name% "toWstring") [.ptr32 p] (.wstr r) ↔ W32.toWstring32 (Unicode.charClass v) p = .ok r :=
  returnsOn_iff (C67_w32_toWstring_P32 v p) (fun h => by injection h)

@[text_iff] theorem ub_w32_toWstring_P32 {v : Version} {p : Ptr U32} :
    RunsOn true v (name% "toWstring") [.ptr32 p] .ub ↔ W32.toWstring32 (Unicode.charClass v) p = .ub :=
  runsOn_ub_iff (C67_w32_toWstring_P32 v p)

@[text_iff] theorem returns_w32_toWstring_S32 {v : Version} {s : List U32} {r : List U32} :
    ReturnsOn true v (name% "toWstring") [.str32 s] (.wstr r) ↔ W32.toWstring32S (Unicode.charClass v) s = .ok r :=
  returnsOn_iff (C67_w32_toWstring_S32 v s) (fun h => by injection h)

@[text_iff] theorem ub_w32_toWstring_S32 {v : Version} {s : List U32} :
    RunsOn true v (name% "toWstring") [.str32 s] .ub ↔ W32.toWstring32S (Unicode.charClass v) s = .ub :=
  runsOn_ub_iff (C67_w32_toWstring_S32 v s)

end Ansak.Props
