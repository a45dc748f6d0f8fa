import Verif.Spec.Early
import Verif.Props.TextMore
import Verif.Props.TextWide

/-! # The text of the library with any `supportedUnicodeVersion`

As in `Verif.Props.Text`, `Verif.Props.TextMore` and `Verif.Props.TextWide`, for any content of that string. -/

namespace Ansak.Cpp

open Spec (Arg enough unready Early EarlyOn EarlyChanges EarlyMember)

theorem unready_are (v : Version) (sc : Bool) (u : List Int) :
    (unready v sc u).Are sc (Unicode.charClass v) (Unicode.toLowerChar v) (Unicode.turkicToLowerChar v) :=
  let h := link_are v sc
  { h with }

theorem earlyOn_of {α : Type} {w : Bool} {v : Version} {name : Nat} {args : List Arg} {x : Res α} {f : α → Arg}
    {refs : List (Option Val)}
    (h : ∀ u sc n, enough args ≤ n →
      Sealed.real.call (Ast.program w u) (unready v sc u) sc n n (nat_lit 0) name (args.map (Arg.val sc)) .done =
        x.out fun a => .done ((f a).val sc) refs)
    (hr : ∀ r ∈ refs, r = none := by simp) :
    EarlyOn w v name args (x.map f) := by
  intro u sc n hn
  rw [callText_eq (X := unready v sc u) (s := u) rfl]
  have h := h u sc n hn
  cases x with
  | ok a => exact ⟨refs, h, hr⟩
  | ub => exact h

theorem early_of {α : Type} {v : Version} {name : Nat} {args : List Arg} {x : Res α} {f : α → Arg}
    {refs : List (Option Val)}
    (h : ∀ w u sc n, enough args ≤ n →
      Sealed.real.call (Ast.program w u) (unready v sc u) sc n n (nat_lit 0) name (args.map (Arg.val sc)) .done =
        x.out fun a => .done ((f a).val sc) refs)
    (hr : ∀ r ∈ refs, r = none := by simp) :
    Early v name args (x.map f) :=
  fun w => earlyOn_of (h w) hr

theorem earlyChanges_of {α : Type} {v : Version} {name : Nat} {victim : Arg} {args : List Arg} {x : Res α} {f : α → Arg}
    (h : ∀ w u sc n, enough (victim :: args) ≤ n →
      Sealed.real.call (Ast.program w u) (unready v sc u) sc n n (nat_lit 0) name
        ((victim :: args).map (Arg.val sc)) .done =
        x.out fun a => .done .void (some ((f a).val sc) :: args.map fun _ => none)) :
    EarlyChanges v name victim args (x.map f) := by
  intro w u sc n hn
  rw [callText_eq (X := unready v sc u) (s := u) rfl]
  have h := h w u sc n hn
  cases x with
  | ok a => exact h
  | ub => exact h

theorem earlyMember_of {v : Version} {name : Nat} {self self' : Pred} {args : List Arg} {result : Arg}
    (h : ∀ w u sc n, enough args ≤ n →
      Sealed.real.call (Ast.program w u) (unready v sc u) sc n n (name% "EncodingCheckPredicate") name
        (predVal self :: args.map (Arg.val sc)) .done =
      .done (result.val sc) (some (predVal self') :: args.map fun _ => none)) :
    EarlyMember v name self args result self' := by
  intro w u sc n hn
  rw [callText_eq (X := unready v sc u) (s := u) rfl]
  exact h w u sc n hn

end Ansak.Cpp

namespace Ansak.Props

open Cpp
open Spec (Arg enough unready Early EarlyOn EarlyChanges EarlyMember)

theorem earlyOn_of' {α : Type} {w : Bool} {v : Version} {name : Nat} {args : List Arg} {x : Res α} {f : α → Arg}
    {refs : List (Option Val)} {m : Nat} (vs : Bool → List Val) (g : Bool → α → Val) (hm : enough args = m)
    (hv : ∀ sc, args.map (Arg.val sc) = vs sc) (hg : ∀ sc a, (f a).val sc = g sc a)
    (h : ∀ u sc n, m ≤ n →
      Sealed.real.call (Ast.program w u) (unready v sc u) sc n n (nat_lit 0) name (vs sc) .done =
        x.out fun a => .done (g sc a) refs)
    (hr : ∀ r ∈ refs, r = none := by simp) : EarlyOn w v name args (x.map f) :=
  earlyOn_of (refs := refs) (hr := hr) fun u sc n hn => by
    rw [hv sc, funext fun a => congrArg (Out.done · refs) (hg sc a)]
    exact h u sc n (hm ▸ hn)

theorem early_isUtf8_S1 (v : Version) (s : List Byte) :
    Early v (name% "isUtf8") [.str8 s]
      ((isUtf8S1 (Unicode.charClass v) s).map .bool) :=
  early_of fun w u sc n hn => by linked isUtf8_S1 (E := Sealed.real) (d := d + 3) (unready_are v sc u) s (by fits)

theorem early_isUtf8_SR (v : Version) (s : List Byte) (t : Int) :
    Early v (name% "isUtf8") [.str8 s, .range t]
      ((isUtf8S (Unicode.charClass v) s t Pred.none).map .bool) :=
  early_of fun w u sc n hn => by linked isUtf8_SR (E := Sealed.real) (d := d + 3) (unready_are v sc u) s t (by fits)

theorem early_isUtf8_S2 (v : Version) (s : List Byte) (q : Pred) :
    Early v (name% "isUtf8") [.str8 s, .pred q]
      ((isUtf8S2 (Unicode.charClass v) s q).map .bool) :=
  early_of fun w u sc n hn => by linked isUtf8_S2 (E := Sealed.real) (d := d + 2) (unready_are v sc u) s q (by fits)

theorem early_isUtf8_S3 (v : Version) (s : List Byte) (t : Int) (q : Pred) :
    Early v (name% "isUtf8") [.str8 s, .range t, .pred q]
      ((isUtf8S (Unicode.charClass v) s t q).map .bool) :=
  early_of fun w u sc n hn => by linked isUtf8_S3 (E := Sealed.real) (d := d + 3) (unready_are v sc u) s t q (by fits)

theorem early_isUtf8_P1 (v : Version) (p : Ptr Byte) :
    Early v (name% "isUtf8") [.ptr8 p]
      ((isUtf8P1 (Unicode.charClass v) p).map .bool) :=
  early_of fun w u sc n hn => by linked isUtf8_P1 (E := Sealed.real) (d := d + 3) (unready_are v sc u) p (by fits)

theorem early_isUtf8_PR (v : Version) (p : Ptr Byte) (t : Int) :
    Early v (name% "isUtf8") [.ptr8 p, .range t]
      ((isUtf8 (Unicode.charClass v) p t Pred.none).map .bool) :=
  early_of fun w u sc n hn => by linked isUtf8_PR (E := Sealed.real) (d := d + 3) (unready_are v sc u) p t (by fits)

theorem early_isUtf8_P2 (v : Version) (p : Ptr Byte) (q : Pred) :
    Early v (name% "isUtf8") [.ptr8 p, .pred q]
      ((isUtf8P2 (Unicode.charClass v) p q).map .bool) :=
  early_of fun w u sc n hn => by linked isUtf8_P2 (E := Sealed.real) (d := d + 2) (unready_are v sc u) p q (by fits)

theorem early_isUtf8_P3 (v : Version) (p : Ptr Byte) (t : Int) (q : Pred) :
    Early v (name% "isUtf8") [.ptr8 p, .range t, .pred q]
      ((isUtf8 (Unicode.charClass v) p t q).map .bool) :=
  early_of fun w u sc n hn => by linked isUtf8_P3 (E := Sealed.real) (d := d + 3) (unready_are v sc u) p t q (by fits)

theorem early_isUtf8_L2 (v : Version) (p : Ptr Byte) (len : U32) :
    Early v (name% "isUtf8") [.ptr8 p, .uint len]
      ((isUtf8Len (Unicode.charClass v) p len Pred.none).map .bool) :=
  early_of fun w u sc n hn => by linked isUtf8_L2 (E := Sealed.real) (d := d + 3) (unready_are v sc u) p len (by fits)

theorem early_isUtf8_L3 (v : Version) (p : Ptr Byte) (len : U32) (q : Pred) :
    Early v (name% "isUtf8") [.ptr8 p, .uint len, .pred q]
      ((isUtf8Len (Unicode.charClass v) p len q).map .bool) :=
  early_of fun w u sc n hn => by linked isUtf8_L3 (E := Sealed.real) (d := d + 3) (unready_are v sc u) p len q (by fits)

theorem early_isUtf16_S1 (v : Version) (s : List U16) :
    Early v (name% "isUtf16") [.str16 s]
      ((isUtf16S1 (Unicode.charClass v) s).map .bool) :=
  early_of fun w u sc n hn => by linked isUtf16_S1 (E := Sealed.real) (d := d + 3) (unready_are v sc u) s (by fits)

theorem early_isUtf16_SR (v : Version) (s : List U16) (t : Int) :
    Early v (name% "isUtf16") [.str16 s, .range t]
      ((isUtf16S (Unicode.charClass v) s t Pred.none).map .bool) :=
  early_of fun w u sc n hn => by linked isUtf16_SR (E := Sealed.real) (d := d + 3) (unready_are v sc u) s t (by fits)

theorem early_isUtf16_S2 (v : Version) (s : List U16) (q : Pred) :
    Early v (name% "isUtf16") [.str16 s, .pred q]
      ((isUtf16S2 (Unicode.charClass v) s q).map .bool) :=
  early_of fun w u sc n hn => by linked isUtf16_S2 (E := Sealed.real) (d := d + 2) (unready_are v sc u) s q (by fits)

theorem early_isUtf16_S3 (v : Version) (s : List U16) (t : Int) (q : Pred) :
    Early v (name% "isUtf16") [.str16 s, .range t, .pred q]
      ((isUtf16S (Unicode.charClass v) s t q).map .bool) :=
  early_of fun w u sc n hn => by linked isUtf16_S3 (E := Sealed.real) (d := d + 3) (unready_are v sc u) s t q (by fits)

theorem early_isUtf16_P1 (v : Version) (p : Ptr U16) :
    Early v (name% "isUtf16") [.ptr16 p]
      ((isUtf16P1 (Unicode.charClass v) p).map .bool) :=
  early_of fun w u sc n hn => by linked isUtf16_P1 (E := Sealed.real) (d := d + 3) (unready_are v sc u) p (by fits)

theorem early_isUtf16_PR (v : Version) (p : Ptr U16) (t : Int) :
    Early v (name% "isUtf16") [.ptr16 p, .range t]
      ((isUtf16 (Unicode.charClass v) p t Pred.none).map .bool) :=
  early_of fun w u sc n hn => by linked isUtf16_PR (E := Sealed.real) (d := d + 3) (unready_are v sc u) p t (by fits)

theorem early_isUtf16_P2 (v : Version) (p : Ptr U16) (q : Pred) :
    Early v (name% "isUtf16") [.ptr16 p, .pred q]
      ((isUtf16P2 (Unicode.charClass v) p q).map .bool) :=
  early_of fun w u sc n hn => by linked isUtf16_P2 (E := Sealed.real) (d := d + 2) (unready_are v sc u) p q (by fits)

theorem early_isUtf16_P3 (v : Version) (p : Ptr U16) (t : Int) (q : Pred) :
    Early v (name% "isUtf16") [.ptr16 p, .range t, .pred q]
      ((isUtf16 (Unicode.charClass v) p t q).map .bool) :=
  early_of fun w u sc n hn => by linked isUtf16_core (E := Sealed.real) (d := d + 4) (unready_are v sc u) p t q (by fits)

theorem early_isUcs2_S1 (v : Version) (s : List U16) :
    Early v (name% "isUcs2") [.str16 s]
      ((isUcs2S1 (Unicode.charClass v) s).map .bool) :=
  early_of fun w u sc n hn => by linked isUcs2_S1 (E := Sealed.real) (d := d + 3) (unready_are v sc u) s (by fits)

theorem early_isUcs2_SR (v : Version) (s : List U16) (t : Int) :
    Early v (name% "isUcs2") [.str16 s, .range t]
      ((isUcs2S (Unicode.charClass v) s t Pred.none).map .bool) :=
  early_of fun w u sc n hn => by linked isUcs2_SR (E := Sealed.real) (d := d + 3) (unready_are v sc u) s t (by fits)

theorem early_isUcs2_S2 (v : Version) (s : List U16) (q : Pred) :
    Early v (name% "isUcs2") [.str16 s, .pred q]
      ((isUcs2S2 (Unicode.charClass v) s q).map .bool) :=
  early_of fun w u sc n hn => by linked isUcs2_S2 (E := Sealed.real) (d := d + 2) (unready_are v sc u) s q (by fits)

theorem early_isUcs2_S3 (v : Version) (s : List U16) (t : Int) (q : Pred) :
    Early v (name% "isUcs2") [.str16 s, .range t, .pred q]
      ((isUcs2S (Unicode.charClass v) s t q).map .bool) :=
  early_of fun w u sc n hn => by linked isUcs2_S3 (E := Sealed.real) (d := d + 3) (unready_are v sc u) s t q (by fits)

theorem early_isUcs2_P1 (v : Version) (p : Ptr U16) :
    Early v (name% "isUcs2") [.ptr16 p]
      ((isUcs2P1 (Unicode.charClass v) p).map .bool) :=
  early_of fun w u sc n hn => by linked isUcs2_P1 (E := Sealed.real) (d := d + 3) (unready_are v sc u) p (by fits)

theorem early_isUcs2_PR (v : Version) (p : Ptr U16) (t : Int) :
    Early v (name% "isUcs2") [.ptr16 p, .range t]
      ((isUcs2 (Unicode.charClass v) p t Pred.none).map .bool) :=
  early_of fun w u sc n hn => by linked isUcs2_PR (E := Sealed.real) (d := d + 3) (unready_are v sc u) p t (by fits)

theorem early_isUcs2_P2 (v : Version) (p : Ptr U16) (q : Pred) :
    Early v (name% "isUcs2") [.ptr16 p, .pred q]
      ((isUcs2P2 (Unicode.charClass v) p q).map .bool) :=
  early_of fun w u sc n hn => by linked isUcs2_P2 (E := Sealed.real) (d := d + 2) (unready_are v sc u) p q (by fits)

theorem early_isUcs2_P3 (v : Version) (p : Ptr U16) (t : Int) (q : Pred) :
    Early v (name% "isUcs2") [.ptr16 p, .range t, .pred q]
      ((isUcs2 (Unicode.charClass v) p t q).map .bool) :=
  early_of fun w u sc n hn => by linked isUcs2_core (E := Sealed.real) (d := d + 4) (unready_are v sc u) p t q (by fits)

theorem early_isUcs4_S1 (v : Version) (s : List U32) :
    Early v (name% "isUcs4") [.str32 s]
      ((isUcs4S1 (Unicode.charClass v) s).map .bool) :=
  early_of fun w u sc n hn => by linked isUcs4_S1 (E := Sealed.real) (d := d + 3) (unready_are v sc u) s (by fits)

theorem early_isUcs4_SR (v : Version) (s : List U32) (t : Int) :
    Early v (name% "isUcs4") [.str32 s, .range t]
      ((isUcs4S (Unicode.charClass v) s t Pred.none).map .bool) :=
  early_of fun w u sc n hn => by linked isUcs4_SR (E := Sealed.real) (d := d + 3) (unready_are v sc u) s t (by fits)

theorem early_isUcs4_S2 (v : Version) (s : List U32) (q : Pred) :
    Early v (name% "isUcs4") [.str32 s, .pred q]
      ((isUcs4S2 (Unicode.charClass v) s q).map .bool) :=
  early_of fun w u sc n hn => by linked isUcs4_S2 (E := Sealed.real) (d := d + 2) (unready_are v sc u) s q (by fits)

theorem early_isUcs4_S3 (v : Version) (s : List U32) (t : Int) (q : Pred) :
    Early v (name% "isUcs4") [.str32 s, .range t, .pred q]
      ((isUcs4S (Unicode.charClass v) s t q).map .bool) :=
  early_of fun w u sc n hn => by linked isUcs4_S3 (E := Sealed.real) (d := d + 3) (unready_are v sc u) s t q (by fits)

theorem early_isUcs4_P1 (v : Version) (p : Ptr U32) :
    Early v (name% "isUcs4") [.ptr32 p]
      ((isUcs4P1 (Unicode.charClass v) p).map .bool) :=
  early_of fun w u sc n hn => by linked isUcs4_P1 (E := Sealed.real) (d := d + 3) (unready_are v sc u) p (by fits)

theorem early_isUcs4_PR (v : Version) (p : Ptr U32) (t : Int) :
    Early v (name% "isUcs4") [.ptr32 p, .range t]
      ((isUcs4 (Unicode.charClass v) p t Pred.none).map .bool) :=
  early_of fun w u sc n hn => by linked isUcs4_PR (E := Sealed.real) (d := d + 3) (unready_are v sc u) p t (by fits)

theorem early_isUcs4_P2 (v : Version) (p : Ptr U32) (q : Pred) :
    Early v (name% "isUcs4") [.ptr32 p, .pred q]
      ((isUcs4P2 (Unicode.charClass v) p q).map .bool) :=
  early_of fun w u sc n hn => by linked isUcs4_P2 (E := Sealed.real) (d := d + 2) (unready_are v sc u) p q (by fits)

theorem early_isUcs4_P3 (v : Version) (p : Ptr U32) (t : Int) (q : Pred) :
    Early v (name% "isUcs4") [.ptr32 p, .range t, .pred q]
      ((isUcs4 (Unicode.charClass v) p t q).map .bool) :=
  early_of fun w u sc n hn => by linked isUcs4_core (E := Sealed.real) (d := d + 4) (unready_are v sc u) p t q (by fits)

theorem early_toUtf8_S16 (v : Version) (s : List U16) :
    Early v (name% "toUtf8") [.str16 s]
      ((toUtf8From16S s).map .str8) :=
  early_of fun w u sc n hn => by linked toUtf8_S16 (E := Sealed.real) (d := d + 3) s (by fits)

theorem early_toUtf8_P16 (v : Version) (p : Ptr U16) :
    Early v (name% "toUtf8") [.ptr16 p]
      ((toUtf8From16 p).map .str8) :=
  early_of fun w u sc n hn => by linked toUtf8_16_core (E := Sealed.real) (d := d + 4) p (by fits)

theorem early_toUtf8_S32 (v : Version) (s : List U32) :
    Early v (name% "toUtf8") [.str32 s]
      ((toUtf8From32S s).map .str8) :=
  early_of fun w u sc n hn => by linked toUtf8_S32 (E := Sealed.real) (d := d + 3) s (by fits)

theorem early_toUtf8_P32 (v : Version) (p : Ptr U32) :
    Early v (name% "toUtf8") [.ptr32 p]
      ((toUtf8From32 p).map .str8) :=
  early_of fun w u sc n hn => by linked toUtf8_32_core (E := Sealed.real) (d := d + 4) p (by fits)

theorem early_toUcs2_S8 (v : Version) (s : List Byte) :
    Early v (name% "toUcs2") [.str8 s]
      ((toUcs2From8S s).map .str16) :=
  early_of fun w u sc n hn => by linked toUcs2_S8 (E := Sealed.real) (d := d + 3) s (by fits)

theorem early_toUcs2_P8 (v : Version) (p : Ptr Byte) :
    Early v (name% "toUcs2") [.ptr8 p]
      ((toUcs2From8 p).map .str16) :=
  early_of fun w u sc n hn => by linked toUcs2_8_core (E := Sealed.real) (d := d + 4) p (by fits)

theorem early_toUcs2_S32 (v : Version) (s : List U32) :
    Early v (name% "toUcs2") [.str32 s]
      ((toUcs2From32S s).map .str16) :=
  early_of fun w u sc n hn => by linked toUcs2_S32 (E := Sealed.real) (d := d + 3) s (by fits)

theorem early_toUcs2_P32 (v : Version) (p : Ptr U32) :
    Early v (name% "toUcs2") [.ptr32 p]
      ((toUcs2From32 p).map .str16) :=
  early_of fun w u sc n hn => by linked toUcs2_32_core (E := Sealed.real) (d := d + 4) p (by fits)

theorem early_toUtf16_S8 (v : Version) (s : List Byte) :
    Early v (name% "toUtf16") [.str8 s]
      ((toUtf16From8S s).map .str16) :=
  early_of fun w u sc n hn => by linked toUtf16_S8 (E := Sealed.real) (d := d + 3) s (by fits)

theorem early_toUtf16_P8 (v : Version) (p : Ptr Byte) :
    Early v (name% "toUtf16") [.ptr8 p]
      ((toUtf16From8 p).map .str16) :=
  early_of fun w u sc n hn => by linked toUtf16_8_core (E := Sealed.real) (d := d + 4) p (by fits)

theorem early_toUtf16_S32 (v : Version) (s : List U32) :
    Early v (name% "toUtf16") [.str32 s]
      ((toUtf16From32S s).map .str16) :=
  early_of fun w u sc n hn => by linked toUtf16_S32 (E := Sealed.real) (d := d + 3) s (by fits)

theorem early_toUtf16_P32 (v : Version) (p : Ptr U32) :
    Early v (name% "toUtf16") [.ptr32 p]
      ((toUtf16From32 p).map .str16) :=
  early_of fun w u sc n hn => by linked toUtf16_32_core (E := Sealed.real) (d := d + 4) p (by fits)

theorem early_toUcs4_S8 (v : Version) (s : List Byte) :
    Early v (name% "toUcs4") [.str8 s]
      ((toUcs4From8S s).map .str32) :=
  early_of fun w u sc n hn => by linked toUcs4_S8 (E := Sealed.real) (d := d + 3) s (by fits)

theorem early_toUcs4_P8 (v : Version) (p : Ptr Byte) :
    Early v (name% "toUcs4") [.ptr8 p]
      ((toUcs4From8 p).map .str32) :=
  early_of fun w u sc n hn => by linked toUcs4_8_core (E := Sealed.real) (d := d + 4) p (by fits)

theorem early_toUcs4_S16 (v : Version) (s : List U16) :
    Early v (name% "toUcs4") [.str16 s]
      ((toUcs4From16S s).map .str32) :=
  early_of fun w u sc n hn => by linked toUcs4_S16 (E := Sealed.real) (d := d + 3) s (by fits)

theorem early_toUcs4_P16 (v : Version) (p : Ptr U16) :
    Early v (name% "toUcs4") [.ptr16 p]
      ((toUcs4From16 p).map .str32) :=
  early_of fun w u sc n hn => by linked toUcs4_16_core (E := Sealed.real) (d := d + 4) p (by fits)

theorem early_toUtf8_page (v : Version) (p : Ptr Byte) (t : Int) :
    Early v (name% "toUtf8") [.ptr8 p, .page t]
      ((toUtf8FromPage p t).map .str8) :=
  early_of fun w u sc n hn => by linked toUtf8_page_core (E := Sealed.real) (d := d + 4) p t (by fits)

theorem early_unicodeLength_S8 (v : Version) (s : List Byte) :
    Early v (name% "unicodeLength") [.str8 s]
      ((unicodeLength8S s).map .uint) :=
  early_of fun w u sc n hn => by linked unicodeLength_S8 (E := Sealed.real) (d := d + 3) s (by fits)

theorem early_unicodeLength_P8 (v : Version) (p : Ptr Byte) :
    Early v (name% "unicodeLength") [.ptr8 p]
      ((unicodeLength8 p 0).map .uint) :=
  early_of fun w u sc n hn => by linked unicodeLength_P8 (E := Sealed.real) (d := d + 4) p (by fits)

theorem early_unicodeLength_L8 (v : Version) (p : Ptr Byte) (len : U32) :
    Early v (name% "unicodeLength") [.ptr8 p, .uint len]
      ((unicodeLength8 p len).map .uint) :=
  early_of fun w u sc n hn => by linked unicodeLength_8_core (E := Sealed.real) (d := d + 4) p len (by fits)

theorem early_unicodeLength_S16 (v : Version) (s : List U16) :
    Early v (name% "unicodeLength") [.str16 s]
      ((unicodeLength16S s).map .uint) :=
  early_of fun w u sc n hn => by linked unicodeLength_S16 (E := Sealed.real) (d := d + 3) s (by fits)

theorem early_unicodeLength_P16 (v : Version) (p : Ptr U16) :
    Early v (name% "unicodeLength") [.ptr16 p]
      ((unicodeLength16 p 0).map .uint) :=
  early_of fun w u sc n hn => by linked unicodeLength_P16 (E := Sealed.real) (d := d + 4) p (by fits)

theorem early_unicodeLength_L16 (v : Version) (p : Ptr U16) (len : U32) :
    Early v (name% "unicodeLength") [.ptr16 p, .uint len]
      ((unicodeLength16 p len).map .uint) :=
  early_of fun w u sc n hn => by linked unicodeLength_16_core (E := Sealed.real) (d := d + 4) p len (by fits)

theorem early_unicodeLength_S32 (v : Version) (s : List U32) :
    Early v (name% "unicodeLength") [.str32 s]
      ((unicodeLength32S s).map .uint) :=
  early_of fun w u sc n hn => by linked unicodeLength_S32 (E := Sealed.real) (d := d + 3) s (by fits)

theorem early_unicodeLength_P32 (v : Version) (p : Ptr U32) :
    Early v (name% "unicodeLength") [.ptr32 p]
      ((unicodeLength32 p 0).map .uint) :=
  early_of fun w u sc n hn => by linked unicodeLength_P32 (E := Sealed.real) (d := d + 4) p (by fits)

theorem early_unicodeLength_L32 (v : Version) (p : Ptr U32) (len : U32) :
    Early v (name% "unicodeLength") [.ptr32 p, .uint len]
      ((unicodeLength32 p len).map .uint) :=
  early_of fun w u sc n hn => by linked unicodeLength_32_core (E := Sealed.real) (d := d + 4) p len (by fits)

theorem early_toLower_S8 (v : Version) (s : List Byte) :
    Early v (name% "toLower") [.str8 s]
      ((toLower8S v s none).map .str8) :=
  early_of fun w u sc n hn => by linked toLower_S8_1 (E := Sealed.real) (d := d) (unready_are v sc u) s (by fits)

theorem early_toLower_S8_lang (v : Version) (s : List Byte) (lang : Ptr Byte) :
    Early v (name% "toLower") [.str8 s, .ptr8 lang]
      ((toLower8S v s lang).map .str8) :=
  early_of fun w u sc n hn => by linked toLower_S8 (E := Sealed.real) (d := d) (unready_are v sc u) s lang (by fits)

theorem early_toLower_S16 (v : Version) (s : List U16) :
    Early v (name% "toLower") [.str16 s]
      ((toLower16S v s none).map .str16) :=
  early_of fun w u sc n hn => by linked toLower_S16_1 (E := Sealed.real) (d := d) (unready_are v sc u) s (by fits)

theorem early_toLower_S16_lang (v : Version) (s : List U16) (lang : Ptr Byte) :
    Early v (name% "toLower") [.str16 s, .ptr8 lang]
      ((toLower16S v s lang).map .str16) :=
  early_of fun w u sc n hn => by linked toLower_S16 (E := Sealed.real) (d := d) (unready_are v sc u) s lang (by fits)

theorem early_toLower_S32 (v : Version) (s : List U32) :
    Early v (name% "toLower") [.str32 s]
      ((toLower32S v s none).map .str32) :=
  early_of fun w u sc n hn => by linked toLower_S32_1 (E := Sealed.real) (d := d + 6) (unready_are v sc u) s

theorem early_toLower_S32_lang (v : Version) (s : List U32) (lang : Ptr Byte) :
    Early v (name% "toLower") [.str32 s, .ptr8 lang]
      ((toLower32S v s lang).map .str32) :=
  early_of fun w u sc n hn => by linked toLower_32_core (E := Sealed.real) (d := d + 6) (unready_are v sc u) s lang

theorem early_validIf (v : Version) (t : Int) :
    Early v (name% "validIf") [.encoding t] (.ok (.pred (Pred.validIf t))) :=
  early_of (x := Res.ok (Pred.validIf t)) (f := .pred) fun w u sc n hn => by
    linked validIf_call (E := Sealed.real) (d := d + 5) t

theorem early_validIfNot (v : Version) (t : Int) :
    Early v (name% "validIfNot") [.encoding t] (.ok (.pred (Pred.validIfNot t))) :=
  early_of (x := Res.ok (Pred.validIfNot t)) (f := .pred) fun w u sc n hn => by
    linked validIfNot_call (E := Sealed.real) (d := d + 5) t

theorem early_checkIf (v : Version) (t : Int) :
    Early v (name% "checkIf") [.encoding t] (.ok (.pred (Pred.validIf t))) :=
  early_of (x := Res.ok (Pred.validIf t)) (f := .pred) fun w u sc n hn => by
    linked checkIf_call (E := Sealed.real) (d := d + 6) t

theorem early_checkIfNot (v : Version) (t : Int) :
    Early v (name% "checkIfNot") [.encoding t] (.ok (.pred (Pred.validIfNot t))) :=
  early_of (x := Res.ok (Pred.validIfNot t)) (f := .pred) fun w u sc n hn => by
    linked checkIfNot_call (E := Sealed.real) (d := d + 6) t

theorem early_andIf (v : Version) (p : Pred) (t : Int) :
    EarlyMember v (name% "andIf") p [.encoding t] (.pred (p.andIf t)) (p.andIf t) :=
  earlyMember_of fun w u sc n hn => by linked andIf_call (E := Sealed.real) (d := d + 6) p t

theorem early_andIfNot (v : Version) (p : Pred) (t : Int) :
    EarlyMember v (name% "andIfNot") p [.encoding t] (.pred (p.andIfNot t)) (p.andIfNot t) :=
  earlyMember_of fun w u sc n hn => by linked andIfNot_call (E := Sealed.real) (d := d + 6) p t

theorem early_equals (v : Version) (p q : Pred) :
    EarlyMember v (name% "operator==") p [.pred q] (.bool (p.eq q)) p :=
  earlyMember_of fun w u sc n hn => by linked equals_call (E := Sealed.real) (d := d + 7) p q

theorem early_differs (v : Version) (p q : Pred) :
    EarlyMember v (name% "operator!=") p [.pred q] (.bool (!p.eq q)) p :=
  earlyMember_of fun w u sc n hn => by linked differs_call (E := Sealed.real) (d := d + 6) p q

theorem early_apply8 (v : Version) (p : Pred) (c : Byte) :
    EarlyMember v (name% "operator()") p [.char8 c] (.bool (p.call8 (Unicode.charClass v) c.toNat)) p :=
  earlyMember_of fun w u sc n hn => by linked apply_char (E := Sealed.real) (d := d + 5) (unready_are v sc u) p c

theorem early_apply16 (v : Version) (p : Pred) (c : U16) :
    EarlyMember v (name% "operator()") p [.char16 c] (.bool (p.call16 (Unicode.charClass v) c.toNat)) p :=
  earlyMember_of fun w u sc n hn => by linked apply_c16 (E := Sealed.real) (d := d + 5) (unready_are v sc u) p c

theorem early_apply32 (v : Version) (p : Pred) (c : U32) :
    EarlyMember v (name% "operator()") p [.char32 c] (.bool (p.call32 (Unicode.charClass v) c.toNat)) p :=
  earlyMember_of fun w u sc n hn => by linked apply_c32 (E := Sealed.real) (d := d + 5) (unready_are v sc u) p c

theorem early_trim_8 (v : Version) (s : List Byte) (hs : Storable s) :
    EarlyChanges v (name% "trim") (.str8 s) [] (.ok (.str8 (trim s))) :=
  earlyChanges_of (x := .ok (trim s)) (f := .str8) fun w u sc n hn => by
    linked trim8 (E := Sealed.real) (d := d + 7) s hs (by fits)

theorem early_trimOf_8 (v : Version) (s spaces : List Byte) (hs : Storable s) (hp : Storable spaces) :
    EarlyChanges v (name% "trim") (.str8 s) [.str8 spaces] (.ok (.str8 (trimOf s spaces))) :=
  earlyChanges_of (x := .ok (trimOf s spaces)) (f := .str8) fun w u sc n hn => by
    linked trimOf8 (E := Sealed.real) (d := d + 7) s spaces hs hp (by fits)

theorem early_trim_16 (v : Version) (s : List U16) (hs : Storable s) :
    EarlyChanges v (name% "trim") (.str16 s) [] (.ok (.str16 (trim s))) :=
  earlyChanges_of (x := .ok (trim s)) (f := .str16) fun w u sc n hn => by
    linked trim16 (E := Sealed.real) (d := d + 7) s hs (by fits)

theorem early_trimOf_16 (v : Version) (s spaces : List U16) (hs : Storable s) (hp : Storable spaces) :
    EarlyChanges v (name% "trim") (.str16 s) [.str16 spaces] (.ok (.str16 (trimOf s spaces))) :=
  earlyChanges_of (x := .ok (trimOf s spaces)) (f := .str16) fun w u sc n hn => by
    linked trimOf16 (E := Sealed.real) (d := d + 7) s spaces hs hp (by fits)

theorem early_trim_32 (v : Version) (s : List U32) (hs : Storable s) :
    EarlyChanges v (name% "trim") (.str32 s) [] (.ok (.str32 (trim s))) :=
  earlyChanges_of (x := .ok (trim s)) (f := .str32) fun w u sc n hn => by
    linked trim32 (E := Sealed.real) (d := d + 7) s hs (by fits)

theorem early_trimOf_32 (v : Version) (s spaces : List U32) (hs : Storable s) (hp : Storable spaces) :
    EarlyChanges v (name% "trim") (.str32 s) [.str32 spaces] (.ok (.str32 (trimOf s spaces))) :=
  earlyChanges_of (x := .ok (trimOf s spaces)) (f := .str32) fun w u sc n hn => by
    linked trimOf32 (E := Sealed.real) (d := d + 7) s spaces hs hp (by fits)

theorem early_trimAscii7WhiteSpace (v : Version) (s : List Byte) (hs : Storable s) :
    EarlyChanges v (name% "trimAscii7WhiteSpace") (.str8 s) [] (.ok (.str8 (trimAscii7WhiteSpace s))) :=
  earlyChanges_of (x := .ok (trimAscii7WhiteSpace s)) (f := .str8) fun w u sc n hn => by
    linked trimAscii7 (E := Sealed.real) (d := d + 6) s hs (by fits)

theorem early_trimWhiteSpace_8 (v : Version) (s : List Byte) (hs : Storable s) :
    EarlyChanges v (name% "trimWhiteSpace") (.str8 s) [] ((trimWhiteSpace8 s).map .str8) :=
  earlyChanges_of fun w u sc n hn => by linked trimWhite8 (E := Sealed.real) (d := d + 2) s hs (by fits)

theorem early_trimWhiteSpace_16 (v : Version) (s : List U16) (hs : Storable s) :
    EarlyChanges v (name% "trimWhiteSpace") (.str16 s) [] (.ok (.str16 (trimWhiteSpace16 s))) :=
  earlyChanges_of (x := .ok (trimWhiteSpace16 s)) (f := .str16) fun w u sc n hn => by
    linked trimWhite16 (E := Sealed.real) (d := d + 6) s hs (by fits)

theorem early_trimWhiteSpace_32 (v : Version) (s : List U32) (hs : Storable s) :
    EarlyChanges v (name% "trimWhiteSpace") (.str32 s) [] (.ok (.str32 (trimWhiteSpace32 s))) :=
  earlyChanges_of (x := .ok (trimWhiteSpace32 s)) (f := .str32) fun w u sc n hn => by
    linked trimWhite32 (E := Sealed.real) (d := d + 6) s hs (by fits)

theorem early_split_8 (v : Version) (s : List Byte) (c : Byte) (hs : Storable s) :
    Early v (name% "split") [.str8 s, .char8 c] ((split s c).map .vec8) :=
  early_of fun w u sc n hn => by linked split8 (E := Sealed.real) (d := d + 7) s c hs (by fits)

theorem early_join_8 (v : Version) (l : List (List Byte)) (c : Byte) :
    Early v (name% "join") [.vec8 l, .char8 c] ((join l c).map .str8) :=
  early_of fun w u sc n hn => by linked join8 (E := Sealed.real) (d := d + 7) l c

theorem early_split_16 (v : Version) (s : List U16) (c : U16) (hs : Storable s) :
    Early v (name% "split") [.str16 s, .char16 c] ((split s c).map .vec16) :=
  early_of fun w u sc n hn => by linked split16 (E := Sealed.real) (d := d + 7) s c hs (by fits)

theorem early_join_16 (v : Version) (l : List (List U16)) (c : U16) :
    Early v (name% "join") [.vec16 l, .char16 c] ((join l c).map .str16) :=
  early_of fun w u sc n hn => by linked join16 (E := Sealed.real) (d := d + 7) l c

theorem early_split_32 (v : Version) (s : List U32) (c : U32) (hs : Storable s) :
    Early v (name% "split") [.str32 s, .char32 c] ((split s c).map .vec32) :=
  early_of fun w u sc n hn => by linked split32 (E := Sealed.real) (d := d + 7) s c hs (by fits)

theorem early_join_32 (v : Version) (l : List (List U32)) (c : U32) :
    Early v (name% "join") [.vec32 l, .char32 c] ((join l c).map .str32) :=
  early_of fun w u sc n hn => by linked join32 (E := Sealed.real) (d := d + 7) l c

theorem early_w16_isUtf8_PW (v : Version) (p : Ptr U16) :
    EarlyOn false v (name% "isUtf8") [.wptr16 p] ((W16.isUtf8W (Unicode.charClass v) p).map .bool) :=
  earlyOn_of' (m := size p + 8) (fun sc => [argW16 p]) (fun sc a => (Arg.bool a).val sc) (congrArg (· + 8) (size_wptr16 p)) (fun sc => congrArg (· :: []) (val_wptr16 sc p)) (fun sc a => rfl)
    fun u sc n hn => by linked' isUtf8_W_W16 (E := Sealed.real) (d := d + 2) (unready_are v sc u) p (by omega)

theorem early_w16_isUtf8_SW (v : Version) (s : List U16) :
    EarlyOn false v (name% "isUtf8") [.wstr16 s] ((W16.isUtf8WS (Unicode.charClass v) s).map .bool) :=
  earlyOn_of' (m := s.length + 8) (fun sc => [.str .wchar (units16 s)]) (fun sc a => (Arg.bool a).val sc) (congrArg (· + 8) (size_wstr16 s)) (fun sc => congrArg (· :: []) (val_wstr16 sc s)) (fun sc a => rfl)
    fun u sc n hn => by linked' isUtf8_SW_W16 (E := Sealed.real) (d := d + 1) (unready_are v sc u) s (by omega)

theorem early_w16_isUtf16_PW (v : Version) (p : Ptr U16) :
    EarlyOn false v (name% "isUtf16") [.wptr16 p] ((W16.isUtf16W (Unicode.charClass v) p).map .bool) :=
  earlyOn_of' (m := size p + 8) (fun sc => [argW16 p]) (fun sc a => (Arg.bool a).val sc) (congrArg (· + 8) (size_wptr16 p)) (fun sc => congrArg (· :: []) (val_wptr16 sc p)) (fun sc a => rfl)
    fun u sc n hn => by linked' isUtf16_W_W16 (E := Sealed.real) (d := d + 2) (unready_are v sc u) p (by omega)

theorem early_w16_isUtf16_SW (v : Version) (s : List U16) :
    EarlyOn false v (name% "isUtf16") [.wstr16 s] ((W16.isUtf16WS (Unicode.charClass v) s).map .bool) :=
  earlyOn_of' (m := s.length + 8) (fun sc => [.str .wchar (units16 s)]) (fun sc a => (Arg.bool a).val sc) (congrArg (· + 8) (size_wstr16 s)) (fun sc => congrArg (· :: []) (val_wstr16 sc s)) (fun sc a => rfl)
    fun u sc n hn => by linked' isUtf16_SW_W16 (E := Sealed.real) (d := d + 1) (unready_are v sc u) s (by omega)

theorem early_w16_isUcs2_PW (v : Version) (p : Ptr U16) :
    EarlyOn false v (name% "isUcs2") [.wptr16 p] ((W16.isUcs2W (Unicode.charClass v) p).map .bool) :=
  earlyOn_of' (m := size p + 8) (fun sc => [argW16 p]) (fun sc a => (Arg.bool a).val sc) (congrArg (· + 8) (size_wptr16 p)) (fun sc => congrArg (· :: []) (val_wptr16 sc p)) (fun sc a => rfl)
    fun u sc n hn => by linked' isUcs2_W_W16 (E := Sealed.real) (d := d + 2) (unready_are v sc u) p (by omega)

theorem early_w16_isUcs2_SW (v : Version) (s : List U16) :
    EarlyOn false v (name% "isUcs2") [.wstr16 s] ((W16.isUcs2WS (Unicode.charClass v) s).map .bool) :=
  earlyOn_of' (m := s.length + 8) (fun sc => [.str .wchar (units16 s)]) (fun sc a => (Arg.bool a).val sc) (congrArg (· + 8) (size_wstr16 s)) (fun sc => congrArg (· :: []) (val_wstr16 sc s)) (fun sc a => rfl)
    fun u sc n hn => by linked' isUcs2_SW_W16 (E := Sealed.real) (d := d + 1) (unready_are v sc u) s (by omega)

theorem early_w16_isUcs4_PW (v : Version) (p : Ptr U16) :
    EarlyOn false v (name% "isUcs4") [.wptr16 p] ((W16.isUcs4W (Unicode.charClass v) p).map .bool) :=
  earlyOn_of' (m := size p + 8) (fun sc => [argW16 p]) (fun sc a => (Arg.bool a).val sc) (congrArg (· + 8) (size_wptr16 p)) (fun sc => congrArg (· :: []) (val_wptr16 sc p)) (fun sc a => rfl)
    fun u sc n hn => by linked' isUcs4_W_W16 (E := Sealed.real) (d := d + 2) (unready_are v sc u) p (by omega)

theorem early_w16_isUcs4_SW (v : Version) (s : List U16) :
    EarlyOn false v (name% "isUcs4") [.wstr16 s] ((W16.isUcs4WS (Unicode.charClass v) s).map .bool) :=
  earlyOn_of' (m := s.length + 8) (fun sc => [.str .wchar (units16 s)]) (fun sc a => (Arg.bool a).val sc) (congrArg (· + 8) (size_wstr16 s)) (fun sc => congrArg (· :: []) (val_wstr16 sc s)) (fun sc a => rfl)
    fun u sc n hn => by linked' isUcs4_SW_W16 (E := Sealed.real) (d := d + 1) (unready_are v sc u) s (by omega)

theorem early_w16_isWstring_P8 (v : Version) (p : Ptr Byte) :
    EarlyOn false v (name% "isWstring") [.ptr8 p] ((W16.isWstring8 (Unicode.charClass v) p).map .bool) :=
  earlyOn_of fun u sc n hn => by linked isWstring_8_W16 (E := Sealed.real) (d := d + 2) (unready_are v sc u) p (by fits)

theorem early_w16_isWstring_S8 (v : Version) (s : List Byte) :
    EarlyOn false v (name% "isWstring") [.str8 s] ((W16.isWstring8S (Unicode.charClass v) s).map .bool) :=
  earlyOn_of fun u sc n hn => by linked isWstring_S8_W16 (E := Sealed.real) (d := d + 2) (unready_are v sc u) s (by fits)

theorem early_w16_isWstring_P16 (v : Version) (p : Ptr U16) :
    EarlyOn false v (name% "isWstring") [.ptr16 p] ((W16.isWstring16 (Unicode.charClass v) p).map .bool) :=
  earlyOn_of fun u sc n hn => by linked isWstring_16_W16 (E := Sealed.real) (d := d + 2) (unready_are v sc u) p (by fits)

theorem early_w16_isWstring_S16 (v : Version) (s : List U16) :
    EarlyOn false v (name% "isWstring") [.str16 s] ((W16.isWstring16S (Unicode.charClass v) s).map .bool) :=
  earlyOn_of fun u sc n hn => by linked isWstring_S16_W16 (E := Sealed.real) (d := d + 2) (unready_are v sc u) s (by fits)

theorem early_w16_isWstring_P32 (v : Version) (p : Ptr U32) :
    EarlyOn false v (name% "isWstring") [.ptr32 p] ((W16.isWstring32 (Unicode.charClass v) p).map .bool) :=
  earlyOn_of fun u sc n hn => by linked isWstring_32_W16 (E := Sealed.real) (d := d + 2) (unready_are v sc u) p (by fits)

theorem early_w16_isWstring_S32 (v : Version) (s : List U32) :
    EarlyOn false v (name% "isWstring") [.str32 s] ((W16.isWstring32S (Unicode.charClass v) s).map .bool) :=
  earlyOn_of fun u sc n hn => by linked isWstring_S32_W16 (E := Sealed.real) (d := d + 2) (unready_are v sc u) s (by fits)

theorem early_w16_toUtf8_PW (v : Version) (p : Ptr U16) :
    EarlyOn false v (name% "toUtf8") [.wptr16 p] ((W16.toUtf8W p).map .str8) :=
  earlyOn_of' (m := size p + 8) (fun sc => [argW16 p]) (fun sc a => (Arg.str8 a).val sc) (congrArg (· + 8) (size_wptr16 p)) (fun sc => congrArg (· :: []) (val_wptr16 sc p)) (fun sc a => rfl)
    fun u sc n hn => by linked' toUtf8_W_W16 (E := Sealed.real) (d := d + 3) p (by omega)

theorem early_w16_toUtf8_SW (v : Version) (s : List U16) :
    EarlyOn false v (name% "toUtf8") [.wstr16 s] ((W16.toUtf8WS s).map .str8) :=
  earlyOn_of' (m := s.length + 8) (fun sc => [.str .wchar (units16 s)]) (fun sc a => (Arg.str8 a).val sc) (congrArg (· + 8) (size_wstr16 s)) (fun sc => congrArg (· :: []) (val_wstr16 sc s)) (fun sc a => rfl)
    fun u sc n hn => by linked' toUtf8_SW_W16 (E := Sealed.real) (d := d + 2) s (by omega)

theorem early_w16_toUtf16_PW (v : Version) (p : Ptr U16) :
    EarlyOn false v (name% "toUtf16") [.wptr16 p] ((W16.toUtf16W (Unicode.charClass v) p).map .str16) :=
  earlyOn_of' (m := size p + 8) (fun sc => [argW16 p]) (fun sc a => (Arg.str16 a).val sc) (congrArg (· + 8) (size_wptr16 p)) (fun sc => congrArg (· :: []) (val_wptr16 sc p)) (fun sc a => rfl)
    fun u sc n hn => by linked' toUtf16_W_W16 (E := Sealed.real) (d := d + 2) (unready_are v sc u) p (by omega)

theorem early_w16_toUtf16_SW (v : Version) (s : List U16) :
    EarlyOn false v (name% "toUtf16") [.wstr16 s] ((W16.toUtf16WS (Unicode.charClass v) s).map .str16) :=
  earlyOn_of' (m := s.length + 8) (fun sc => [.str .wchar (units16 s)]) (fun sc a => (Arg.str16 a).val sc) (congrArg (· + 8) (size_wstr16 s)) (fun sc => congrArg (· :: []) (val_wstr16 sc s)) (fun sc a => rfl)
    fun u sc n hn => by linked' toUtf16_SW_W16 (E := Sealed.real) (d := d + 1) (unready_are v sc u) s (by omega)

theorem early_w16_toUcs2_PW (v : Version) (p : Ptr U16) :
    EarlyOn false v (name% "toUcs2") [.wptr16 p] ((W16.toUcs2W (Unicode.charClass v) p).map .str16) :=
  earlyOn_of' (m := size p + 8) (fun sc => [argW16 p]) (fun sc a => (Arg.str16 a).val sc) (congrArg (· + 8) (size_wptr16 p)) (fun sc => congrArg (· :: []) (val_wptr16 sc p)) (fun sc a => rfl)
    fun u sc n hn => by linked' toUcs2_W_W16 (E := Sealed.real) (d := d + 2) (unready_are v sc u) p (by omega)

theorem early_w16_toUcs2_SW (v : Version) (s : List U16) :
    EarlyOn false v (name% "toUcs2") [.wstr16 s] ((W16.toUcs2WS (Unicode.charClass v) s).map .str16) :=
  earlyOn_of' (m := s.length + 8) (fun sc => [.str .wchar (units16 s)]) (fun sc a => (Arg.str16 a).val sc) (congrArg (· + 8) (size_wstr16 s)) (fun sc => congrArg (· :: []) (val_wstr16 sc s)) (fun sc a => rfl)
    fun u sc n hn => by linked' toUcs2_SW_W16 (E := Sealed.real) (d := d + 1) (unready_are v sc u) s (by omega)

theorem early_w16_toUcs4_PW (v : Version) (p : Ptr U16) :
    EarlyOn false v (name% "toUcs4") [.wptr16 p] ((W16.toUcs4W p).map .str32) :=
  earlyOn_of' (m := size p + 8) (fun sc => [argW16 p]) (fun sc a => (Arg.str32 a).val sc) (congrArg (· + 8) (size_wptr16 p)) (fun sc => congrArg (· :: []) (val_wptr16 sc p)) (fun sc a => rfl)
    fun u sc n hn => by linked' toUcs4_W_W16 (E := Sealed.real) (d := d + 3) p (by omega)

theorem early_w16_toUcs4_SW (v : Version) (s : List U16) :
    EarlyOn false v (name% "toUcs4") [.wstr16 s] ((W16.toUcs4WS s).map .str32) :=
  earlyOn_of' (m := s.length + 8) (fun sc => [.str .wchar (units16 s)]) (fun sc a => (Arg.str32 a).val sc) (congrArg (· + 8) (size_wstr16 s)) (fun sc => congrArg (· :: []) (val_wstr16 sc s)) (fun sc a => rfl)
    fun u sc n hn => by linked' toUcs4_SW_W16 (E := Sealed.real) (d := d + 2) s (by omega)

theorem early_w16_toWstring_P8 (v : Version) (p : Ptr Byte) :
    EarlyOn false v (name% "toWstring") [.ptr8 p] ((W16.toWstring8 p).map .wstr16) :=
  earlyOn_of' (m := size p + 8) (fun sc => [(Arg.ptr8 p).val sc]) (fun sc a => .str .wchar (units16 a)) (rfl) (fun sc => rfl) (fun sc a => val_wstr16 sc a)
    fun u sc n hn => by linked' toWstring_8_W16 (E := Sealed.real) (d := d + 3) p (by omega)

theorem early_w16_toWstring_S8 (v : Version) (s : List Byte) :
    EarlyOn false v (name% "toWstring") [.str8 s] ((W16.toWstring8S s).map .wstr16) :=
  earlyOn_of' (m := s.length + 8) (fun sc => [(Arg.str8 s).val sc]) (fun sc a => .str .wchar (units16 a)) (rfl) (fun sc => rfl) (fun sc a => val_wstr16 sc a)
    fun u sc n hn => by linked' toWstring_S8_W16 (E := Sealed.real) (d := d + 2) s (by omega)

theorem early_w16_toWstring_P16 (v : Version) (p : Ptr U16) :
    EarlyOn false v (name% "toWstring") [.ptr16 p] ((W16.toWstring16 (Unicode.charClass v) p).map .wstr16) :=
  earlyOn_of' (m := size p + 8) (fun sc => [(Arg.ptr16 p).val sc]) (fun sc a => .str .wchar (units16 a)) (rfl) (fun sc => rfl) (fun sc a => val_wstr16 sc a)
    fun u sc n hn => by linked' toWstring_16_W16 (E := Sealed.real) (d := d + 2) (unready_are v sc u) p (by omega)

theorem early_w16_toWstring_S16 (v : Version) (s : List U16) :
    EarlyOn false v (name% "toWstring") [.str16 s] ((W16.toWstring16S (Unicode.charClass v) s).map .wstr16) :=
  earlyOn_of' (m := s.length + 8) (fun sc => [(Arg.str16 s).val sc]) (fun sc a => .str .wchar (units16 a)) (rfl) (fun sc => rfl) (fun sc a => val_wstr16 sc a)
    fun u sc n hn => by linked' toWstring_S16_W16 (E := Sealed.real) (d := d + 1) (unready_are v sc u) s (by omega)

theorem early_w16_toWstring_P32 (v : Version) (p : Ptr U32) :
    EarlyOn false v (name% "toWstring") [.ptr32 p] ((W16.toWstring32 p).map .wstr16) :=
  earlyOn_of' (m := size p + 8) (fun sc => [(Arg.ptr32 p).val sc]) (fun sc a => .str .wchar (units16 a)) (rfl) (fun sc => rfl) (fun sc a => val_wstr16 sc a)
    fun u sc n hn => by linked' toWstring_32_W16 (E := Sealed.real) (d := d + 3) p (by omega)

theorem early_w16_toWstring_S32 (v : Version) (s : List U32) :
    EarlyOn false v (name% "toWstring") [.str32 s] ((W16.toWstring32S s).map .wstr16) :=
  earlyOn_of' (m := s.length + 8) (fun sc => [(Arg.str32 s).val sc]) (fun sc a => .str .wchar (units16 a)) (rfl) (fun sc => rfl) (fun sc a => val_wstr16 sc a)
    fun u sc n hn => by linked' toWstring_S32_W16 (E := Sealed.real) (d := d + 2) s (by omega)

theorem early_w32_isUtf8_PW (v : Version) (p : Ptr U32) :
    EarlyOn true v (name% "isUtf8") [.wptr p] ((W32.isUtf8W (Unicode.charClass v) p).map .bool) :=
  earlyOn_of fun u sc n hn => by linked isUtf8_W_W32 (E := Sealed.real) (d := d + 2) (unready_are v sc u) p (by fits)

theorem early_w32_isUtf8_SW (v : Version) (s : List U32) :
    EarlyOn true v (name% "isUtf8") [.wstr s] ((W32.isUtf8WS (Unicode.charClass v) s).map .bool) :=
  earlyOn_of fun u sc n hn => by linked isUtf8_SW_W32 (E := Sealed.real) (d := d + 1) (unready_are v sc u) s (by fits)

theorem early_w32_isUtf16_PW (v : Version) (p : Ptr U32) :
    EarlyOn true v (name% "isUtf16") [.wptr p] ((W32.isUtf16W (Unicode.charClass v) p).map .bool) :=
  earlyOn_of fun u sc n hn => by linked isUtf16_W_W32 (E := Sealed.real) (d := d + 2) (unready_are v sc u) p (by fits)

theorem early_w32_isUtf16_SW (v : Version) (s : List U32) :
    EarlyOn true v (name% "isUtf16") [.wstr s] ((W32.isUtf16WS (Unicode.charClass v) s).map .bool) :=
  earlyOn_of fun u sc n hn => by linked isUtf16_SW_W32 (E := Sealed.real) (d := d + 1) (unready_are v sc u) s (by fits)

theorem early_w32_isUcs2_PW (v : Version) (p : Ptr U32) :
    EarlyOn true v (name% "isUcs2") [.wptr p] ((W32.isUcs2W (Unicode.charClass v) p).map .bool) :=
  earlyOn_of fun u sc n hn => by linked isUcs2_W_W32 (E := Sealed.real) (d := d + 2) (unready_are v sc u) p (by fits)

theorem early_w32_isUcs2_SW (v : Version) (s : List U32) :
    EarlyOn true v (name% "isUcs2") [.wstr s] ((W32.isUcs2WS (Unicode.charClass v) s).map .bool) :=
  earlyOn_of fun u sc n hn => by linked isUcs2_SW_W32 (E := Sealed.real) (d := d + 1) (unready_are v sc u) s (by fits)

theorem early_w32_isUcs4_PW (v : Version) (p : Ptr U32) :
    EarlyOn true v (name% "isUcs4") [.wptr p] ((W32.isUcs4W (Unicode.charClass v) p).map .bool) :=
  earlyOn_of fun u sc n hn => by linked isUcs4_W_W32 (E := Sealed.real) (d := d + 2) (unready_are v sc u) p (by fits)

theorem early_w32_isUcs4_SW (v : Version) (s : List U32) :
    EarlyOn true v (name% "isUcs4") [.wstr s] ((W32.isUcs4WS (Unicode.charClass v) s).map .bool) :=
  earlyOn_of fun u sc n hn => by linked isUcs4_SW_W32 (E := Sealed.real) (d := d + 1) (unready_are v sc u) s (by fits)

theorem early_w32_isWstring_P8 (v : Version) (p : Ptr Byte) :
    EarlyOn true v (name% "isWstring") [.ptr8 p] ((W32.isWstring8 (Unicode.charClass v) p).map .bool) :=
  earlyOn_of fun u sc n hn => by linked isWstring_8_W32 (E := Sealed.real) (d := d + 2) (unready_are v sc u) p (by fits)

theorem early_w32_isWstring_S8 (v : Version) (s : List Byte) :
    EarlyOn true v (name% "isWstring") [.str8 s] ((W32.isWstring8S (Unicode.charClass v) s).map .bool) :=
  earlyOn_of fun u sc n hn => by linked isWstring_S8_W32 (E := Sealed.real) (d := d + 2) (unready_are v sc u) s (by fits)

theorem early_w32_isWstring_P16 (v : Version) (p : Ptr U16) :
    EarlyOn true v (name% "isWstring") [.ptr16 p] ((W32.isWstring16 (Unicode.charClass v) p).map .bool) :=
  earlyOn_of fun u sc n hn => by linked isWstring_16_W32 (E := Sealed.real) (d := d + 2) (unready_are v sc u) p (by fits)

theorem early_w32_isWstring_S16 (v : Version) (s : List U16) :
    EarlyOn true v (name% "isWstring") [.str16 s] ((W32.isWstring16S (Unicode.charClass v) s).map .bool) :=
  earlyOn_of fun u sc n hn => by linked isWstring_S16_W32 (E := Sealed.real) (d := d + 2) (unready_are v sc u) s (by fits)

theorem early_w32_isWstring_P32 (v : Version) (p : Ptr U32) :
    EarlyOn true v (name% "isWstring") [.ptr32 p] ((W32.isWstring32 (Unicode.charClass v) p).map .bool) :=
  earlyOn_of fun u sc n hn => by linked isWstring_32_W32 (E := Sealed.real) (d := d + 2) (unready_are v sc u) p (by fits)

theorem early_w32_isWstring_S32 (v : Version) (s : List U32) :
    EarlyOn true v (name% "isWstring") [.str32 s] ((W32.isWstring32S (Unicode.charClass v) s).map .bool) :=
  earlyOn_of fun u sc n hn => by linked isWstring_S32_W32 (E := Sealed.real) (d := d + 2) (unready_are v sc u) s (by fits)

theorem early_w32_toUtf8_PW (v : Version) (p : Ptr U32) :
    EarlyOn true v (name% "toUtf8") [.wptr p] ((W32.toUtf8W p).map .str8) :=
  earlyOn_of fun u sc n hn => by linked toUtf8_W_W32 (E := Sealed.real) (d := d + 3) p (by fits)

theorem early_w32_toUtf8_SW (v : Version) (s : List U32) :
    EarlyOn true v (name% "toUtf8") [.wstr s] ((W32.toUtf8WS s).map .str8) :=
  earlyOn_of fun u sc n hn => by linked toUtf8_SW_W32 (E := Sealed.real) (d := d + 2) s (by fits)

theorem early_w32_toUtf16_PW (v : Version) (p : Ptr U32) :
    EarlyOn true v (name% "toUtf16") [.wptr p] ((W32.toUtf16W p).map .str16) :=
  earlyOn_of fun u sc n hn => by linked toUtf16_W_W32 (E := Sealed.real) (d := d + 3) p (by fits)

theorem early_w32_toUtf16_SW (v : Version) (s : List U32) :
    EarlyOn true v (name% "toUtf16") [.wstr s] ((W32.toUtf16WS s).map .str16) :=
  earlyOn_of fun u sc n hn => by linked toUtf16_SW_W32 (E := Sealed.real) (d := d + 2) s (by fits)

theorem early_w32_toUcs2_PW (v : Version) (p : Ptr U32) :
    EarlyOn true v (name% "toUcs2") [.wptr p] ((W32.toUcs2W p).map .str16) :=
  earlyOn_of fun u sc n hn => by linked toUcs2_W_W32 (E := Sealed.real) (d := d + 3) p (by fits)

theorem early_w32_toUcs2_SW (v : Version) (s : List U32) :
    EarlyOn true v (name% "toUcs2") [.wstr s] ((W32.toUcs2WS s).map .str16) :=
  earlyOn_of fun u sc n hn => by linked toUcs2_SW_W32 (E := Sealed.real) (d := d + 2) s (by fits)

theorem early_w32_toUcs4_PW (v : Version) (p : Ptr U32) :
    EarlyOn true v (name% "toUcs4") [.wptr p] ((W32.toUcs4W (Unicode.charClass v) p).map .str32) :=
  earlyOn_of fun u sc n hn => by linked toUcs4_W_W32 (E := Sealed.real) (d := d + 2) (unready_are v sc u) p (by fits)

theorem early_w32_toUcs4_SW (v : Version) (s : List U32) :
    EarlyOn true v (name% "toUcs4") [.wstr s] ((W32.toUcs4WS (Unicode.charClass v) s).map .str32) :=
  earlyOn_of fun u sc n hn => by linked toUcs4_SW_W32 (E := Sealed.real) (d := d + 1) (unready_are v sc u) s (by fits)

theorem early_w32_toWstring_P8 (v : Version) (p : Ptr Byte) :
    EarlyOn true v (name% "toWstring") [.ptr8 p] ((W32.toWstring8 p).map .wstr) :=
  earlyOn_of fun u sc n hn => by linked toWstring_8_W32 (E := Sealed.real) (d := d + 3) p (by fits)

theorem early_w32_toWstring_S8 (v : Version) (s : List Byte) :
    EarlyOn true v (name% "toWstring") [.str8 s] ((W32.toWstring8S s).map .wstr) :=
  earlyOn_of fun u sc n hn => by linked toWstring_S8_W32 (E := Sealed.real) (d := d + 2) s (by fits)

theorem early_w32_toWstring_P16 (v : Version) (p : Ptr U16) :
    EarlyOn true v (name% "toWstring") [.ptr16 p] ((W32.toWstring16 p).map .wstr) :=
  earlyOn_of fun u sc n hn => by linked toWstring_16_W32 (E := Sealed.real) (d := d + 3) p (by fits)

theorem early_w32_toWstring_S16 (v : Version) (s : List U16) :
    EarlyOn true v (name% "toWstring") [.str16 s] ((W32.toWstring16S s).map .wstr) :=
  earlyOn_of fun u sc n hn => by linked toWstring_S16_W32 (E := Sealed.real) (d := d + 2) s (by fits)

theorem early_w32_toWstring_P32 (v : Version) (p : Ptr U32) :
    EarlyOn true v (name% "toWstring") [.ptr32 p] ((W32.toWstring32 (Unicode.charClass v) p).map .wstr) :=
  earlyOn_of fun u sc n hn => by linked toWstring_32_W32 (E := Sealed.real) (d := d + 2) (unready_are v sc u) p (by fits)

theorem early_w32_toWstring_S32 (v : Version) (s : List U32) :
    EarlyOn true v (name% "toWstring") [.str32 s] ((W32.toWstring32S (Unicode.charClass v) s).map .wstr) :=
  earlyOn_of fun u sc n hn => by linked toWstring_S32_W32 (E := Sealed.real) (d := d + 1) (unready_are v sc u) s (by fits)

end Ansak.Props
