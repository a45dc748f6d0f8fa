import Verif.Spec.Shallow
import Verif.Props.TextMore
import Verif.Props.TextWide

/-! # The text of the library with eight calls inside each other

As in `Verif.Props.Text`, `Verif.Props.TextMore` and `Verif.Props.TextWide` once more. -/

namespace Ansak.Cpp

open Spec (Arg enough callWithin Shallow ShallowOn ShallowChanges ShallowMember)

theorem callWithin_eq {X : Externals} {s : List Int} (h : X.str (name% "supportedUnicodeVersion") = some s)
    (sc w : Bool) (n d cls name : Nat) (vs : List Val) :
    callWithin X sc (wideType w) (Source.pieces w) n d cls name vs = (Ast.program w s).call X sc n d cls name vs .done := by
  unfold callWithin
  rw [parse_pieces]
  show (match program X sc (wideType w) (Ast.allItems w) with | some P => _ | none => _) = _
  rw [program_items h sc w]

set_option hygiene false in
/-- As `linked`, where `d` is 8 less than the number of calls inside each other. -/
macro "within " t:term : tactic => `(tactic| (
  simp only [enough, Arg.size] at hn
  obtain ⟨d, rfl⟩ : ∃ d, m = d + 8 := ⟨m - 8, by omega⟩
  exact $t))

set_option hygiene false in
/-- As `linked'`. -/
macro "within' " t:term : tactic => `(tactic| (
  obtain ⟨d, rfl⟩ : ∃ d, m = d + 8 := ⟨m - 8, by omega⟩
  exact $t))

theorem shallowOn_of {α : Type} {w : Bool} {v : Version} {name : Nat} {args : List Arg} {x : Res α} {f : α → Arg}
    {refs : List (Option Val)}
    (h : ∀ sc n m, enough args ≤ n → 8 ≤ m →
      Sealed.real.call (Ast.program w (versionText v sc)) (link v sc) sc n m (nat_lit 0) name (args.map (Arg.val sc)) .done =
        x.out fun a => .done ((f a).val sc) refs)
    (hr : ∀ r ∈ refs, r = none := by simp) :
    ShallowOn w v name args (x.map f) := by
  intro sc n m hn hd
  rw [callWithin_eq (link_str v sc)]
  have h := h sc n m hn hd
  cases x with
  | ok a => exact ⟨refs, h, hr⟩
  | ub => exact h

theorem shallow_of {α : Type} {v : Version} {name : Nat} {args : List Arg} {x : Res α} {f : α → Arg}
    {refs : List (Option Val)}
    (h : ∀ w sc n m, enough args ≤ n → 8 ≤ m →
      Sealed.real.call (Ast.program w (versionText v sc)) (link v sc) sc n m (nat_lit 0) name (args.map (Arg.val sc)) .done =
        x.out fun a => .done ((f a).val sc) refs)
    (hr : ∀ r ∈ refs, r = none := by simp) :
    Shallow v name args (x.map f) :=
  fun w => shallowOn_of (h w) hr

theorem shallowChanges_of {α : Type} {v : Version} {name : Nat} {victim : Arg} {args : List Arg} {x : Res α} {f : α → Arg}
    (h : ∀ w sc n m, enough (victim :: args) ≤ n → 8 ≤ m →
      Sealed.real.call (Ast.program w (versionText v sc)) (link v sc) sc n m (nat_lit 0) name
        ((victim :: args).map (Arg.val sc)) .done =
        x.out fun a => .done .void (some ((f a).val sc) :: args.map fun _ => none)) :
    ShallowChanges v name victim args (x.map f) := by
  intro w sc n m hn hd
  rw [callWithin_eq (link_str v sc)]
  have h := h w sc n m hn hd
  cases x with
  | ok a => exact h
  | ub => exact h

theorem shallowMember_of {v : Version} {name : Nat} {self self' : Pred} {args : List Arg} {result : Arg}
    (h : ∀ w sc n m, enough args ≤ n → 8 ≤ m →
      Sealed.real.call (Ast.program w (versionText v sc)) (link v sc) sc n m (name% "EncodingCheckPredicate") name
        (predVal self :: args.map (Arg.val sc)) .done =
      .done (result.val sc) (some (predVal self') :: args.map fun _ => none)) :
    ShallowMember v name self args result self' := by
  intro w sc n m hn hd
  rw [callWithin_eq (link_str v sc)]
  exact h w sc n m hn hd

end Ansak.Cpp

namespace Ansak.Props

open Cpp
open Spec (Arg enough Shallow ShallowOn ShallowChanges ShallowMember)

theorem shallowOn_of' {α : Type} {w : Bool} {v : Version} {name : Nat} {args : List Arg} {x : Res α} {f : α → Arg}
    {refs : List (Option Val)} {l : Nat} (vs : Bool → List Val) (g : Bool → α → Val) (hm : enough args = l)
    (hv : ∀ sc, args.map (Arg.val sc) = vs sc) (hg : ∀ sc a, (f a).val sc = g sc a)
    (h : ∀ sc n m, l ≤ n → 8 ≤ m →
      Sealed.real.call (Ast.program w (versionText v sc)) (link v sc) sc n m (nat_lit 0) name (vs sc) .done =
        x.out fun a => .done (g sc a) refs)
    (hr : ∀ r ∈ refs, r = none := by simp) : ShallowOn w v name args (x.map f) :=
  shallowOn_of (refs := refs) (hr := hr) fun sc n m hn hd => by
    rw [hv sc, funext fun a => congrArg (Out.done · refs) (hg sc a)]
    exact h sc n m (hm ▸ hn) hd

theorem shallow_isUtf8_S1 (v : Version) (s : List Byte) :
    Shallow v (name% "isUtf8") [.str8 s]
      ((isUtf8S1 (Unicode.charClass v) s).map .bool) :=
  shallow_of fun w sc n m hn hd => by within isUtf8_S1 (E := Sealed.real) (d := d + 3) (link_are v sc) s (by fits)

theorem shallow_isUtf8_SR (v : Version) (s : List Byte) (t : Int) :
    Shallow v (name% "isUtf8") [.str8 s, .range t]
      ((isUtf8S (Unicode.charClass v) s t Pred.none).map .bool) :=
  shallow_of fun w sc n m hn hd => by within isUtf8_SR (E := Sealed.real) (d := d + 3) (link_are v sc) s t (by fits)

theorem shallow_isUtf8_S2 (v : Version) (s : List Byte) (q : Pred) :
    Shallow v (name% "isUtf8") [.str8 s, .pred q]
      ((isUtf8S2 (Unicode.charClass v) s q).map .bool) :=
  shallow_of fun w sc n m hn hd => by within isUtf8_S2 (E := Sealed.real) (d := d + 2) (link_are v sc) s q (by fits)

theorem shallow_isUtf8_S3 (v : Version) (s : List Byte) (t : Int) (q : Pred) :
    Shallow v (name% "isUtf8") [.str8 s, .range t, .pred q]
      ((isUtf8S (Unicode.charClass v) s t q).map .bool) :=
  shallow_of fun w sc n m hn hd => by within isUtf8_S3 (E := Sealed.real) (d := d + 3) (link_are v sc) s t q (by fits)

theorem shallow_isUtf8_P1 (v : Version) (p : Ptr Byte) :
    Shallow v (name% "isUtf8") [.ptr8 p]
      ((isUtf8P1 (Unicode.charClass v) p).map .bool) :=
  shallow_of fun w sc n m hn hd => by within isUtf8_P1 (E := Sealed.real) (d := d + 3) (link_are v sc) p (by fits)

theorem shallow_isUtf8_PR (v : Version) (p : Ptr Byte) (t : Int) :
    Shallow v (name% "isUtf8") [.ptr8 p, .range t]
      ((isUtf8 (Unicode.charClass v) p t Pred.none).map .bool) :=
  shallow_of fun w sc n m hn hd => by within isUtf8_PR (E := Sealed.real) (d := d + 3) (link_are v sc) p t (by fits)

theorem shallow_isUtf8_P2 (v : Version) (p : Ptr Byte) (q : Pred) :
    Shallow v (name% "isUtf8") [.ptr8 p, .pred q]
      ((isUtf8P2 (Unicode.charClass v) p q).map .bool) :=
  shallow_of fun w sc n m hn hd => by within isUtf8_P2 (E := Sealed.real) (d := d + 2) (link_are v sc) p q (by fits)

theorem shallow_isUtf8_P3 (v : Version) (p : Ptr Byte) (t : Int) (q : Pred) :
    Shallow v (name% "isUtf8") [.ptr8 p, .range t, .pred q]
      ((isUtf8 (Unicode.charClass v) p t q).map .bool) :=
  shallow_of fun w sc n m hn hd => by within isUtf8_P3 (E := Sealed.real) (d := d + 3) (link_are v sc) p t q (by fits)

theorem shallow_isUtf8_L2 (v : Version) (p : Ptr Byte) (len : U32) :
    Shallow v (name% "isUtf8") [.ptr8 p, .uint len]
      ((isUtf8Len (Unicode.charClass v) p len Pred.none).map .bool) :=
  shallow_of fun w sc n m hn hd => by within isUtf8_L2 (E := Sealed.real) (d := d + 3) (link_are v sc) p len (by fits)

theorem shallow_isUtf8_L3 (v : Version) (p : Ptr Byte) (len : U32) (q : Pred) :
    Shallow v (name% "isUtf8") [.ptr8 p, .uint len, .pred q]
      ((isUtf8Len (Unicode.charClass v) p len q).map .bool) :=
  shallow_of fun w sc n m hn hd => by within isUtf8_L3 (E := Sealed.real) (d := d + 3) (link_are v sc) p len q (by fits)

theorem shallow_isUtf16_S1 (v : Version) (s : List U16) :
    Shallow v (name% "isUtf16") [.str16 s]
      ((isUtf16S1 (Unicode.charClass v) s).map .bool) :=
  shallow_of fun w sc n m hn hd => by within isUtf16_S1 (E := Sealed.real) (d := d + 3) (link_are v sc) s (by fits)

theorem shallow_isUtf16_SR (v : Version) (s : List U16) (t : Int) :
    Shallow v (name% "isUtf16") [.str16 s, .range t]
      ((isUtf16S (Unicode.charClass v) s t Pred.none).map .bool) :=
  shallow_of fun w sc n m hn hd => by within isUtf16_SR (E := Sealed.real) (d := d + 3) (link_are v sc) s t (by fits)

theorem shallow_isUtf16_S2 (v : Version) (s : List U16) (q : Pred) :
    Shallow v (name% "isUtf16") [.str16 s, .pred q]
      ((isUtf16S2 (Unicode.charClass v) s q).map .bool) :=
  shallow_of fun w sc n m hn hd => by within isUtf16_S2 (E := Sealed.real) (d := d + 2) (link_are v sc) s q (by fits)

theorem shallow_isUtf16_S3 (v : Version) (s : List U16) (t : Int) (q : Pred) :
    Shallow v (name% "isUtf16") [.str16 s, .range t, .pred q]
      ((isUtf16S (Unicode.charClass v) s t q).map .bool) :=
  shallow_of fun w sc n m hn hd => by within isUtf16_S3 (E := Sealed.real) (d := d + 3) (link_are v sc) s t q (by fits)

theorem shallow_isUtf16_P1 (v : Version) (p : Ptr U16) :
    Shallow v (name% "isUtf16") [.ptr16 p]
      ((isUtf16P1 (Unicode.charClass v) p).map .bool) :=
  shallow_of fun w sc n m hn hd => by within isUtf16_P1 (E := Sealed.real) (d := d + 3) (link_are v sc) p (by fits)

theorem shallow_isUtf16_PR (v : Version) (p : Ptr U16) (t : Int) :
    Shallow v (name% "isUtf16") [.ptr16 p, .range t]
      ((isUtf16 (Unicode.charClass v) p t Pred.none).map .bool) :=
  shallow_of fun w sc n m hn hd => by within isUtf16_PR (E := Sealed.real) (d := d + 3) (link_are v sc) p t (by fits)

theorem shallow_isUtf16_P2 (v : Version) (p : Ptr U16) (q : Pred) :
    Shallow v (name% "isUtf16") [.ptr16 p, .pred q]
      ((isUtf16P2 (Unicode.charClass v) p q).map .bool) :=
  shallow_of fun w sc n m hn hd => by within isUtf16_P2 (E := Sealed.real) (d := d + 2) (link_are v sc) p q (by fits)

theorem shallow_isUtf16_P3 (v : Version) (p : Ptr U16) (t : Int) (q : Pred) :
    Shallow v (name% "isUtf16") [.ptr16 p, .range t, .pred q]
      ((isUtf16 (Unicode.charClass v) p t q).map .bool) :=
  shallow_of fun w sc n m hn hd => by within isUtf16_core (E := Sealed.real) (d := d + 4) (link_are v sc) p t q (by fits)

theorem shallow_isUcs2_S1 (v : Version) (s : List U16) :
    Shallow v (name% "isUcs2") [.str16 s]
      ((isUcs2S1 (Unicode.charClass v) s).map .bool) :=
  shallow_of fun w sc n m hn hd => by within isUcs2_S1 (E := Sealed.real) (d := d + 3) (link_are v sc) s (by fits)

theorem shallow_isUcs2_SR (v : Version) (s : List U16) (t : Int) :
    Shallow v (name% "isUcs2") [.str16 s, .range t]
      ((isUcs2S (Unicode.charClass v) s t Pred.none).map .bool) :=
  shallow_of fun w sc n m hn hd => by within isUcs2_SR (E := Sealed.real) (d := d + 3) (link_are v sc) s t (by fits)

theorem shallow_isUcs2_S2 (v : Version) (s : List U16) (q : Pred) :
    Shallow v (name% "isUcs2") [.str16 s, .pred q]
      ((isUcs2S2 (Unicode.charClass v) s q).map .bool) :=
  shallow_of fun w sc n m hn hd => by within isUcs2_S2 (E := Sealed.real) (d := d + 2) (link_are v sc) s q (by fits)

theorem shallow_isUcs2_S3 (v : Version) (s : List U16) (t : Int) (q : Pred) :
    Shallow v (name% "isUcs2") [.str16 s, .range t, .pred q]
      ((isUcs2S (Unicode.charClass v) s t q).map .bool) :=
  shallow_of fun w sc n m hn hd => by within isUcs2_S3 (E := Sealed.real) (d := d + 3) (link_are v sc) s t q (by fits)

theorem shallow_isUcs2_P1 (v : Version) (p : Ptr U16) :
    Shallow v (name% "isUcs2") [.ptr16 p]
      ((isUcs2P1 (Unicode.charClass v) p).map .bool) :=
  shallow_of fun w sc n m hn hd => by within isUcs2_P1 (E := Sealed.real) (d := d + 3) (link_are v sc) p (by fits)

theorem shallow_isUcs2_PR (v : Version) (p : Ptr U16) (t : Int) :
    Shallow v (name% "isUcs2") [.ptr16 p, .range t]
      ((isUcs2 (Unicode.charClass v) p t Pred.none).map .bool) :=
  shallow_of fun w sc n m hn hd => by within isUcs2_PR (E := Sealed.real) (d := d + 3) (link_are v sc) p t (by fits)

theorem shallow_isUcs2_P2 (v : Version) (p : Ptr U16) (q : Pred) :
    Shallow v (name% "isUcs2") [.ptr16 p, .pred q]
      ((isUcs2P2 (Unicode.charClass v) p q).map .bool) :=
  shallow_of fun w sc n m hn hd => by within isUcs2_P2 (E := Sealed.real) (d := d + 2) (link_are v sc) p q (by fits)

theorem shallow_isUcs2_P3 (v : Version) (p : Ptr U16) (t : Int) (q : Pred) :
    Shallow v (name% "isUcs2") [.ptr16 p, .range t, .pred q]
      ((isUcs2 (Unicode.charClass v) p t q).map .bool) :=
  shallow_of fun w sc n m hn hd => by within isUcs2_core (E := Sealed.real) (d := d + 4) (link_are v sc) p t q (by fits)

theorem shallow_isUcs4_S1 (v : Version) (s : List U32) :
    Shallow v (name% "isUcs4") [.str32 s]
      ((isUcs4S1 (Unicode.charClass v) s).map .bool) :=
  shallow_of fun w sc n m hn hd => by within isUcs4_S1 (E := Sealed.real) (d := d + 3) (link_are v sc) s (by fits)

theorem shallow_isUcs4_SR (v : Version) (s : List U32) (t : Int) :
    Shallow v (name% "isUcs4") [.str32 s, .range t]
      ((isUcs4S (Unicode.charClass v) s t Pred.none).map .bool) :=
  shallow_of fun w sc n m hn hd => by within isUcs4_SR (E := Sealed.real) (d := d + 3) (link_are v sc) s t (by fits)

theorem shallow_isUcs4_S2 (v : Version) (s : List U32) (q : Pred) :
    Shallow v (name% "isUcs4") [.str32 s, .pred q]
      ((isUcs4S2 (Unicode.charClass v) s q).map .bool) :=
  shallow_of fun w sc n m hn hd => by within isUcs4_S2 (E := Sealed.real) (d := d + 2) (link_are v sc) s q (by fits)

theorem shallow_isUcs4_S3 (v : Version) (s : List U32) (t : Int) (q : Pred) :
    Shallow v (name% "isUcs4") [.str32 s, .range t, .pred q]
      ((isUcs4S (Unicode.charClass v) s t q).map .bool) :=
  shallow_of fun w sc n m hn hd => by within isUcs4_S3 (E := Sealed.real) (d := d + 3) (link_are v sc) s t q (by fits)

theorem shallow_isUcs4_P1 (v : Version) (p : Ptr U32) :
    Shallow v (name% "isUcs4") [.ptr32 p]
      ((isUcs4P1 (Unicode.charClass v) p).map .bool) :=
  shallow_of fun w sc n m hn hd => by within isUcs4_P1 (E := Sealed.real) (d := d + 3) (link_are v sc) p (by fits)

theorem shallow_isUcs4_PR (v : Version) (p : Ptr U32) (t : Int) :
    Shallow v (name% "isUcs4") [.ptr32 p, .range t]
      ((isUcs4 (Unicode.charClass v) p t Pred.none).map .bool) :=
  shallow_of fun w sc n m hn hd => by within isUcs4_PR (E := Sealed.real) (d := d + 3) (link_are v sc) p t (by fits)

theorem shallow_isUcs4_P2 (v : Version) (p : Ptr U32) (q : Pred) :
    Shallow v (name% "isUcs4") [.ptr32 p, .pred q]
      ((isUcs4P2 (Unicode.charClass v) p q).map .bool) :=
  shallow_of fun w sc n m hn hd => by within isUcs4_P2 (E := Sealed.real) (d := d + 2) (link_are v sc) p q (by fits)

theorem shallow_isUcs4_P3 (v : Version) (p : Ptr U32) (t : Int) (q : Pred) :
    Shallow v (name% "isUcs4") [.ptr32 p, .range t, .pred q]
      ((isUcs4 (Unicode.charClass v) p t q).map .bool) :=
  shallow_of fun w sc n m hn hd => by within isUcs4_core (E := Sealed.real) (d := d + 4) (link_are v sc) p t q (by fits)

theorem shallow_toUtf8_S16 (v : Version) (s : List U16) :
    Shallow v (name% "toUtf8") [.str16 s]
      ((toUtf8From16S s).map .str8) :=
  shallow_of fun w sc n m hn hd => by within toUtf8_S16 (E := Sealed.real) (d := d + 3) s (by fits)

theorem shallow_toUtf8_P16 (v : Version) (p : Ptr U16) :
    Shallow v (name% "toUtf8") [.ptr16 p]
      ((toUtf8From16 p).map .str8) :=
  shallow_of fun w sc n m hn hd => by within toUtf8_16_core (E := Sealed.real) (d := d + 4) p (by fits)

theorem shallow_toUtf8_S32 (v : Version) (s : List U32) :
    Shallow v (name% "toUtf8") [.str32 s]
      ((toUtf8From32S s).map .str8) :=
  shallow_of fun w sc n m hn hd => by within toUtf8_S32 (E := Sealed.real) (d := d + 3) s (by fits)

theorem shallow_toUtf8_P32 (v : Version) (p : Ptr U32) :
    Shallow v (name% "toUtf8") [.ptr32 p]
      ((toUtf8From32 p).map .str8) :=
  shallow_of fun w sc n m hn hd => by within toUtf8_32_core (E := Sealed.real) (d := d + 4) p (by fits)

theorem shallow_toUcs2_S8 (v : Version) (s : List Byte) :
    Shallow v (name% "toUcs2") [.str8 s]
      ((toUcs2From8S s).map .str16) :=
  shallow_of fun w sc n m hn hd => by within toUcs2_S8 (E := Sealed.real) (d := d + 3) s (by fits)

theorem shallow_toUcs2_P8 (v : Version) (p : Ptr Byte) :
    Shallow v (name% "toUcs2") [.ptr8 p]
      ((toUcs2From8 p).map .str16) :=
  shallow_of fun w sc n m hn hd => by within toUcs2_8_core (E := Sealed.real) (d := d + 4) p (by fits)

theorem shallow_toUcs2_S32 (v : Version) (s : List U32) :
    Shallow v (name% "toUcs2") [.str32 s]
      ((toUcs2From32S s).map .str16) :=
  shallow_of fun w sc n m hn hd => by within toUcs2_S32 (E := Sealed.real) (d := d + 3) s (by fits)

theorem shallow_toUcs2_P32 (v : Version) (p : Ptr U32) :
    Shallow v (name% "toUcs2") [.ptr32 p]
      ((toUcs2From32 p).map .str16) :=
  shallow_of fun w sc n m hn hd => by within toUcs2_32_core (E := Sealed.real) (d := d + 4) p (by fits)

theorem shallow_toUtf16_S8 (v : Version) (s : List Byte) :
    Shallow v (name% "toUtf16") [.str8 s]
      ((toUtf16From8S s).map .str16) :=
  shallow_of fun w sc n m hn hd => by within toUtf16_S8 (E := Sealed.real) (d := d + 3) s (by fits)

theorem shallow_toUtf16_P8 (v : Version) (p : Ptr Byte) :
    Shallow v (name% "toUtf16") [.ptr8 p]
      ((toUtf16From8 p).map .str16) :=
  shallow_of fun w sc n m hn hd => by within toUtf16_8_core (E := Sealed.real) (d := d + 4) p (by fits)

theorem shallow_toUtf16_S32 (v : Version) (s : List U32) :
    Shallow v (name% "toUtf16") [.str32 s]
      ((toUtf16From32S s).map .str16) :=
  shallow_of fun w sc n m hn hd => by within toUtf16_S32 (E := Sealed.real) (d := d + 3) s (by fits)

theorem shallow_toUtf16_P32 (v : Version) (p : Ptr U32) :
    Shallow v (name% "toUtf16") [.ptr32 p]
      ((toUtf16From32 p).map .str16) :=
  shallow_of fun w sc n m hn hd => by within toUtf16_32_core (E := Sealed.real) (d := d + 4) p (by fits)

theorem shallow_toUcs4_S8 (v : Version) (s : List Byte) :
    Shallow v (name% "toUcs4") [.str8 s]
      ((toUcs4From8S s).map .str32) :=
  shallow_of fun w sc n m hn hd => by within toUcs4_S8 (E := Sealed.real) (d := d + 3) s (by fits)

theorem shallow_toUcs4_P8 (v : Version) (p : Ptr Byte) :
    Shallow v (name% "toUcs4") [.ptr8 p]
      ((toUcs4From8 p).map .str32) :=
  shallow_of fun w sc n m hn hd => by within toUcs4_8_core (E := Sealed.real) (d := d + 4) p (by fits)

theorem shallow_toUcs4_S16 (v : Version) (s : List U16) :
    Shallow v (name% "toUcs4") [.str16 s]
      ((toUcs4From16S s).map .str32) :=
  shallow_of fun w sc n m hn hd => by within toUcs4_S16 (E := Sealed.real) (d := d + 3) s (by fits)

theorem shallow_toUcs4_P16 (v : Version) (p : Ptr U16) :
    Shallow v (name% "toUcs4") [.ptr16 p]
      ((toUcs4From16 p).map .str32) :=
  shallow_of fun w sc n m hn hd => by within toUcs4_16_core (E := Sealed.real) (d := d + 4) p (by fits)

theorem shallow_toUtf8_page (v : Version) (p : Ptr Byte) (t : Int) :
    Shallow v (name% "toUtf8") [.ptr8 p, .page t]
      ((toUtf8FromPage p t).map .str8) :=
  shallow_of fun w sc n m hn hd => by within toUtf8_page_core (E := Sealed.real) (d := d + 4) p t (by fits)

theorem shallow_unicodeLength_S8 (v : Version) (s : List Byte) :
    Shallow v (name% "unicodeLength") [.str8 s]
      ((unicodeLength8S s).map .uint) :=
  shallow_of fun w sc n m hn hd => by within unicodeLength_S8 (E := Sealed.real) (d := d + 3) s (by fits)

theorem shallow_unicodeLength_P8 (v : Version) (p : Ptr Byte) :
    Shallow v (name% "unicodeLength") [.ptr8 p]
      ((unicodeLength8 p 0).map .uint) :=
  shallow_of fun w sc n m hn hd => by within unicodeLength_P8 (E := Sealed.real) (d := d + 4) p (by fits)

theorem shallow_unicodeLength_L8 (v : Version) (p : Ptr Byte) (len : U32) :
    Shallow v (name% "unicodeLength") [.ptr8 p, .uint len]
      ((unicodeLength8 p len).map .uint) :=
  shallow_of fun w sc n m hn hd => by within unicodeLength_8_core (E := Sealed.real) (d := d + 4) p len (by fits)

theorem shallow_unicodeLength_S16 (v : Version) (s : List U16) :
    Shallow v (name% "unicodeLength") [.str16 s]
      ((unicodeLength16S s).map .uint) :=
  shallow_of fun w sc n m hn hd => by within unicodeLength_S16 (E := Sealed.real) (d := d + 3) s (by fits)

theorem shallow_unicodeLength_P16 (v : Version) (p : Ptr U16) :
    Shallow v (name% "unicodeLength") [.ptr16 p]
      ((unicodeLength16 p 0).map .uint) :=
  shallow_of fun w sc n m hn hd => by within unicodeLength_P16 (E := Sealed.real) (d := d + 4) p (by fits)

theorem shallow_unicodeLength_L16 (v : Version) (p : Ptr U16) (len : U32) :
    Shallow v (name% "unicodeLength") [.ptr16 p, .uint len]
      ((unicodeLength16 p len).map .uint) :=
  shallow_of fun w sc n m hn hd => by within unicodeLength_16_core (E := Sealed.real) (d := d + 4) p len (by fits)

theorem shallow_unicodeLength_S32 (v : Version) (s : List U32) :
    Shallow v (name% "unicodeLength") [.str32 s]
      ((unicodeLength32S s).map .uint) :=
  shallow_of fun w sc n m hn hd => by within unicodeLength_S32 (E := Sealed.real) (d := d + 3) s (by fits)

theorem shallow_unicodeLength_P32 (v : Version) (p : Ptr U32) :
    Shallow v (name% "unicodeLength") [.ptr32 p]
      ((unicodeLength32 p 0).map .uint) :=
  shallow_of fun w sc n m hn hd => by within unicodeLength_P32 (E := Sealed.real) (d := d + 4) p (by fits)

theorem shallow_unicodeLength_L32 (v : Version) (p : Ptr U32) (len : U32) :
    Shallow v (name% "unicodeLength") [.ptr32 p, .uint len]
      ((unicodeLength32 p len).map .uint) :=
  shallow_of fun w sc n m hn hd => by within unicodeLength_32_core (E := Sealed.real) (d := d + 4) p len (by fits)

theorem shallow_toLower_S8 (v : Version) (s : List Byte) :
    Shallow v (name% "toLower") [.str8 s]
      ((toLower8S v s none).map .str8) :=
  shallow_of fun w sc n m hn hd => by within toLower_S8_1 (E := Sealed.real) (d := d) (link_are v sc) s (by fits)

theorem shallow_toLower_S8_lang (v : Version) (s : List Byte) (lang : Ptr Byte) :
    Shallow v (name% "toLower") [.str8 s, .ptr8 lang]
      ((toLower8S v s lang).map .str8) :=
  shallow_of fun w sc n m hn hd => by within toLower_S8 (E := Sealed.real) (d := d) (link_are v sc) s lang (by fits)

theorem shallow_toLower_S16 (v : Version) (s : List U16) :
    Shallow v (name% "toLower") [.str16 s]
      ((toLower16S v s none).map .str16) :=
  shallow_of fun w sc n m hn hd => by within toLower_S16_1 (E := Sealed.real) (d := d) (link_are v sc) s (by fits)

theorem shallow_toLower_S16_lang (v : Version) (s : List U16) (lang : Ptr Byte) :
    Shallow v (name% "toLower") [.str16 s, .ptr8 lang]
      ((toLower16S v s lang).map .str16) :=
  shallow_of fun w sc n m hn hd => by within toLower_S16 (E := Sealed.real) (d := d) (link_are v sc) s lang (by fits)

theorem shallow_toLower_S32 (v : Version) (s : List U32) :
    Shallow v (name% "toLower") [.str32 s]
      ((toLower32S v s none).map .str32) :=
  shallow_of fun w sc n m hn hd => by within toLower_S32_1 (E := Sealed.real) (d := d + 6) (link_are v sc) s

theorem shallow_toLower_S32_lang (v : Version) (s : List U32) (lang : Ptr Byte) :
    Shallow v (name% "toLower") [.str32 s, .ptr8 lang]
      ((toLower32S v s lang).map .str32) :=
  shallow_of fun w sc n m hn hd => by within toLower_32_core (E := Sealed.real) (d := d + 6) (link_are v sc) s lang

theorem shallow_validIf (v : Version) (t : Int) :
    Shallow v (name% "validIf") [.encoding t] (.ok (.pred (Pred.validIf t))) :=
  shallow_of (x := Res.ok (Pred.validIf t)) (f := .pred) fun w sc n m hn hd => by
    within validIf_call (E := Sealed.real) (d := d + 5) t

theorem shallow_validIfNot (v : Version) (t : Int) :
    Shallow v (name% "validIfNot") [.encoding t] (.ok (.pred (Pred.validIfNot t))) :=
  shallow_of (x := Res.ok (Pred.validIfNot t)) (f := .pred) fun w sc n m hn hd => by
    within validIfNot_call (E := Sealed.real) (d := d + 5) t

theorem shallow_checkIf (v : Version) (t : Int) :
    Shallow v (name% "checkIf") [.encoding t] (.ok (.pred (Pred.validIf t))) :=
  shallow_of (x := Res.ok (Pred.validIf t)) (f := .pred) fun w sc n m hn hd => by
    within checkIf_call (E := Sealed.real) (d := d + 6) t

theorem shallow_checkIfNot (v : Version) (t : Int) :
    Shallow v (name% "checkIfNot") [.encoding t] (.ok (.pred (Pred.validIfNot t))) :=
  shallow_of (x := Res.ok (Pred.validIfNot t)) (f := .pred) fun w sc n m hn hd => by
    within checkIfNot_call (E := Sealed.real) (d := d + 6) t

theorem shallow_andIf (v : Version) (p : Pred) (t : Int) :
    ShallowMember v (name% "andIf") p [.encoding t] (.pred (p.andIf t)) (p.andIf t) :=
  shallowMember_of fun w sc n m hn hd => by within andIf_call (E := Sealed.real) (d := d + 6) p t

theorem shallow_andIfNot (v : Version) (p : Pred) (t : Int) :
    ShallowMember v (name% "andIfNot") p [.encoding t] (.pred (p.andIfNot t)) (p.andIfNot t) :=
  shallowMember_of fun w sc n m hn hd => by within andIfNot_call (E := Sealed.real) (d := d + 6) p t

theorem shallow_equals (v : Version) (p q : Pred) :
    ShallowMember v (name% "operator==") p [.pred q] (.bool (p.eq q)) p :=
  shallowMember_of fun w sc n m hn hd => by within equals_call (E := Sealed.real) (d := d + 7) p q

theorem shallow_differs (v : Version) (p q : Pred) :
    ShallowMember v (name% "operator!=") p [.pred q] (.bool (!p.eq q)) p :=
  shallowMember_of fun w sc n m hn hd => by within differs_call (E := Sealed.real) (d := d + 6) p q

theorem shallow_apply8 (v : Version) (p : Pred) (c : Byte) :
    ShallowMember v (name% "operator()") p [.char8 c] (.bool (p.call8 (Unicode.charClass v) c.toNat)) p :=
  shallowMember_of fun w sc n m hn hd => by within apply_char (E := Sealed.real) (d := d + 5) (link_are v sc) p c

theorem shallow_apply16 (v : Version) (p : Pred) (c : U16) :
    ShallowMember v (name% "operator()") p [.char16 c] (.bool (p.call16 (Unicode.charClass v) c.toNat)) p :=
  shallowMember_of fun w sc n m hn hd => by within apply_c16 (E := Sealed.real) (d := d + 5) (link_are v sc) p c

theorem shallow_apply32 (v : Version) (p : Pred) (c : U32) :
    ShallowMember v (name% "operator()") p [.char32 c] (.bool (p.call32 (Unicode.charClass v) c.toNat)) p :=
  shallowMember_of fun w sc n m hn hd => by within apply_c32 (E := Sealed.real) (d := d + 5) (link_are v sc) p c

theorem shallow_trim_8 (v : Version) (s : List Byte) (hs : Storable s) :
    ShallowChanges v (name% "trim") (.str8 s) [] (.ok (.str8 (trim s))) :=
  shallowChanges_of (x := .ok (trim s)) (f := .str8) fun w sc n m hn hd => by
    within trim8 (E := Sealed.real) (d := d + 7) s hs (by fits)

theorem shallow_trimOf_8 (v : Version) (s spaces : List Byte) (hs : Storable s) (hp : Storable spaces) :
    ShallowChanges v (name% "trim") (.str8 s) [.str8 spaces] (.ok (.str8 (trimOf s spaces))) :=
  shallowChanges_of (x := .ok (trimOf s spaces)) (f := .str8) fun w sc n m hn hd => by
    within trimOf8 (E := Sealed.real) (d := d + 7) s spaces hs hp (by fits)

theorem shallow_trim_16 (v : Version) (s : List U16) (hs : Storable s) :
    ShallowChanges v (name% "trim") (.str16 s) [] (.ok (.str16 (trim s))) :=
  shallowChanges_of (x := .ok (trim s)) (f := .str16) fun w sc n m hn hd => by
    within trim16 (E := Sealed.real) (d := d + 7) s hs (by fits)

theorem shallow_trimOf_16 (v : Version) (s spaces : List U16) (hs : Storable s) (hp : Storable spaces) :
    ShallowChanges v (name% "trim") (.str16 s) [.str16 spaces] (.ok (.str16 (trimOf s spaces))) :=
  shallowChanges_of (x := .ok (trimOf s spaces)) (f := .str16) fun w sc n m hn hd => by
    within trimOf16 (E := Sealed.real) (d := d + 7) s spaces hs hp (by fits)

theorem shallow_trim_32 (v : Version) (s : List U32) (hs : Storable s) :
    ShallowChanges v (name% "trim") (.str32 s) [] (.ok (.str32 (trim s))) :=
  shallowChanges_of (x := .ok (trim s)) (f := .str32) fun w sc n m hn hd => by
    within trim32 (E := Sealed.real) (d := d + 7) s hs (by fits)

theorem shallow_trimOf_32 (v : Version) (s spaces : List U32) (hs : Storable s) (hp : Storable spaces) :
    ShallowChanges v (name% "trim") (.str32 s) [.str32 spaces] (.ok (.str32 (trimOf s spaces))) :=
  shallowChanges_of (x := .ok (trimOf s spaces)) (f := .str32) fun w sc n m hn hd => by
    within trimOf32 (E := Sealed.real) (d := d + 7) s spaces hs hp (by fits)

theorem shallow_trimAscii7WhiteSpace (v : Version) (s : List Byte) (hs : Storable s) :
    ShallowChanges v (name% "trimAscii7WhiteSpace") (.str8 s) [] (.ok (.str8 (trimAscii7WhiteSpace s))) :=
  shallowChanges_of (x := .ok (trimAscii7WhiteSpace s)) (f := .str8) fun w sc n m hn hd => by
    within trimAscii7 (E := Sealed.real) (d := d + 6) s hs (by fits)

theorem shallow_trimWhiteSpace_8 (v : Version) (s : List Byte) (hs : Storable s) :
    ShallowChanges v (name% "trimWhiteSpace") (.str8 s) [] ((trimWhiteSpace8 s).map .str8) :=
  shallowChanges_of fun w sc n m hn hd => by within trimWhite8 (E := Sealed.real) (d := d + 2) s hs (by fits)

theorem shallow_trimWhiteSpace_16 (v : Version) (s : List U16) (hs : Storable s) :
    ShallowChanges v (name% "trimWhiteSpace") (.str16 s) [] (.ok (.str16 (trimWhiteSpace16 s))) :=
  shallowChanges_of (x := .ok (trimWhiteSpace16 s)) (f := .str16) fun w sc n m hn hd => by
    within trimWhite16 (E := Sealed.real) (d := d + 6) s hs (by fits)

theorem shallow_trimWhiteSpace_32 (v : Version) (s : List U32) (hs : Storable s) :
    ShallowChanges v (name% "trimWhiteSpace") (.str32 s) [] (.ok (.str32 (trimWhiteSpace32 s))) :=
  shallowChanges_of (x := .ok (trimWhiteSpace32 s)) (f := .str32) fun w sc n m hn hd => by
    within trimWhite32 (E := Sealed.real) (d := d + 6) s hs (by fits)

theorem shallow_split_8 (v : Version) (s : List Byte) (c : Byte) (hs : Storable s) :
    Shallow v (name% "split") [.str8 s, .char8 c] ((split s c).map .vec8) :=
  shallow_of fun w sc n m hn hd => by within split8 (E := Sealed.real) (d := d + 7) s c hs (by fits)

theorem shallow_join_8 (v : Version) (l : List (List Byte)) (c : Byte) :
    Shallow v (name% "join") [.vec8 l, .char8 c] ((join l c).map .str8) :=
  shallow_of fun w sc n m hn hd => by within join8 (E := Sealed.real) (d := d + 7) l c

theorem shallow_split_16 (v : Version) (s : List U16) (c : U16) (hs : Storable s) :
    Shallow v (name% "split") [.str16 s, .char16 c] ((split s c).map .vec16) :=
  shallow_of fun w sc n m hn hd => by within split16 (E := Sealed.real) (d := d + 7) s c hs (by fits)

theorem shallow_join_16 (v : Version) (l : List (List U16)) (c : U16) :
    Shallow v (name% "join") [.vec16 l, .char16 c] ((join l c).map .str16) :=
  shallow_of fun w sc n m hn hd => by within join16 (E := Sealed.real) (d := d + 7) l c

theorem shallow_split_32 (v : Version) (s : List U32) (c : U32) (hs : Storable s) :
    Shallow v (name% "split") [.str32 s, .char32 c] ((split s c).map .vec32) :=
  shallow_of fun w sc n m hn hd => by within split32 (E := Sealed.real) (d := d + 7) s c hs (by fits)

theorem shallow_join_32 (v : Version) (l : List (List U32)) (c : U32) :
    Shallow v (name% "join") [.vec32 l, .char32 c] ((join l c).map .str32) :=
  shallow_of fun w sc n m hn hd => by within join32 (E := Sealed.real) (d := d + 7) l c

theorem shallow_w16_isUtf8_PW (v : Version) (p : Ptr U16) :
    ShallowOn false v (name% "isUtf8") [.wptr16 p] ((W16.isUtf8W (Unicode.charClass v) p).map .bool) :=
  shallowOn_of' (l := size p + 8) (fun sc => [argW16 p]) (fun sc a => (Arg.bool a).val sc) (congrArg (· + 8) (size_wptr16 p)) (fun sc => congrArg (· :: []) (val_wptr16 sc p)) (fun sc a => rfl)
    fun sc n m hn hd => by within' isUtf8_W_W16 (E := Sealed.real) (d := d + 2) (link_are v sc) p (by omega)

theorem shallow_w16_isUtf8_SW (v : Version) (s : List U16) :
    ShallowOn false v (name% "isUtf8") [.wstr16 s] ((W16.isUtf8WS (Unicode.charClass v) s).map .bool) :=
  shallowOn_of' (l := s.length + 8) (fun sc => [.str .wchar (units16 s)]) (fun sc a => (Arg.bool a).val sc) (congrArg (· + 8) (size_wstr16 s)) (fun sc => congrArg (· :: []) (val_wstr16 sc s)) (fun sc a => rfl)
    fun sc n m hn hd => by within' isUtf8_SW_W16 (E := Sealed.real) (d := d + 1) (link_are v sc) s (by omega)

theorem shallow_w16_isUtf16_PW (v : Version) (p : Ptr U16) :
    ShallowOn false v (name% "isUtf16") [.wptr16 p] ((W16.isUtf16W (Unicode.charClass v) p).map .bool) :=
  shallowOn_of' (l := size p + 8) (fun sc => [argW16 p]) (fun sc a => (Arg.bool a).val sc) (congrArg (· + 8) (size_wptr16 p)) (fun sc => congrArg (· :: []) (val_wptr16 sc p)) (fun sc a => rfl)
    fun sc n m hn hd => by within' isUtf16_W_W16 (E := Sealed.real) (d := d + 2) (link_are v sc) p (by omega)

theorem shallow_w16_isUtf16_SW (v : Version) (s : List U16) :
    ShallowOn false v (name% "isUtf16") [.wstr16 s] ((W16.isUtf16WS (Unicode.charClass v) s).map .bool) :=
  shallowOn_of' (l := s.length + 8) (fun sc => [.str .wchar (units16 s)]) (fun sc a => (Arg.bool a).val sc) (congrArg (· + 8) (size_wstr16 s)) (fun sc => congrArg (· :: []) (val_wstr16 sc s)) (fun sc a => rfl)
    fun sc n m hn hd => by within' isUtf16_SW_W16 (E := Sealed.real) (d := d + 1) (link_are v sc) s (by omega)

theorem shallow_w16_isUcs2_PW (v : Version) (p : Ptr U16) :
    ShallowOn false v (name% "isUcs2") [.wptr16 p] ((W16.isUcs2W (Unicode.charClass v) p).map .bool) :=
  shallowOn_of' (l := size p + 8) (fun sc => [argW16 p]) (fun sc a => (Arg.bool a).val sc) (congrArg (· + 8) (size_wptr16 p)) (fun sc => congrArg (· :: []) (val_wptr16 sc p)) (fun sc a => rfl)
    fun sc n m hn hd => by within' isUcs2_W_W16 (E := Sealed.real) (d := d + 2) (link_are v sc) p (by omega)

theorem shallow_w16_isUcs2_SW (v : Version) (s : List U16) :
    ShallowOn false v (name% "isUcs2") [.wstr16 s] ((W16.isUcs2WS (Unicode.charClass v) s).map .bool) :=
  shallowOn_of' (l := s.length + 8) (fun sc => [.str .wchar (units16 s)]) (fun sc a => (Arg.bool a).val sc) (congrArg (· + 8) (size_wstr16 s)) (fun sc => congrArg (· :: []) (val_wstr16 sc s)) (fun sc a => rfl)
    fun sc n m hn hd => by within' isUcs2_SW_W16 (E := Sealed.real) (d := d + 1) (link_are v sc) s (by omega)

theorem shallow_w16_isUcs4_PW (v : Version) (p : Ptr U16) :
    ShallowOn false v (name% "isUcs4") [.wptr16 p] ((W16.isUcs4W (Unicode.charClass v) p).map .bool) :=
  shallowOn_of' (l := size p + 8) (fun sc => [argW16 p]) (fun sc a => (Arg.bool a).val sc) (congrArg (· + 8) (size_wptr16 p)) (fun sc => congrArg (· :: []) (val_wptr16 sc p)) (fun sc a => rfl)
    fun sc n m hn hd => by within' isUcs4_W_W16 (E := Sealed.real) (d := d + 2) (link_are v sc) p (by omega)

theorem shallow_w16_isUcs4_SW (v : Version) (s : List U16) :
    ShallowOn false v (name% "isUcs4") [.wstr16 s] ((W16.isUcs4WS (Unicode.charClass v) s).map .bool) :=
  shallowOn_of' (l := s.length + 8) (fun sc => [.str .wchar (units16 s)]) (fun sc a => (Arg.bool a).val sc) (congrArg (· + 8) (size_wstr16 s)) (fun sc => congrArg (· :: []) (val_wstr16 sc s)) (fun sc a => rfl)
    fun sc n m hn hd => by within' isUcs4_SW_W16 (E := Sealed.real) (d := d + 1) (link_are v sc) s (by omega)

theorem shallow_w16_isWstring_P8 (v : Version) (p : Ptr Byte) :
    ShallowOn false v (name% "isWstring") [.ptr8 p] ((W16.isWstring8 (Unicode.charClass v) p).map .bool) :=
  shallowOn_of fun sc n m hn hd => by within isWstring_8_W16 (E := Sealed.real) (d := d + 2) (link_are v sc) p (by fits)

theorem shallow_w16_isWstring_S8 (v : Version) (s : List Byte) :
    ShallowOn false v (name% "isWstring") [.str8 s] ((W16.isWstring8S (Unicode.charClass v) s).map .bool) :=
  shallowOn_of fun sc n m hn hd => by within isWstring_S8_W16 (E := Sealed.real) (d := d + 2) (link_are v sc) s (by fits)

theorem shallow_w16_isWstring_P16 (v : Version) (p : Ptr U16) :
    ShallowOn false v (name% "isWstring") [.ptr16 p] ((W16.isWstring16 (Unicode.charClass v) p).map .bool) :=
  shallowOn_of fun sc n m hn hd => by within isWstring_16_W16 (E := Sealed.real) (d := d + 2) (link_are v sc) p (by fits)

theorem shallow_w16_isWstring_S16 (v : Version) (s : List U16) :
    ShallowOn false v (name% "isWstring") [.str16 s] ((W16.isWstring16S (Unicode.charClass v) s).map .bool) :=
  shallowOn_of fun sc n m hn hd => by within isWstring_S16_W16 (E := Sealed.real) (d := d + 2) (link_are v sc) s (by fits)

theorem shallow_w16_isWstring_P32 (v : Version) (p : Ptr U32) :
    ShallowOn false v (name% "isWstring") [.ptr32 p] ((W16.isWstring32 (Unicode.charClass v) p).map .bool) :=
  shallowOn_of fun sc n m hn hd => by within isWstring_32_W16 (E := Sealed.real) (d := d + 2) (link_are v sc) p (by fits)

theorem shallow_w16_isWstring_S32 (v : Version) (s : List U32) :
    ShallowOn false v (name% "isWstring") [.str32 s] ((W16.isWstring32S (Unicode.charClass v) s).map .bool) :=
  shallowOn_of fun sc n m hn hd => by within isWstring_S32_W16 (E := Sealed.real) (d := d + 2) (link_are v sc) s (by fits)

theorem shallow_w16_toUtf8_PW (v : Version) (p : Ptr U16) :
    ShallowOn false v (name% "toUtf8") [.wptr16 p] ((W16.toUtf8W p).map .str8) :=
  shallowOn_of' (l := size p + 8) (fun sc => [argW16 p]) (fun sc a => (Arg.str8 a).val sc) (congrArg (· + 8) (size_wptr16 p)) (fun sc => congrArg (· :: []) (val_wptr16 sc p)) (fun sc a => rfl)
    fun sc n m hn hd => by within' toUtf8_W_W16 (E := Sealed.real) (d := d + 3) p (by omega)

theorem shallow_w16_toUtf8_SW (v : Version) (s : List U16) :
    ShallowOn false v (name% "toUtf8") [.wstr16 s] ((W16.toUtf8WS s).map .str8) :=
  shallowOn_of' (l := s.length + 8) (fun sc => [.str .wchar (units16 s)]) (fun sc a => (Arg.str8 a).val sc) (congrArg (· + 8) (size_wstr16 s)) (fun sc => congrArg (· :: []) (val_wstr16 sc s)) (fun sc a => rfl)
    fun sc n m hn hd => by within' toUtf8_SW_W16 (E := Sealed.real) (d := d + 2) s (by omega)

theorem shallow_w16_toUtf16_PW (v : Version) (p : Ptr U16) :
    ShallowOn false v (name% "toUtf16") [.wptr16 p] ((W16.toUtf16W (Unicode.charClass v) p).map .str16) :=
  shallowOn_of' (l := size p + 8) (fun sc => [argW16 p]) (fun sc a => (Arg.str16 a).val sc) (congrArg (· + 8) (size_wptr16 p)) (fun sc => congrArg (· :: []) (val_wptr16 sc p)) (fun sc a => rfl)
    fun sc n m hn hd => by within' toUtf16_W_W16 (E := Sealed.real) (d := d + 2) (link_are v sc) p (by omega)

theorem shallow_w16_toUtf16_SW (v : Version) (s : List U16) :
    ShallowOn false v (name% "toUtf16") [.wstr16 s] ((W16.toUtf16WS (Unicode.charClass v) s).map .str16) :=
  shallowOn_of' (l := s.length + 8) (fun sc => [.str .wchar (units16 s)]) (fun sc a => (Arg.str16 a).val sc) (congrArg (· + 8) (size_wstr16 s)) (fun sc => congrArg (· :: []) (val_wstr16 sc s)) (fun sc a => rfl)
    fun sc n m hn hd => by within' toUtf16_SW_W16 (E := Sealed.real) (d := d + 1) (link_are v sc) s (by omega)

theorem shallow_w16_toUcs2_PW (v : Version) (p : Ptr U16) :
    ShallowOn false v (name% "toUcs2") [.wptr16 p] ((W16.toUcs2W (Unicode.charClass v) p).map .str16) :=
  shallowOn_of' (l := size p + 8) (fun sc => [argW16 p]) (fun sc a => (Arg.str16 a).val sc) (congrArg (· + 8) (size_wptr16 p)) (fun sc => congrArg (· :: []) (val_wptr16 sc p)) (fun sc a => rfl)
    fun sc n m hn hd => by within' toUcs2_W_W16 (E := Sealed.real) (d := d + 2) (link_are v sc) p (by omega)

theorem shallow_w16_toUcs2_SW (v : Version) (s : List U16) :
    ShallowOn false v (name% "toUcs2") [.wstr16 s] ((W16.toUcs2WS (Unicode.charClass v) s).map .str16) :=
  shallowOn_of' (l := s.length + 8) (fun sc => [.str .wchar (units16 s)]) (fun sc a => (Arg.str16 a).val sc) (congrArg (· + 8) (size_wstr16 s)) (fun sc => congrArg (· :: []) (val_wstr16 sc s)) (fun sc a => rfl)
    fun sc n m hn hd => by within' toUcs2_SW_W16 (E := Sealed.real) (d := d + 1) (link_are v sc) s (by omega)

theorem shallow_w16_toUcs4_PW (v : Version) (p : Ptr U16) :
    ShallowOn false v (name% "toUcs4") [.wptr16 p] ((W16.toUcs4W p).map .str32) :=
  shallowOn_of' (l := size p + 8) (fun sc => [argW16 p]) (fun sc a => (Arg.str32 a).val sc) (congrArg (· + 8) (size_wptr16 p)) (fun sc => congrArg (· :: []) (val_wptr16 sc p)) (fun sc a => rfl)
    fun sc n m hn hd => by within' toUcs4_W_W16 (E := Sealed.real) (d := d + 3) p (by omega)

theorem shallow_w16_toUcs4_SW (v : Version) (s : List U16) :
    ShallowOn false v (name% "toUcs4") [.wstr16 s] ((W16.toUcs4WS s).map .str32) :=
  shallowOn_of' (l := s.length + 8) (fun sc => [.str .wchar (units16 s)]) (fun sc a => (Arg.str32 a).val sc) (congrArg (· + 8) (size_wstr16 s)) (fun sc => congrArg (· :: []) (val_wstr16 sc s)) (fun sc a => rfl)
    fun sc n m hn hd => by within' toUcs4_SW_W16 (E := Sealed.real) (d := d + 2) s (by omega)

theorem shallow_w16_toWstring_P8 (v : Version) (p : Ptr Byte) :
    ShallowOn false v (name% "toWstring") [.ptr8 p] ((W16.toWstring8 p).map .wstr16) :=
  shallowOn_of' (l := size p + 8) (fun sc => [(Arg.ptr8 p).val sc]) (fun sc a => .str .wchar (units16 a)) (rfl) (fun sc => rfl) (fun sc a => val_wstr16 sc a)
    fun sc n m hn hd => by within' toWstring_8_W16 (E := Sealed.real) (d := d + 3) p (by omega)

theorem shallow_w16_toWstring_S8 (v : Version) (s : List Byte) :
    ShallowOn false v (name% "toWstring") [.str8 s] ((W16.toWstring8S s).map .wstr16) :=
  shallowOn_of' (l := s.length + 8) (fun sc => [(Arg.str8 s).val sc]) (fun sc a => .str .wchar (units16 a)) (rfl) (fun sc => rfl) (fun sc a => val_wstr16 sc a)
    fun sc n m hn hd => by within' toWstring_S8_W16 (E := Sealed.real) (d := d + 2) s (by omega)

theorem shallow_w16_toWstring_P16 (v : Version) (p : Ptr U16) :
    ShallowOn false v (name% "toWstring") [.ptr16 p] ((W16.toWstring16 (Unicode.charClass v) p).map .wstr16) :=
  shallowOn_of' (l := size p + 8) (fun sc => [(Arg.ptr16 p).val sc]) (fun sc a => .str .wchar (units16 a)) (rfl) (fun sc => rfl) (fun sc a => val_wstr16 sc a)
    fun sc n m hn hd => by within' toWstring_16_W16 (E := Sealed.real) (d := d + 2) (link_are v sc) p (by omega)

theorem shallow_w16_toWstring_S16 (v : Version) (s : List U16) :
    ShallowOn false v (name% "toWstring") [.str16 s] ((W16.toWstring16S (Unicode.charClass v) s).map .wstr16) :=
  shallowOn_of' (l := s.length + 8) (fun sc => [(Arg.str16 s).val sc]) (fun sc a => .str .wchar (units16 a)) (rfl) (fun sc => rfl) (fun sc a => val_wstr16 sc a)
    fun sc n m hn hd => by within' toWstring_S16_W16 (E := Sealed.real) (d := d + 1) (link_are v sc) s (by omega)

theorem shallow_w16_toWstring_P32 (v : Version) (p : Ptr U32) :
    ShallowOn false v (name% "toWstring") [.ptr32 p] ((W16.toWstring32 p).map .wstr16) :=
  shallowOn_of' (l := size p + 8) (fun sc => [(Arg.ptr32 p).val sc]) (fun sc a => .str .wchar (units16 a)) (rfl) (fun sc => rfl) (fun sc a => val_wstr16 sc a)
    fun sc n m hn hd => by within' toWstring_32_W16 (E := Sealed.real) (d := d + 3) p (by omega)

theorem shallow_w16_toWstring_S32 (v : Version) (s : List U32) :
    ShallowOn false v (name% "toWstring") [.str32 s] ((W16.toWstring32S s).map .wstr16) :=
  shallowOn_of' (l := s.length + 8) (fun sc => [(Arg.str32 s).val sc]) (fun sc a => .str .wchar (units16 a)) (rfl) (fun sc => rfl) (fun sc a => val_wstr16 sc a)
    fun sc n m hn hd => by within' toWstring_S32_W16 (E := Sealed.real) (d := d + 2) s (by omega)

theorem shallow_w32_isUtf8_PW (v : Version) (p : Ptr U32) :
    ShallowOn true v (name% "isUtf8") [.wptr p] ((W32.isUtf8W (Unicode.charClass v) p).map .bool) :=
  shallowOn_of fun sc n m hn hd => by within isUtf8_W_W32 (E := Sealed.real) (d := d + 2) (link_are v sc) p (by fits)

theorem shallow_w32_isUtf8_SW (v : Version) (s : List U32) :
    ShallowOn true v (name% "isUtf8") [.wstr s] ((W32.isUtf8WS (Unicode.charClass v) s).map .bool) :=
  shallowOn_of fun sc n m hn hd => by within isUtf8_SW_W32 (E := Sealed.real) (d := d + 1) (link_are v sc) s (by fits)

theorem shallow_w32_isUtf16_PW (v : Version) (p : Ptr U32) :
    ShallowOn true v (name% "isUtf16") [.wptr p] ((W32.isUtf16W (Unicode.charClass v) p).map .bool) :=
  shallowOn_of fun sc n m hn hd => by within isUtf16_W_W32 (E := Sealed.real) (d := d + 2) (link_are v sc) p (by fits)

theorem shallow_w32_isUtf16_SW (v : Version) (s : List U32) :
    ShallowOn true v (name% "isUtf16") [.wstr s] ((W32.isUtf16WS (Unicode.charClass v) s).map .bool) :=
  shallowOn_of fun sc n m hn hd => by within isUtf16_SW_W32 (E := Sealed.real) (d := d + 1) (link_are v sc) s (by fits)

theorem shallow_w32_isUcs2_PW (v : Version) (p : Ptr U32) :
    ShallowOn true v (name% "isUcs2") [.wptr p] ((W32.isUcs2W (Unicode.charClass v) p).map .bool) :=
  shallowOn_of fun sc n m hn hd => by within isUcs2_W_W32 (E := Sealed.real) (d := d + 2) (link_are v sc) p (by fits)

theorem shallow_w32_isUcs2_SW (v : Version) (s : List U32) :
    ShallowOn true v (name% "isUcs2") [.wstr s] ((W32.isUcs2WS (Unicode.charClass v) s).map .bool) :=
  shallowOn_of fun sc n m hn hd => by within isUcs2_SW_W32 (E := Sealed.real) (d := d + 1) (link_are v sc) s (by fits)

theorem shallow_w32_isUcs4_PW (v : Version) (p : Ptr U32) :
    ShallowOn true v (name% "isUcs4") [.wptr p] ((W32.isUcs4W (Unicode.charClass v) p).map .bool) :=
  shallowOn_of fun sc n m hn hd => by within isUcs4_W_W32 (E := Sealed.real) (d := d + 2) (link_are v sc) p (by fits)

theorem shallow_w32_isUcs4_SW (v : Version) (s : List U32) :
    ShallowOn true v (name% "isUcs4") [.wstr s] ((W32.isUcs4WS (Unicode.charClass v) s).map .bool) :=
  shallowOn_of fun sc n m hn hd => by within isUcs4_SW_W32 (E := Sealed.real) (d := d + 1) (link_are v sc) s (by fits)

theorem shallow_w32_isWstring_P8 (v : Version) (p : Ptr Byte) :
    ShallowOn true v (name% "isWstring") [.ptr8 p] ((W32.isWstring8 (Unicode.charClass v) p).map .bool) :=
  shallowOn_of fun sc n m hn hd => by within isWstring_8_W32 (E := Sealed.real) (d := d + 2) (link_are v sc) p (by fits)

theorem shallow_w32_isWstring_S8 (v : Version) (s : List Byte) :
    ShallowOn true v (name% "isWstring") [.str8 s] ((W32.isWstring8S (Unicode.charClass v) s).map .bool) :=
  shallowOn_of fun sc n m hn hd => by within isWstring_S8_W32 (E := Sealed.real) (d := d + 2) (link_are v sc) s (by fits)

theorem shallow_w32_isWstring_P16 (v : Version) (p : Ptr U16) :
    ShallowOn true v (name% "isWstring") [.ptr16 p] ((W32.isWstring16 (Unicode.charClass v) p).map .bool) :=
  shallowOn_of fun sc n m hn hd => by within isWstring_16_W32 (E := Sealed.real) (d := d + 2) (link_are v sc) p (by fits)

theorem shallow_w32_isWstring_S16 (v : Version) (s : List U16) :
    ShallowOn true v (name% "isWstring") [.str16 s] ((W32.isWstring16S (Unicode.charClass v) s).map .bool) :=
  shallowOn_of fun sc n m hn hd => by within isWstring_S16_W32 (E := Sealed.real) (d := d + 2) (link_are v sc) s (by fits)

theorem shallow_w32_isWstring_P32 (v : Version) (p : Ptr U32) :
    ShallowOn true v (name% "isWstring") [.ptr32 p] ((W32.isWstring32 (Unicode.charClass v) p).map .bool) :=
  shallowOn_of fun sc n m hn hd => by within isWstring_32_W32 (E := Sealed.real) (d := d + 2) (link_are v sc) p (by fits)

theorem shallow_w32_isWstring_S32 (v : Version) (s : List U32) :
    ShallowOn true v (name% "isWstring") [.str32 s] ((W32.isWstring32S (Unicode.charClass v) s).map .bool) :=
  shallowOn_of fun sc n m hn hd => by within isWstring_S32_W32 (E := Sealed.real) (d := d + 2) (link_are v sc) s (by fits)

theorem shallow_w32_toUtf8_PW (v : Version) (p : Ptr U32) :
    ShallowOn true v (name% "toUtf8") [.wptr p] ((W32.toUtf8W p).map .str8) :=
  shallowOn_of fun sc n m hn hd => by within toUtf8_W_W32 (E := Sealed.real) (d := d + 3) p (by fits)

theorem shallow_w32_toUtf8_SW (v : Version) (s : List U32) :
    ShallowOn true v (name% "toUtf8") [.wstr s] ((W32.toUtf8WS s).map .str8) :=
  shallowOn_of fun sc n m hn hd => by within toUtf8_SW_W32 (E := Sealed.real) (d := d + 2) s (by fits)

theorem shallow_w32_toUtf16_PW (v : Version) (p : Ptr U32) :
    ShallowOn true v (name% "toUtf16") [.wptr p] ((W32.toUtf16W p).map .str16) :=
  shallowOn_of fun sc n m hn hd => by within toUtf16_W_W32 (E := Sealed.real) (d := d + 3) p (by fits)

theorem shallow_w32_toUtf16_SW (v : Version) (s : List U32) :
    ShallowOn true v (name% "toUtf16") [.wstr s] ((W32.toUtf16WS s).map .str16) :=
  shallowOn_of fun sc n m hn hd => by within toUtf16_SW_W32 (E := Sealed.real) (d := d + 2) s (by fits)

theorem shallow_w32_toUcs2_PW (v : Version) (p : Ptr U32) :
    ShallowOn true v (name% "toUcs2") [.wptr p] ((W32.toUcs2W p).map .str16) :=
  shallowOn_of fun sc n m hn hd => by within toUcs2_W_W32 (E := Sealed.real) (d := d + 3) p (by fits)

theorem shallow_w32_toUcs2_SW (v : Version) (s : List U32) :
    ShallowOn true v (name% "toUcs2") [.wstr s] ((W32.toUcs2WS s).map .str16) :=
  shallowOn_of fun sc n m hn hd => by within toUcs2_SW_W32 (E := Sealed.real) (d := d + 2) s (by fits)

theorem shallow_w32_toUcs4_PW (v : Version) (p : Ptr U32) :
    ShallowOn true v (name% "toUcs4") [.wptr p] ((W32.toUcs4W (Unicode.charClass v) p).map .str32) :=
  shallowOn_of fun sc n m hn hd => by within toUcs4_W_W32 (E := Sealed.real) (d := d + 2) (link_are v sc) p (by fits)

theorem shallow_w32_toUcs4_SW (v : Version) (s : List U32) :
    ShallowOn true v (name% "toUcs4") [.wstr s] ((W32.toUcs4WS (Unicode.charClass v) s).map .str32) :=
  shallowOn_of fun sc n m hn hd => by within toUcs4_SW_W32 (E := Sealed.real) (d := d + 1) (link_are v sc) s (by fits)

theorem shallow_w32_toWstring_P8 (v : Version) (p : Ptr Byte) :
    ShallowOn true v (name% "toWstring") [.ptr8 p] ((W32.toWstring8 p).map .wstr) :=
  shallowOn_of fun sc n m hn hd => by within toWstring_8_W32 (E := Sealed.real) (d := d + 3) p (by fits)

theorem shallow_w32_toWstring_S8 (v : Version) (s : List Byte) :
    ShallowOn true v (name% "toWstring") [.str8 s] ((W32.toWstring8S s).map .wstr) :=
  shallowOn_of fun sc n m hn hd => by within toWstring_S8_W32 (E := Sealed.real) (d := d + 2) s (by fits)

theorem shallow_w32_toWstring_P16 (v : Version) (p : Ptr U16) :
    ShallowOn true v (name% "toWstring") [.ptr16 p] ((W32.toWstring16 p).map .wstr) :=
  shallowOn_of fun sc n m hn hd => by within toWstring_16_W32 (E := Sealed.real) (d := d + 3) p (by fits)

theorem shallow_w32_toWstring_S16 (v : Version) (s : List U16) :
    ShallowOn true v (name% "toWstring") [.str16 s] ((W32.toWstring16S s).map .wstr) :=
  shallowOn_of fun sc n m hn hd => by within toWstring_S16_W32 (E := Sealed.real) (d := d + 2) s (by fits)

theorem shallow_w32_toWstring_P32 (v : Version) (p : Ptr U32) :
    ShallowOn true v (name% "toWstring") [.ptr32 p] ((W32.toWstring32 (Unicode.charClass v) p).map .wstr) :=
  shallowOn_of fun sc n m hn hd => by within toWstring_32_W32 (E := Sealed.real) (d := d + 2) (link_are v sc) p (by fits)

theorem shallow_w32_toWstring_S32 (v : Version) (s : List U32) :
    ShallowOn true v (name% "toWstring") [.str32 s] ((W32.toWstring32S (Unicode.charClass v) s).map .wstr) :=
  shallowOn_of fun sc n m hn hd => by within toWstring_S32_W32 (E := Sealed.real) (d := d + 1) (link_are v sc) s (by fits)

end Ansak.Props
