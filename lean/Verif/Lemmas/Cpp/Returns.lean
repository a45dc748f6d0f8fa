import Verif.Props.TextDefined
import Verif.Lemmas.Cpp.TextAttr

/-! # What a call of the text returns, in terms of the model -/

namespace Ansak.Props

open Cpp
open Spec (Arg Runs RunsMember Returns)

theorem returns_iff {α : Type} {v : Version} {name : Nat} {args : List Arg} {x : Res α} {f : α → Arg}
    (h : Runs v name args (x.map f)) (hf : ∀ {a b}, f a = f b → a = b) {a : α} :
    Returns v name args (f a) ↔ x = .ok a := by
  constructor
  · intro h'
    have := C67_unique h h'
    cases x with
    | ok b =>
      injection this with this
      rw [hf this]
    | ub => nomatch this
  · rintro rfl; exact h

theorem runs_ub_iff {α : Type} {v : Version} {name : Nat} {args : List Arg} {x : Res α} {f : α → Arg}
    (h : Runs v name args (x.map f)) : Runs v name args .ub ↔ x = .ub := by
  constructor
  · intro h'
    have := C67_unique h h'
    cases x with
    | ok b => nomatch this
    | ub => rfl
  · rintro rfl; exact h

@[text_iff] theorem returns_isUtf8_S1 {v : Version} {s : List Byte} {r : Bool} :
    Returns v (name% "isUtf8") [.str8 s] (.bool r) ↔ isUtf8S1 (Unicode.charClass v) s = .ok r :=
  returns_iff (C67_isUtf8_S1 v s) (fun h => by injection h)

@[text_iff] theorem ub_isUtf8_S1 {v : Version} {s : List Byte} :
    Runs v (name% "isUtf8") [.str8 s] .ub ↔ isUtf8S1 (Unicode.charClass v) s = .ub :=
  runs_ub_iff (C67_isUtf8_S1 v s)

@[text_iff] theorem returns_isUtf8_SR {v : Version} {s : List Byte} {t : Int} {r : Bool} :
    Returns v (name% "isUtf8") [.str8 s, .range t] (.bool r) ↔ isUtf8S (Unicode.charClass v) s t Pred.none = .ok r :=
  returns_iff (C67_isUtf8_SR v s t) (fun h => by injection h)

@[text_iff] theorem ub_isUtf8_SR {v : Version} {s : List Byte} {t : Int} :
    Runs v (name% "isUtf8") [.str8 s, .range t] .ub ↔ isUtf8S (Unicode.charClass v) s t Pred.none = .ub :=
  runs_ub_iff (C67_isUtf8_SR v s t)

@[text_iff] theorem returns_isUtf8_S2 {v : Version} {s : List Byte} {q : Pred} {r : Bool} :
    Returns v (name% "isUtf8") [.str8 s, .pred q] (.bool r) ↔ isUtf8S2 (Unicode.charClass v) s q = .ok r :=
  returns_iff (C67_isUtf8_S2 v s q) (fun h => by injection h)

@[text_iff] theorem ub_isUtf8_S2 {v : Version} {s : List Byte} {q : Pred} :
    Runs v (name% "isUtf8") [.str8 s, .pred q] .ub ↔ isUtf8S2 (Unicode.charClass v) s q = .ub :=
  runs_ub_iff (C67_isUtf8_S2 v s q)

@[text_iff] theorem returns_isUtf8_S3 {v : Version} {s : List Byte} {t : Int} {q : Pred} {r : Bool} :
    Returns v (name% "isUtf8") [.str8 s, .range t, .pred q] (.bool r) ↔ isUtf8S (Unicode.charClass v) s t q = .ok r :=
  returns_iff (C67_isUtf8_S3 v s t q) (fun h => by injection h)

@[text_iff] theorem ub_isUtf8_S3 {v : Version} {s : List Byte} {t : Int} {q : Pred} :
    Runs v (name% "isUtf8") [.str8 s, .range t, .pred q] .ub ↔ isUtf8S (Unicode.charClass v) s t q = .ub :=
  runs_ub_iff (C67_isUtf8_S3 v s t q)

@[text_iff] theorem returns_isUtf8_P1 {v : Version} {p : Ptr Byte} {r : Bool} :
    Returns v (name% "isUtf8") [.ptr8 p] (.bool r) ↔ isUtf8P1 (Unicode.charClass v) p = .ok r :=
  returns_iff (C67_isUtf8_P1 v p) (fun h => by injection h)

@[text_iff] theorem ub_isUtf8_P1 {v : Version} {p : Ptr Byte} :
    Runs v (name% "isUtf8") [.ptr8 p] .ub ↔ isUtf8P1 (Unicode.charClass v) p = .ub :=
  runs_ub_iff (C67_isUtf8_P1 v p)

@[text_iff] theorem returns_isUtf8_PR {v : Version} {p : Ptr Byte} {t : Int} {r : Bool} :
    Returns v (name% "isUtf8") [.ptr8 p, .range t] (.bool r) ↔ isUtf8 (Unicode.charClass v) p t Pred.none = .ok r :=
  returns_iff (C67_isUtf8_PR v p t) (fun h => by injection h)

@[text_iff] theorem ub_isUtf8_PR {v : Version} {p : Ptr Byte} {t : Int} :
    Runs v (name% "isUtf8") [.ptr8 p, .range t] .ub ↔ isUtf8 (Unicode.charClass v) p t Pred.none = .ub :=
  runs_ub_iff (C67_isUtf8_PR v p t)

@[text_iff] theorem returns_isUtf8_P2 {v : Version} {p : Ptr Byte} {q : Pred} {r : Bool} :
    Returns v (name% "isUtf8") [.ptr8 p, .pred q] (.bool r) ↔ isUtf8P2 (Unicode.charClass v) p q = .ok r :=
  returns_iff (C67_isUtf8_P2 v p q) (fun h => by injection h)

@[text_iff] theorem ub_isUtf8_P2 {v : Version} {p : Ptr Byte} {q : Pred} :
    Runs v (name% "isUtf8") [.ptr8 p, .pred q] .ub ↔ isUtf8P2 (Unicode.charClass v) p q = .ub :=
  runs_ub_iff (C67_isUtf8_P2 v p q)

@[text_iff] theorem returns_isUtf8_P3 {v : Version} {p : Ptr Byte} {t : Int} {q : Pred} {r : Bool} :
    Returns v (name% "isUtf8") [.ptr8 p, .range t, .pred q] (.bool r) ↔ isUtf8 (Unicode.charClass v) p t q = .ok r :=
  returns_iff (C67_isUtf8_P3 v p t q) (fun h => by injection h)

@[text_iff] theorem ub_isUtf8_P3 {v : Version} {p : Ptr Byte} {t : Int} {q : Pred} :
    Runs v (name% "isUtf8") [.ptr8 p, .range t, .pred q] .ub ↔ isUtf8 (Unicode.charClass v) p t q = .ub :=
  runs_ub_iff (C67_isUtf8_P3 v p t q)

@[text_iff] theorem returns_isUtf8_L2 {v : Version} {p : Ptr Byte} {len : U32} {r : Bool} :
    Returns v (name% "isUtf8") [.ptr8 p, .uint len] (.bool r) ↔ isUtf8Len (Unicode.charClass v) p len Pred.none = .ok r :=
  returns_iff (C67_isUtf8_L2 v p len) (fun h => by injection h)

@[text_iff] theorem ub_isUtf8_L2 {v : Version} {p : Ptr Byte} {len : U32} :
    Runs v (name% "isUtf8") [.ptr8 p, .uint len] .ub ↔ isUtf8Len (Unicode.charClass v) p len Pred.none = .ub :=
  runs_ub_iff (C67_isUtf8_L2 v p len)

@[text_iff] theorem returns_isUtf8_L3 {v : Version} {p : Ptr Byte} {len : U32} {q : Pred} {r : Bool} :
    Returns v (name% "isUtf8") [.ptr8 p, .uint len, .pred q] (.bool r) ↔ isUtf8Len (Unicode.charClass v) p len q = .ok r :=
  returns_iff (C67_isUtf8_L3 v p len q) (fun h => by injection h)

@[text_iff] theorem ub_isUtf8_L3 {v : Version} {p : Ptr Byte} {len : U32} {q : Pred} :
    Runs v (name% "isUtf8") [.ptr8 p, .uint len, .pred q] .ub ↔ isUtf8Len (Unicode.charClass v) p len q = .ub :=
  runs_ub_iff (C67_isUtf8_L3 v p len q)

@[text_iff] theorem returns_isUtf16_S1 {v : Version} {s : List U16} {r : Bool} :
    Returns v (name% "isUtf16") [.str16 s] (.bool r) ↔ isUtf16S1 (Unicode.charClass v) s = .ok r :=
  returns_iff (C67_isUtf16_S1 v s) (fun h => by injection h)

@[text_iff] theorem ub_isUtf16_S1 {v : Version} {s : List U16} :
    Runs v (name% "isUtf16") [.str16 s] .ub ↔ isUtf16S1 (Unicode.charClass v) s = .ub :=
  runs_ub_iff (C67_isUtf16_S1 v s)

@[text_iff] theorem returns_isUtf16_SR {v : Version} {s : List U16} {t : Int} {r : Bool} :
    Returns v (name% "isUtf16") [.str16 s, .range t] (.bool r) ↔ isUtf16S (Unicode.charClass v) s t Pred.none = .ok r :=
  returns_iff (C67_isUtf16_SR v s t) (fun h => by injection h)

@[text_iff] theorem ub_isUtf16_SR {v : Version} {s : List U16} {t : Int} :
    Runs v (name% "isUtf16") [.str16 s, .range t] .ub ↔ isUtf16S (Unicode.charClass v) s t Pred.none = .ub :=
  runs_ub_iff (C67_isUtf16_SR v s t)

@[text_iff] theorem returns_isUtf16_S2 {v : Version} {s : List U16} {q : Pred} {r : Bool} :
    Returns v (name% "isUtf16") [.str16 s, .pred q] (.bool r) ↔ isUtf16S2 (Unicode.charClass v) s q = .ok r :=
  returns_iff (C67_isUtf16_S2 v s q) (fun h => by injection h)

@[text_iff] theorem ub_isUtf16_S2 {v : Version} {s : List U16} {q : Pred} :
    Runs v (name% "isUtf16") [.str16 s, .pred q] .ub ↔ isUtf16S2 (Unicode.charClass v) s q = .ub :=
  runs_ub_iff (C67_isUtf16_S2 v s q)

@[text_iff] theorem returns_isUtf16_S3 {v : Version} {s : List U16} {t : Int} {q : Pred} {r : Bool} :
    Returns v (name% "isUtf16") [.str16 s, .range t, .pred q] (.bool r) ↔ isUtf16S (Unicode.charClass v) s t q = .ok r :=
  returns_iff (C67_isUtf16_S3 v s t q) (fun h => by injection h)

@[text_iff] theorem ub_isUtf16_S3 {v : Version} {s : List U16} {t : Int} {q : Pred} :
    Runs v (name% "isUtf16") [.str16 s, .range t, .pred q] .ub ↔ isUtf16S (Unicode.charClass v) s t q = .ub :=
  runs_ub_iff (C67_isUtf16_S3 v s t q)

@[text_iff] theorem returns_isUtf16_P1 {v : Version} {p : Ptr U16} {r : Bool} :
    Returns v (name% "isUtf16") [.ptr16 p] (.bool r) ↔ isUtf16P1 (Unicode.charClass v) p = .ok r :=
  returns_iff (C67_isUtf16_P1 v p) (fun h => by injection h)

@[text_iff] theorem ub_isUtf16_P1 {v : Version} {p : Ptr U16} :
    Runs v (name% "isUtf16") [.ptr16 p] .ub ↔ isUtf16P1 (Unicode.charClass v) p = .ub :=
  runs_ub_iff (C67_isUtf16_P1 v p)

@[text_iff] theorem returns_isUtf16_PR {v : Version} {p : Ptr U16} {t : Int} {r : Bool} :
    Returns v (name% "isUtf16") [.ptr16 p, .range t] (.bool r) ↔ isUtf16 (Unicode.charClass v) p t Pred.none = .ok r :=
  returns_iff (C67_isUtf16_PR v p t) (fun h => by injection h)

@[text_iff] theorem ub_isUtf16_PR {v : Version} {p : Ptr U16} {t : Int} :
    Runs v (name% "isUtf16") [.ptr16 p, .range t] .ub ↔ isUtf16 (Unicode.charClass v) p t Pred.none = .ub :=
  runs_ub_iff (C67_isUtf16_PR v p t)

@[text_iff] theorem returns_isUtf16_P2 {v : Version} {p : Ptr U16} {q : Pred} {r : Bool} :
    Returns v (name% "isUtf16") [.ptr16 p, .pred q] (.bool r) ↔ isUtf16P2 (Unicode.charClass v) p q = .ok r :=
  returns_iff (C67_isUtf16_P2 v p q) (fun h => by injection h)

@[text_iff] theorem ub_isUtf16_P2 {v : Version} {p : Ptr U16} {q : Pred} :
    Runs v (name% "isUtf16") [.ptr16 p, .pred q] .ub ↔ isUtf16P2 (Unicode.charClass v) p q = .ub :=
  runs_ub_iff (C67_isUtf16_P2 v p q)

@[text_iff] theorem returns_isUtf16_P3 {v : Version} {p : Ptr U16} {t : Int} {q : Pred} {r : Bool} :
    Returns v (name% "isUtf16") [.ptr16 p, .range t, .pred q] (.bool r) ↔ isUtf16 (Unicode.charClass v) p t q = .ok r :=
  returns_iff (C67_isUtf16_P3 v p t q) (fun h => by injection h)

@[text_iff] theorem ub_isUtf16_P3 {v : Version} {p : Ptr U16} {t : Int} {q : Pred} :
    Runs v (name% "isUtf16") [.ptr16 p, .range t, .pred q] .ub ↔ isUtf16 (Unicode.charClass v) p t q = .ub :=
  runs_ub_iff (C67_isUtf16_P3 v p t q)

@[text_iff] theorem returns_isUcs2_S1 {v : Version} {s : List U16} {r : Bool} :
    Returns v (name% "isUcs2") [.str16 s] (.bool r) ↔ isUcs2S1 (Unicode.charClass v) s = .ok r :=
  returns_iff (C67_isUcs2_S1 v s) (fun h => by injection h)

@[text_iff] theorem ub_isUcs2_S1 {v : Version} {s : List U16} :
    Runs v (name% "isUcs2") [.str16 s] .ub ↔ isUcs2S1 (Unicode.charClass v) s = .ub :=
  runs_ub_iff (C67_isUcs2_S1 v s)

@[text_iff] theorem returns_isUcs2_SR {v : Version} {s : List U16} {t : Int} {r : Bool} :
    Returns v (name% "isUcs2") [.str16 s, .range t] (.bool r) ↔ isUcs2S (Unicode.charClass v) s t Pred.none = .ok r :=
  returns_iff (C67_isUcs2_SR v s t) (fun h => by injection h)

@[text_iff] theorem ub_isUcs2_SR {v : Version} {s : List U16} {t : Int} :
    Runs v (name% "isUcs2") [.str16 s, .range t] .ub ↔ isUcs2S (Unicode.charClass v) s t Pred.none = .ub :=
  runs_ub_iff (C67_isUcs2_SR v s t)

@[text_iff] theorem returns_isUcs2_S2 {v : Version} {s : List U16} {q : Pred} {r : Bool} :
    Returns v (name% "isUcs2") [.str16 s, .pred q] (.bool r) ↔ isUcs2S2 (Unicode.charClass v) s q = .ok r :=
  returns_iff (C67_isUcs2_S2 v s q) (fun h => by injection h)

@[text_iff] theorem ub_isUcs2_S2 {v : Version} {s : List U16} {q : Pred} :
    Runs v (name% "isUcs2") [.str16 s, .pred q] .ub ↔ isUcs2S2 (Unicode.charClass v) s q = .ub :=
  runs_ub_iff (C67_isUcs2_S2 v s q)

@[text_iff] theorem returns_isUcs2_S3 {v : Version} {s : List U16} {t : Int} {q : Pred} {r : Bool} :
    Returns v (name% "isUcs2") [.str16 s, .range t, .pred q] (.bool r) ↔ isUcs2S (Unicode.charClass v) s t q = .ok r :=
  returns_iff (C67_isUcs2_S3 v s t q) (fun h => by injection h)

@[text_iff] theorem ub_isUcs2_S3 {v : Version} {s : List U16} {t : Int} {q : Pred} :
    Runs v (name% "isUcs2") [.str16 s, .range t, .pred q] .ub ↔ isUcs2S (Unicode.charClass v) s t q = .ub :=
  runs_ub_iff (C67_isUcs2_S3 v s t q)

@[text_iff] theorem returns_isUcs2_P1 {v : Version} {p : Ptr U16} {r : Bool} :
    Returns v (name% "isUcs2") [.ptr16 p] (.bool r) ↔ isUcs2P1 (Unicode.charClass v) p = .ok r :=
  returns_iff (C67_isUcs2_P1 v p) (fun h => by injection h)

@[text_iff] theorem ub_isUcs2_P1 {v : Version} {p : Ptr U16} :
    Runs v (name% "isUcs2") [.ptr16 p] .ub ↔ isUcs2P1 (Unicode.charClass v) p = .ub :=
  runs_ub_iff (C67_isUcs2_P1 v p)

@[text_iff] theorem returns_isUcs2_PR {v : Version} {p : Ptr U16} {t : Int} {r : Bool} :
    Returns v (name% "isUcs2") [.ptr16 p, .range t] (.bool r) ↔ isUcs2 (Unicode.charClass v) p t Pred.none = .ok r :=
  returns_iff (C67_isUcs2_PR v p t) (fun h => by injection h)

@[text_iff] theorem ub_isUcs2_PR {v : Version} {p : Ptr U16} {t : Int} :
    Runs v (name% "isUcs2") [.ptr16 p, .range t] .ub ↔ isUcs2 (Unicode.charClass v) p t Pred.none = .ub :=
  runs_ub_iff (C67_isUcs2_PR v p t)

@[text_iff] theorem returns_isUcs2_P2 {v : Version} {p : Ptr U16} {q : Pred} {r : Bool} :
    Returns v (name% "isUcs2") [.ptr16 p, .pred q] (.bool r) ↔ isUcs2P2 (Unicode.charClass v) p q = .ok r :=
  returns_iff (C67_isUcs2_P2 v p q) (fun h => by injection h)

@[text_iff] theorem ub_isUcs2_P2 {v : Version} {p : Ptr U16} {q : Pred} :
    Runs v (name% "isUcs2") [.ptr16 p, .pred q] .ub ↔ isUcs2P2 (Unicode.charClass v) p q = .ub :=
  runs_ub_iff (C67_isUcs2_P2 v p q)

@[text_iff] theorem returns_isUcs2_P3 {v : Version} {p : Ptr U16} {t : Int} {q : Pred} {r : Bool} :
    Returns v (name% "isUcs2") [.ptr16 p, .range t, .pred q] (.bool r) ↔ isUcs2 (Unicode.charClass v) p t q = .ok r :=
  returns_iff (C67_isUcs2_P3 v p t q) (fun h => by injection h)

@[text_iff] theorem ub_isUcs2_P3 {v : Version} {p : Ptr U16} {t : Int} {q : Pred} :
    Runs v (name% "isUcs2") [.ptr16 p, .range t, .pred q] .ub ↔ isUcs2 (Unicode.charClass v) p t q = .ub :=
  runs_ub_iff (C67_isUcs2_P3 v p t q)

@[text_iff] theorem returns_isUcs4_S1 {v : Version} {s : List U32} {r : Bool} :
    Returns v (name% "isUcs4") [.str32 s] (.bool r) ↔ isUcs4S1 (Unicode.charClass v) s = .ok r :=
  returns_iff (C67_isUcs4_S1 v s) (fun h => by injection h)

@[text_iff] theorem ub_isUcs4_S1 {v : Version} {s : List U32} :
    Runs v (name% "isUcs4") [.str32 s] .ub ↔ isUcs4S1 (Unicode.charClass v) s = .ub :=
  runs_ub_iff (C67_isUcs4_S1 v s)

@[text_iff] theorem returns_isUcs4_SR {v : Version} {s : List U32} {t : Int} {r : Bool} :
    Returns v (name% "isUcs4") [.str32 s, .range t] (.bool r) ↔ isUcs4S (Unicode.charClass v) s t Pred.none = .ok r :=
  returns_iff (C67_isUcs4_SR v s t) (fun h => by injection h)

@[text_iff] theorem ub_isUcs4_SR {v : Version} {s : List U32} {t : Int} :
    Runs v (name% "isUcs4") [.str32 s, .range t] .ub ↔ isUcs4S (Unicode.charClass v) s t Pred.none = .ub :=
  runs_ub_iff (C67_isUcs4_SR v s t)

@[text_iff] theorem returns_isUcs4_S2 {v : Version} {s : List U32} {q : Pred} {r : Bool} :
    Returns v (name% "isUcs4") [.str32 s, .pred q] (.bool r) ↔ isUcs4S2 (Unicode.charClass v) s q = .ok r :=
  returns_iff (C67_isUcs4_S2 v s q) (fun h => by injection h)

@[text_iff] theorem ub_isUcs4_S2 {v : Version} {s : List U32} {q : Pred} :
    Runs v (name% "isUcs4") [.str32 s, .pred q] .ub ↔ isUcs4S2 (Unicode.charClass v) s q = .ub :=
  runs_ub_iff (C67_isUcs4_S2 v s q)

@[text_iff] theorem returns_isUcs4_S3 {v : Version} {s : List U32} {t : Int} {q : Pred} {r : Bool} :
    Returns v (name% "isUcs4") [.str32 s, .range t, .pred q] (.bool r) ↔ isUcs4S (Unicode.charClass v) s t q = .ok r :=
  returns_iff (C67_isUcs4_S3 v s t q) (fun h => by injection h)

@[text_iff] theorem ub_isUcs4_S3 {v : Version} {s : List U32} {t : Int} {q : Pred} :
    Runs v (name% "isUcs4") [.str32 s, .range t, .pred q] .ub ↔ isUcs4S (Unicode.charClass v) s t q = .ub :=
  runs_ub_iff (C67_isUcs4_S3 v s t q)

@[text_iff] theorem returns_isUcs4_P1 {v : Version} {p : Ptr U32} {r : Bool} :
    Returns v (name% "isUcs4") [.ptr32 p] (.bool r) ↔ isUcs4P1 (Unicode.charClass v) p = .ok r :=
  returns_iff (C67_isUcs4_P1 v p) (fun h => by injection h)

@[text_iff] theorem ub_isUcs4_P1 {v : Version} {p : Ptr U32} :
    Runs v (name% "isUcs4") [.ptr32 p] .ub ↔ isUcs4P1 (Unicode.charClass v) p = .ub :=
  runs_ub_iff (C67_isUcs4_P1 v p)

@[text_iff] theorem returns_isUcs4_PR {v : Version} {p : Ptr U32} {t : Int} {r : Bool} :
    Returns v (name% "isUcs4") [.ptr32 p, .range t] (.bool r) ↔ isUcs4 (Unicode.charClass v) p t Pred.none = .ok r :=
  returns_iff (C67_isUcs4_PR v p t) (fun h => by injection h)

@[text_iff] theorem ub_isUcs4_PR {v : Version} {p : Ptr U32} {t : Int} :
    Runs v (name% "isUcs4") [.ptr32 p, .range t] .ub ↔ isUcs4 (Unicode.charClass v) p t Pred.none = .ub :=
  runs_ub_iff (C67_isUcs4_PR v p t)

@[text_iff] theorem returns_isUcs4_P2 {v : Version} {p : Ptr U32} {q : Pred} {r : Bool} :
    Returns v (name% "isUcs4") [.ptr32 p, .pred q] (.bool r) ↔ isUcs4P2 (Unicode.charClass v) p q = .ok r :=
  returns_iff (C67_isUcs4_P2 v p q) (fun h => by injection h)

@[text_iff] theorem ub_isUcs4_P2 {v : Version} {p : Ptr U32} {q : Pred} :
    Runs v (name% "isUcs4") [.ptr32 p, .pred q] .ub ↔ isUcs4P2 (Unicode.charClass v) p q = .ub :=
  runs_ub_iff (C67_isUcs4_P2 v p q)

@[text_iff] theorem returns_isUcs4_P3 {v : Version} {p : Ptr U32} {t : Int} {q : Pred} {r : Bool} :
    Returns v (name% "isUcs4") [.ptr32 p, .range t, .pred q] (.bool r) ↔ isUcs4 (Unicode.charClass v) p t q = .ok r :=
  returns_iff (C67_isUcs4_P3 v p t q) (fun h => by injection h)

@[text_iff] theorem ub_isUcs4_P3 {v : Version} {p : Ptr U32} {t : Int} {q : Pred} :
    Runs v (name% "isUcs4") [.ptr32 p, .range t, .pred q] .ub ↔ isUcs4 (Unicode.charClass v) p t q = .ub :=
  runs_ub_iff (C67_isUcs4_P3 v p t q)

@[text_iff] theorem returns_toUtf8_S16 {v : Version} {s : List U16} {r : List Byte} :
    Returns v (name% "toUtf8") [.str16 s] (.str8 r) ↔ toUtf8From16S s = .ok r :=
  returns_iff (C67_toUtf8_S16 v s) (fun h => by injection h)

@[text_iff] theorem ub_toUtf8_S16 {v : Version} {s : List U16} :
    Runs v (name% "toUtf8") [.str16 s] .ub ↔ toUtf8From16S s = .ub :=
  runs_ub_iff (C67_toUtf8_S16 v s)

@[text_iff] theorem returns_toUtf8_P16 {v : Version} {p : Ptr U16} {r : List Byte} :
    Returns v (name% "toUtf8") [.ptr16 p] (.str8 r) ↔ toUtf8From16 p = .ok r :=
  returns_iff (C67_toUtf8_P16 v p) (fun h => by injection h)

@[text_iff] theorem ub_toUtf8_P16 {v : Version} {p : Ptr U16} :
    Runs v (name% "toUtf8") [.ptr16 p] .ub ↔ toUtf8From16 p = .ub :=
  runs_ub_iff (C67_toUtf8_P16 v p)

@[text_iff] theorem returns_toUtf8_S32 {v : Version} {s : List U32} {r : List Byte} :
    Returns v (name% "toUtf8") [.str32 s] (.str8 r) ↔ toUtf8From32S s = .ok r :=
  returns_iff (C67_toUtf8_S32 v s) (fun h => by injection h)

@[text_iff] theorem ub_toUtf8_S32 {v : Version} {s : List U32} :
    Runs v (name% "toUtf8") [.str32 s] .ub ↔ toUtf8From32S s = .ub :=
  runs_ub_iff (C67_toUtf8_S32 v s)

@[text_iff] theorem returns_toUtf8_P32 {v : Version} {p : Ptr U32} {r : List Byte} :
    Returns v (name% "toUtf8") [.ptr32 p] (.str8 r) ↔ toUtf8From32 p = .ok r :=
  returns_iff (C67_toUtf8_P32 v p) (fun h => by injection h)

@[text_iff] theorem ub_toUtf8_P32 {v : Version} {p : Ptr U32} :
    Runs v (name% "toUtf8") [.ptr32 p] .ub ↔ toUtf8From32 p = .ub :=
  runs_ub_iff (C67_toUtf8_P32 v p)

@[text_iff] theorem returns_toUcs2_S8 {v : Version} {s : List Byte} {r : List U16} :
    Returns v (name% "toUcs2") [.str8 s] (.str16 r) ↔ toUcs2From8S s = .ok r :=
  returns_iff (C67_toUcs2_S8 v s) (fun h => by injection h)

@[text_iff] theorem ub_toUcs2_S8 {v : Version} {s : List Byte} :
    Runs v (name% "toUcs2") [.str8 s] .ub ↔ toUcs2From8S s = .ub :=
  runs_ub_iff (C67_toUcs2_S8 v s)

@[text_iff] theorem returns_toUcs2_P8 {v : Version} {p : Ptr Byte} {r : List U16} :
    Returns v (name% "toUcs2") [.ptr8 p] (.str16 r) ↔ toUcs2From8 p = .ok r :=
  returns_iff (C67_toUcs2_P8 v p) (fun h => by injection h)

@[text_iff] theorem ub_toUcs2_P8 {v : Version} {p : Ptr Byte} :
    Runs v (name% "toUcs2") [.ptr8 p] .ub ↔ toUcs2From8 p = .ub :=
  runs_ub_iff (C67_toUcs2_P8 v p)

@[text_iff] theorem returns_toUcs2_S32 {v : Version} {s : List U32} {r : List U16} :
    Returns v (name% "toUcs2") [.str32 s] (.str16 r) ↔ toUcs2From32S s = .ok r :=
  returns_iff (C67_toUcs2_S32 v s) (fun h => by injection h)

@[text_iff] theorem ub_toUcs2_S32 {v : Version} {s : List U32} :
    Runs v (name% "toUcs2") [.str32 s] .ub ↔ toUcs2From32S s = .ub :=
  runs_ub_iff (C67_toUcs2_S32 v s)

@[text_iff] theorem returns_toUcs2_P32 {v : Version} {p : Ptr U32} {r : List U16} :
    Returns v (name% "toUcs2") [.ptr32 p] (.str16 r) ↔ toUcs2From32 p = .ok r :=
  returns_iff (C67_toUcs2_P32 v p) (fun h => by injection h)

@[text_iff] theorem ub_toUcs2_P32 {v : Version} {p : Ptr U32} :
    Runs v (name% "toUcs2") [.ptr32 p] .ub ↔ toUcs2From32 p = .ub :=
  runs_ub_iff (C67_toUcs2_P32 v p)

@[text_iff] theorem returns_toUtf16_S8 {v : Version} {s : List Byte} {r : List U16} :
    Returns v (name% "toUtf16") [.str8 s] (.str16 r) ↔ toUtf16From8S s = .ok r :=
  returns_iff (C67_toUtf16_S8 v s) (fun h => by injection h)

@[text_iff] theorem ub_toUtf16_S8 {v : Version} {s : List Byte} :
    Runs v (name% "toUtf16") [.str8 s] .ub ↔ toUtf16From8S s = .ub :=
  runs_ub_iff (C67_toUtf16_S8 v s)

@[text_iff] theorem returns_toUtf16_P8 {v : Version} {p : Ptr Byte} {r : List U16} :
    Returns v (name% "toUtf16") [.ptr8 p] (.str16 r) ↔ toUtf16From8 p = .ok r :=
  returns_iff (C67_toUtf16_P8 v p) (fun h => by injection h)

@[text_iff] theorem ub_toUtf16_P8 {v : Version} {p : Ptr Byte} :
    Runs v (name% "toUtf16") [.ptr8 p] .ub ↔ toUtf16From8 p = .ub :=
  runs_ub_iff (C67_toUtf16_P8 v p)

@[text_iff] theorem returns_toUtf16_S32 {v : Version} {s : List U32} {r : List U16} :
    Returns v (name% "toUtf16") [.str32 s] (.str16 r) ↔ toUtf16From32S s = .ok r :=
  returns_iff (C67_toUtf16_S32 v s) (fun h => by injection h)

@[text_iff] theorem ub_toUtf16_S32 {v : Version} {s : List U32} :
    Runs v (name% "toUtf16") [.str32 s] .ub ↔ toUtf16From32S s = .ub :=
  runs_ub_iff (C67_toUtf16_S32 v s)

@[text_iff] theorem returns_toUtf16_P32 {v : Version} {p : Ptr U32} {r : List U16} :
    Returns v (name% "toUtf16") [.ptr32 p] (.str16 r) ↔ toUtf16From32 p = .ok r :=
  returns_iff (C67_toUtf16_P32 v p) (fun h => by injection h)

@[text_iff] theorem ub_toUtf16_P32 {v : Version} {p : Ptr U32} :
    Runs v (name% "toUtf16") [.ptr32 p] .ub ↔ toUtf16From32 p = .ub :=
  runs_ub_iff (C67_toUtf16_P32 v p)

@[text_iff] theorem returns_toUcs4_S8 {v : Version} {s : List Byte} {r : List U32} :
    Returns v (name% "toUcs4") [.str8 s] (.str32 r) ↔ toUcs4From8S s = .ok r :=
  returns_iff (C67_toUcs4_S8 v s) (fun h => by injection h)

@[text_iff] theorem ub_toUcs4_S8 {v : Version} {s : List Byte} :
    Runs v (name% "toUcs4") [.str8 s] .ub ↔ toUcs4From8S s = .ub :=
  runs_ub_iff (C67_toUcs4_S8 v s)

@[text_iff] theorem returns_toUcs4_P8 {v : Version} {p : Ptr Byte} {r : List U32} :
    Returns v (name% "toUcs4") [.ptr8 p] (.str32 r) ↔ toUcs4From8 p = .ok r :=
  returns_iff (C67_toUcs4_P8 v p) (fun h => by injection h)

@[text_iff] theorem ub_toUcs4_P8 {v : Version} {p : Ptr Byte} :
    Runs v (name% "toUcs4") [.ptr8 p] .ub ↔ toUcs4From8 p = .ub :=
  runs_ub_iff (C67_toUcs4_P8 v p)

@[text_iff] theorem returns_toUcs4_S16 {v : Version} {s : List U16} {r : List U32} :
    Returns v (name% "toUcs4") [.str16 s] (.str32 r) ↔ toUcs4From16S s = .ok r :=
  returns_iff (C67_toUcs4_S16 v s) (fun h => by injection h)

@[text_iff] theorem ub_toUcs4_S16 {v : Version} {s : List U16} :
    Runs v (name% "toUcs4") [.str16 s] .ub ↔ toUcs4From16S s = .ub :=
  runs_ub_iff (C67_toUcs4_S16 v s)

@[text_iff] theorem returns_toUcs4_P16 {v : Version} {p : Ptr U16} {r : List U32} :
    Returns v (name% "toUcs4") [.ptr16 p] (.str32 r) ↔ toUcs4From16 p = .ok r :=
  returns_iff (C67_toUcs4_P16 v p) (fun h => by injection h)

@[text_iff] theorem ub_toUcs4_P16 {v : Version} {p : Ptr U16} :
    Runs v (name% "toUcs4") [.ptr16 p] .ub ↔ toUcs4From16 p = .ub :=
  runs_ub_iff (C67_toUcs4_P16 v p)

@[text_iff] theorem returns_toUtf8_page {v : Version} {p : Ptr Byte} {t : Int} {r : List Byte} :
    Returns v (name% "toUtf8") [.ptr8 p, .page t] (.str8 r) ↔ toUtf8FromPage p t = .ok r :=
  returns_iff (C67_toUtf8_page v p t) (fun h => by injection h)

@[text_iff] theorem ub_toUtf8_page {v : Version} {p : Ptr Byte} {t : Int} :
    Runs v (name% "toUtf8") [.ptr8 p, .page t] .ub ↔ toUtf8FromPage p t = .ub :=
  runs_ub_iff (C67_toUtf8_page v p t)

@[text_iff] theorem returns_unicodeLength_S8 {v : Version} {s : List Byte} {r : U32} :
    Returns v (name% "unicodeLength") [.str8 s] (.uint r) ↔ unicodeLength8S s = .ok r :=
  returns_iff (C67_unicodeLength_S8 v s) (fun h => by injection h)

@[text_iff] theorem ub_unicodeLength_S8 {v : Version} {s : List Byte} :
    Runs v (name% "unicodeLength") [.str8 s] .ub ↔ unicodeLength8S s = .ub :=
  runs_ub_iff (C67_unicodeLength_S8 v s)

@[text_iff] theorem returns_unicodeLength_P8 {v : Version} {p : Ptr Byte} {r : U32} :
    Returns v (name% "unicodeLength") [.ptr8 p] (.uint r) ↔ unicodeLength8 p 0 = .ok r :=
  returns_iff (C67_unicodeLength_P8 v p) (fun h => by injection h)

@[text_iff] theorem ub_unicodeLength_P8 {v : Version} {p : Ptr Byte} :
    Runs v (name% "unicodeLength") [.ptr8 p] .ub ↔ unicodeLength8 p 0 = .ub :=
  runs_ub_iff (C67_unicodeLength_P8 v p)

@[text_iff] theorem returns_unicodeLength_L8 {v : Version} {p : Ptr Byte} {len : U32} {r : U32} :
    Returns v (name% "unicodeLength") [.ptr8 p, .uint len] (.uint r) ↔ unicodeLength8 p len = .ok r :=
  returns_iff (C67_unicodeLength_L8 v p len) (fun h => by injection h)

@[text_iff] theorem ub_unicodeLength_L8 {v : Version} {p : Ptr Byte} {len : U32} :
    Runs v (name% "unicodeLength") [.ptr8 p, .uint len] .ub ↔ unicodeLength8 p len = .ub :=
  runs_ub_iff (C67_unicodeLength_L8 v p len)

@[text_iff] theorem returns_unicodeLength_S16 {v : Version} {s : List U16} {r : U32} :
    Returns v (name% "unicodeLength") [.str16 s] (.uint r) ↔ unicodeLength16S s = .ok r :=
  returns_iff (C67_unicodeLength_S16 v s) (fun h => by injection h)

@[text_iff] theorem ub_unicodeLength_S16 {v : Version} {s : List U16} :
    Runs v (name% "unicodeLength") [.str16 s] .ub ↔ unicodeLength16S s = .ub :=
  runs_ub_iff (C67_unicodeLength_S16 v s)

@[text_iff] theorem returns_unicodeLength_P16 {v : Version} {p : Ptr U16} {r : U32} :
    Returns v (name% "unicodeLength") [.ptr16 p] (.uint r) ↔ unicodeLength16 p 0 = .ok r :=
  returns_iff (C67_unicodeLength_P16 v p) (fun h => by injection h)

@[text_iff] theorem ub_unicodeLength_P16 {v : Version} {p : Ptr U16} :
    Runs v (name% "unicodeLength") [.ptr16 p] .ub ↔ unicodeLength16 p 0 = .ub :=
  runs_ub_iff (C67_unicodeLength_P16 v p)

@[text_iff] theorem returns_unicodeLength_L16 {v : Version} {p : Ptr U16} {len : U32} {r : U32} :
    Returns v (name% "unicodeLength") [.ptr16 p, .uint len] (.uint r) ↔ unicodeLength16 p len = .ok r :=
  returns_iff (C67_unicodeLength_L16 v p len) (fun h => by injection h)

@[text_iff] theorem ub_unicodeLength_L16 {v : Version} {p : Ptr U16} {len : U32} :
    Runs v (name% "unicodeLength") [.ptr16 p, .uint len] .ub ↔ unicodeLength16 p len = .ub :=
  runs_ub_iff (C67_unicodeLength_L16 v p len)

@[text_iff] theorem returns_unicodeLength_S32 {v : Version} {s : List U32} {r : U32} :
    Returns v (name% "unicodeLength") [.str32 s] (.uint r) ↔ unicodeLength32S s = .ok r :=
  returns_iff (C67_unicodeLength_S32 v s) (fun h => by injection h)

@[text_iff] theorem ub_unicodeLength_S32 {v : Version} {s : List U32} :
    Runs v (name% "unicodeLength") [.str32 s] .ub ↔ unicodeLength32S s = .ub :=
  runs_ub_iff (C67_unicodeLength_S32 v s)

@[text_iff] theorem returns_unicodeLength_P32 {v : Version} {p : Ptr U32} {r : U32} :
    Returns v (name% "unicodeLength") [.ptr32 p] (.uint r) ↔ unicodeLength32 p 0 = .ok r :=
  returns_iff (C67_unicodeLength_P32 v p) (fun h => by injection h)

@[text_iff] theorem ub_unicodeLength_P32 {v : Version} {p : Ptr U32} :
    Runs v (name% "unicodeLength") [.ptr32 p] .ub ↔ unicodeLength32 p 0 = .ub :=
  runs_ub_iff (C67_unicodeLength_P32 v p)

@[text_iff] theorem returns_unicodeLength_L32 {v : Version} {p : Ptr U32} {len : U32} {r : U32} :
    Returns v (name% "unicodeLength") [.ptr32 p, .uint len] (.uint r) ↔ unicodeLength32 p len = .ok r :=
  returns_iff (C67_unicodeLength_L32 v p len) (fun h => by injection h)

@[text_iff] theorem ub_unicodeLength_L32 {v : Version} {p : Ptr U32} {len : U32} :
    Runs v (name% "unicodeLength") [.ptr32 p, .uint len] .ub ↔ unicodeLength32 p len = .ub :=
  runs_ub_iff (C67_unicodeLength_L32 v p len)

@[text_iff] theorem returns_toLower_S8 {v : Version} {s : List Byte} {r : List Byte} :
    Returns v (name% "toLower") [.str8 s] (.str8 r) ↔ toLower8S v s none = .ok r :=
  returns_iff (C67_toLower_S8 v s) (fun h => by injection h)

@[text_iff] theorem ub_toLower_S8 {v : Version} {s : List Byte} :
    Runs v (name% "toLower") [.str8 s] .ub ↔ toLower8S v s none = .ub :=
  runs_ub_iff (C67_toLower_S8 v s)

@[text_iff] theorem returns_toLower_S8_lang {v : Version} {s : List Byte} {lang : Ptr Byte} {r : List Byte} :
    Returns v (name% "toLower") [.str8 s, .ptr8 lang] (.str8 r) ↔ toLower8S v s lang = .ok r :=
  returns_iff (C67_toLower_S8_lang v s lang) (fun h => by injection h)

@[text_iff] theorem ub_toLower_S8_lang {v : Version} {s : List Byte} {lang : Ptr Byte} :
    Runs v (name% "toLower") [.str8 s, .ptr8 lang] .ub ↔ toLower8S v s lang = .ub :=
  runs_ub_iff (C67_toLower_S8_lang v s lang)

@[text_iff] theorem returns_toLower_S16 {v : Version} {s : List U16} {r : List U16} :
    Returns v (name% "toLower") [.str16 s] (.str16 r) ↔ toLower16S v s none = .ok r :=
  returns_iff (C67_toLower_S16 v s) (fun h => by injection h)

@[text_iff] theorem ub_toLower_S16 {v : Version} {s : List U16} :
    Runs v (name% "toLower") [.str16 s] .ub ↔ toLower16S v s none = .ub :=
  runs_ub_iff (C67_toLower_S16 v s)

@[text_iff] theorem returns_toLower_S16_lang {v : Version} {s : List U16} {lang : Ptr Byte} {r : List U16} :
    Returns v (name% "toLower") [.str16 s, .ptr8 lang] (.str16 r) ↔ toLower16S v s lang = .ok r :=
  returns_iff (C67_toLower_S16_lang v s lang) (fun h => by injection h)

@[text_iff] theorem ub_toLower_S16_lang {v : Version} {s : List U16} {lang : Ptr Byte} :
    Runs v (name% "toLower") [.str16 s, .ptr8 lang] .ub ↔ toLower16S v s lang = .ub :=
  runs_ub_iff (C67_toLower_S16_lang v s lang)

@[text_iff] theorem returns_toLower_S32 {v : Version} {s : List U32} {r : List U32} :
    Returns v (name% "toLower") [.str32 s] (.str32 r) ↔ toLower32S v s none = .ok r :=
  returns_iff (C67_toLower_S32 v s) (fun h => by injection h)

@[text_iff] theorem ub_toLower_S32 {v : Version} {s : List U32} :
    Runs v (name% "toLower") [.str32 s] .ub ↔ toLower32S v s none = .ub :=
  runs_ub_iff (C67_toLower_S32 v s)

@[text_iff] theorem returns_toLower_S32_lang {v : Version} {s : List U32} {lang : Ptr Byte} {r : List U32} :
    Returns v (name% "toLower") [.str32 s, .ptr8 lang] (.str32 r) ↔ toLower32S v s lang = .ok r :=
  returns_iff (C67_toLower_S32_lang v s lang) (fun h => by injection h)

@[text_iff] theorem ub_toLower_S32_lang {v : Version} {s : List U32} {lang : Ptr Byte} :
    Runs v (name% "toLower") [.str32 s, .ptr8 lang] .ub ↔ toLower32S v s lang = .ub :=
  runs_ub_iff (C67_toLower_S32_lang v s lang)

end Ansak.Props
