import Verif.Model.Cpp.Ast
import Verif.Model.Cpp.Source
import Verif.Lemmas.Cpp.Seal

/-! # The text of the library is parsed to the syntax trees of `Ast` -/

namespace Ansak.Cpp

theorem parse0 : parse Source.interface0 = some Ast.items0 := by kernel_rfl
theorem parse1 : parse Source.interface1 = some Ast.items1 := by kernel_rfl
theorem parse2 : parse Source.interface2 = some Ast.items2 := by kernel_rfl
theorem parse3 : parse Source.interface3 = some Ast.items3 := by kernel_rfl
theorem parse4 : parse Source.interface4 = some Ast.items4 := by kernel_rfl
theorem parse5 : parse Source.interface5 = some Ast.items5 := by kernel_rfl
theorem parse6 : parse Source.interface6 = some Ast.items6 := by kernel_rfl
theorem parse7 : parse Source.interface7 = some Ast.items7 := by kernel_rfl
theorem parse8 : parse Source.interfaceEnd0 = some Ast.items8 := by kernel_rfl
theorem parse9 : parse Source.decodeHeader0 = some Ast.items9 := by kernel_rfl
theorem parse10 : parse Source.decodeHeader1 = some Ast.items10 := by kernel_rfl
theorem parse11 : parse Source.internal0 = some Ast.items11 := by kernel_rfl
theorem parse12 : parse Source.internal1 = some Ast.items12 := by kernel_rfl
theorem parse13 : parse Source.internal2 = some Ast.items13 := by kernel_rfl
theorem parse14 : parse Source.internal3 = some Ast.items14 := by kernel_rfl
theorem parse15 : parse Source.internal4 = some Ast.items15 := by kernel_rfl
theorem parse16 : parse Source.internal5 = some Ast.items16 := by kernel_rfl
theorem parse17 : parse Source.internal6 = some Ast.items17 := by kernel_rfl
theorem parse18 : parse Source.internal7 = some Ast.items18 := by kernel_rfl
theorem parse19 : parse Source.decodeUtf80 = some Ast.items19 := by kernel_rfl
theorem parse20 : parse Source.decodeUtf81 = some Ast.items20 := by kernel_rfl
theorem parse21 : parse Source.predicate0 = some Ast.items21 := by kernel_rfl
theorem parse22 : parse Source.predicate1 = some Ast.items22 := by kernel_rfl
theorem parse23 : parse Source.predicate2 = some Ast.items23 := by kernel_rfl
theorem parse24 : parse Source.string0 = some Ast.items24 := by kernel_rfl
theorem parse25 : parse Source.string1 = some Ast.items25 := by kernel_rfl
theorem parse26 : parse Source.string2 = some Ast.items26 := by kernel_rfl
theorem parse27 : parse Source.string3 = some Ast.items27 := by kernel_rfl
theorem parse28 : parse Source.string4 = some Ast.items28 := by kernel_rfl
theorem parse29 : parse Source.string5 = some Ast.items29 := by kernel_rfl
theorem parse30 : parse Source.string6 = some Ast.items30 := by kernel_rfl
theorem parse31 : parse Source.string7 = some Ast.items31 := by kernel_rfl
theorem parse32 : parse Source.string8 = some Ast.items32 := by kernel_rfl
theorem parse33 : parse Source.string9 = some Ast.items33 := by kernel_rfl
theorem parse34 : parse Source.string10 = some Ast.items34 := by kernel_rfl
theorem parse35 : parse Source.toUtf80 = some Ast.items35 := by kernel_rfl
theorem parse36 : parse Source.toUtf81 = some Ast.items36 := by kernel_rfl
theorem parse37 : parse Source.toLower0 = some Ast.items37 := by kernel_rfl
theorem parse38 : parse Source.toLower1 = some Ast.items38 := by kernel_rfl
theorem parse39 : parse Source.trim0 = some Ast.items39 := by kernel_rfl
theorem parse40 : parse Source.trim1 = some Ast.items40 := by kernel_rfl
theorem parse41 : parse Source.splitJoin0 = some Ast.items41 := by kernel_rfl
theorem parse42 : parse Source.splitJoin1 = some Ast.items42 := by kernel_rfl
theorem parse16_0 : parse Source.wide16Is0 = some Ast.items16_0 := by kernel_rfl
theorem parse16_1 : parse Source.wide16Is1 = some Ast.items16_1 := by kernel_rfl
theorem parse16_2 : parse Source.wide16To0 = some Ast.items16_2 := by kernel_rfl
theorem parse16_3 : parse Source.wide16To1 = some Ast.items16_3 := by kernel_rfl
theorem parse32_0 : parse Source.wide320 = some Ast.items32_0 := by kernel_rfl
theorem parse32_1 : parse Source.wide321 = some Ast.items32_1 := by kernel_rfl
theorem parse32_2 : parse Source.wide322 = some Ast.items32_2 := by kernel_rfl

theorem parseAll_cons {t : Cxx.Text} {ts : List Cxx.Text} {is js : List Item} (h : parse t = some is)
    (hs : parseAll ts = some js) : parseAll (t :: ts) = some (is ++ js) := by
  rw [parseAll, h, hs]

theorem parse_common : parseAll Source.common = some Ast.items :=
  parseAll_cons parse0 <| parseAll_cons parse1 <| parseAll_cons parse2 <| parseAll_cons parse3 <| parseAll_cons parse4 <| parseAll_cons parse5 <|
  parseAll_cons parse6 <| parseAll_cons parse7 <| parseAll_cons parse8 <| parseAll_cons parse9 <| parseAll_cons parse10 <| parseAll_cons parse11 <|
  parseAll_cons parse12 <| parseAll_cons parse13 <| parseAll_cons parse14 <| parseAll_cons parse15 <| parseAll_cons parse16 <| parseAll_cons parse17 <|
  parseAll_cons parse18 <| parseAll_cons parse19 <| parseAll_cons parse20 <| parseAll_cons parse21 <| parseAll_cons parse22 <| parseAll_cons parse23 <|
  parseAll_cons parse24 <| parseAll_cons parse25 <| parseAll_cons parse26 <| parseAll_cons parse27 <| parseAll_cons parse28 <| parseAll_cons parse29 <|
  parseAll_cons parse30 <| parseAll_cons parse31 <| parseAll_cons parse32 <| parseAll_cons parse33 <| parseAll_cons parse34 <| parseAll_cons parse35 <|
  parseAll_cons parse36 <| parseAll_cons parse37 <| parseAll_cons parse38 <| parseAll_cons parse39 <| parseAll_cons parse40 <| parseAll_cons parse41 <|
  parseAll_cons parse42 <| rfl

theorem parse_wide16 : parseAll Source.wide16 = some Ast.items16_ :=
  parseAll_cons parse16_0 <| parseAll_cons parse16_1 <| parseAll_cons parse16_2 <| parseAll_cons parse16_3 <| rfl

theorem parse_wide32 : parseAll Source.wide32 = some Ast.items32_ :=
  parseAll_cons parse32_0 <| parseAll_cons parse32_1 <| parseAll_cons parse32_2 <| rfl

theorem parseAll_append {ts us : List Cxx.Text} {is js : List Item} (h : parseAll ts = some is)
    (hs : parseAll us = some js) : parseAll (ts ++ us) = some (is ++ js) := by
  induction ts generalizing is with
  | nil =>
    cases h
    exact hs
  | cons t ts ih =>
    rw [parseAll] at h
    cases h1 : parse t with
    | none => rw [h1] at h; nomatch h
    | some i1 =>
      cases h2 : parseAll ts with
      | none => rw [h1, h2] at h; nomatch h
      | some i2 =>
        rw [h1, h2] at h
        injection h with h
        subst h
        rw [List.append_assoc]
        exact parseAll_cons h1 (ih h2)

/-- All items of the library. -/
def Ast.allItems (w : Bool) : List Item := Ast.items ++ (bif w then Ast.items32_ else Ast.items16_)

theorem parse_pieces (w : Bool) : parseAll (Source.pieces w) = some (Ast.allItems w) := by
  cases w
  · exact parseAll_append parse_common parse_wide16
  · exact parseAll_append parse_common parse_wide32

/-- The names of the variables that are defined elsewhere. -/
def externs : List Item → List Nat
  | [] => []
  | .extern _ x :: is => x :: externs is
  | _ :: is => externs is

theorem globalsOf_congr {X Y : Externals} {sc : Bool} : ∀ {is : List Item} {ρ : Env},
    (∀ x ∈ externs is, X.str x = Y.str x) → globalsOf X sc is ρ = globalsOf Y sc is ρ
  | [], _, _ => by simp only [globalsOf]
  | .func f :: is, ρ, h => by
    simp only [globalsOf]; exact globalsOf_congr h
  | .field _ _ _ :: is, ρ, h => by
    simp only [globalsOf]; exact globalsOf_congr h
  | .enum n cs :: is, ρ, h => by
    simp only [globalsOf]
    cases enumerated sc n 0 cs ρ with
    | none => rfl
    | some g => exact globalsOf_congr h
  | .array t x size as :: is, ρ, h => by
    cases t with
    | prim t =>
      simp only [globalsOf]
      split
      · exact globalsOf_congr h
      · rfl
    | _ => simp only [globalsOf]
  | .extern t x :: is, ρ, h => by
    have hx := h x (by simp [externs])
    cases t with
    | str e =>
      cases e with
      | prim t =>
        simp only [globalsOf]
        rw [hx]
        cases Y.str x with
        | none => rfl
        | some s => exact globalsOf_congr fun y hy => h y (by simp [externs, hy])
      | _ => simp only [globalsOf]
    | _ => simp only [globalsOf]

theorem externs_items (w : Bool) : externs (Ast.allItems w) = [name% "supportedUnicodeVersion"] := by
  cases w
  · kernel_rfl
  · kernel_rfl

theorem program_known (f : Nat → Ty → Int → Option Int) (s : List Int) (sc w : Bool) :
    program ⟨f, fun _ => some s⟩ sc (wideType w) (Ast.allItems w) = some (Ast.program w s) := by
  cases w
  · kernel_rfl
  · kernel_rfl

/-- The program that consists of all pieces of the text. -/
theorem program_items {X : Externals} {s : List Int} (h : X.str (name% "supportedUnicodeVersion") = some s)
    (sc w : Bool) : program X sc (wideType w) (Ast.allItems w) = some (Ast.program w s) := by
  rw [← program_known X.fn s sc w]
  unfold program
  rw [globalsOf_congr (Y := ⟨X.fn, fun _ => some s⟩) fun x hx => ?_]
  rw [externs_items, List.mem_singleton] at hx
  rw [hx, h]

/-- A call of a function of the text. -/
theorem callText_eq {X : Externals} {s : List Int} (h : X.str (name% "supportedUnicodeVersion") = some s)
    (sc w : Bool) (n cls name : Nat) (vs : List Val) :
    callText X sc (wideType w) (Source.pieces w) n cls name vs = (Ast.program w s).call X sc n n cls name vs .done := by
  unfold callText
  rw [parse_pieces]
  show (match program X sc (wideType w) (Ast.allItems w) with | some P => _ | none => _) = _
  rw [program_items h sc w]

end Ansak.Cpp
