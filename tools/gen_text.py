import re
s=open('/verif/lean/Verif/Model/Cpp/Source.lean').read()
names=re.findall(r'\w+',s[s.index('def pieces'):].split('[',1)[1].split(']')[0])
o='''import Verif.Model.Cpp.Ast
import Verif.Model.Cpp.Source
import Verif.Lemmas.Cpp.Seal

/-! # The text of the library is parsed to the syntax trees of `Ast` -/

namespace Ansak.Cpp

'''
for i,n in enumerate(names):
    o+=f'theorem parse{i} : parse Source.{n} = some Ast.items{i} := by kernel_rfl\n'
o+='''
theorem parseAll_cons {t : Cxx.Text} {ts : List Cxx.Text} {is js : List Item} (h : parse t = some is)
    (hs : parseAll ts = some js) : parseAll (t :: ts) = some (is ++ js) := by
  rw [parseAll, h, hs]

theorem parse_pieces : parseAll Source.pieces = some Ast.items :=
'''
for i,n in enumerate(names): o+=('  ' if i%6==0 else '')+f'parseAll_cons parse{i} <|'+('\n' if i%6==5 else ' ')
o+='''rfl

/-- The names of the variables that are defined elsewhere. -/
def externs : List Item → List Nat
  | [] => []
  | .extern _ x :: is => x :: externs is
  | _ :: is => externs is

theorem globalsOf_congr {X Y : Externals} {sc : Bool} : ∀ {is : List Item} {ρ : Env},
    (∀ x ∈ externs is, X.str x = Y.str x) → globalsOf X sc is ρ = globalsOf Y sc is ρ
  | [], _, _ => by simp only [globalsOf]
  | .func f :: is, ρ, h => by
    simp only [globalsOf]; exact globalsOf_congr h
  | .field _ _ _ :: is, ρ, h => by
    simp only [globalsOf]; exact globalsOf_congr h
  | .enum n cs :: is, ρ, h => by
    simp only [globalsOf]
    cases enumerated sc n 0 cs ρ with
    | none => rfl
    | some g => exact globalsOf_congr h
  | .array t x size as :: is, ρ, h => by
    cases t with
    | prim t =>
      simp only [globalsOf]
      split
      · exact globalsOf_congr h
      · rfl
    | _ => simp only [globalsOf]
  | .extern t x :: is, ρ, h => by
    have hx := h x (by simp [externs])
    cases t with
    | str e =>
      cases e with
      | prim t =>
        simp only [globalsOf]
        rw [hx]
        cases Y.str x with
        | none => rfl
        | some s => exact globalsOf_congr fun y hy => h y (by simp [externs, hy])
      | _ => simp only [globalsOf]
    | _ => simp only [globalsOf]

theorem externs_items : externs Ast.items = [name% "supportedUnicodeVersion"] := by kernel_rfl

theorem program_known (f : Nat → Ty → Int → Option Int) (s : List Int) (sc : Bool) :
    program ⟨f, fun _ => some s⟩ sc Ast.items = some (Ast.program s) := by kernel_rfl

/-- The program that consists of all pieces of the text. -/
theorem program_items {X : Externals} {s : List Int} (h : X.str (name% "supportedUnicodeVersion") = some s)
    (sc : Bool) : program X sc Ast.items = some (Ast.program s) := by
  rw [← program_known X.fn s sc]
  unfold program
  rw [globalsOf_congr (Y := ⟨X.fn, fun _ => some s⟩) fun x hx => ?_]
  rw [externs_items, List.mem_singleton] at hx
  rw [hx, h]

/-- A call of a function of the text. -/
theorem callText_eq {X : Externals} {s : List Int} (h : X.str (name% "supportedUnicodeVersion") = some s)
    (sc : Bool) (n name : Nat) (vs : List Val) :
    callText X sc Source.pieces n name vs = (Ast.program s).call X sc n n (nat_lit 0) name vs .done := by
  unfold callText
  rw [parse_pieces]
  show (match program X sc Ast.items with | some P => _ | none => _) = _
  rw [program_items h sc]

end Ansak.Cpp
'''
open('/verif/lean/Verif/Lemmas/Cpp/Text.lean','w').write(o)
