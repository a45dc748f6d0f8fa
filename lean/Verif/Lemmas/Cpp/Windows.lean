import Verif.Model.Cpp.AstWindows
import Verif.Lemmas.Cpp.Order
import Verif.Lemmas.Cpp.Text

/-! # The text of the library on Windows is parsed to syntax trees; it extends the library for other platforms -/

namespace Ansak.Cpp

open Source (Tchar)

theorem parse_windowsIs0 : parse Source.windowsIs0 = some Ast.itemsWindows0 := by kernel_rfl
theorem parse_windowsTo0 : parse Source.windowsTo0 = some Ast.itemsWindows1 := by kernel_rfl
theorem parse_mbcsIs0 : parse Source.mbcsIs0 = some Ast.itemsMbcsIs0 := by kernel_rfl
theorem parse_mbcsTo0 : parse Source.mbcsTo0 = some Ast.itemsMbcsTo0 := by kernel_rfl
theorem parse_mbcsTo1 : parse Source.mbcsTo1 = some Ast.itemsMbcsTo1 := by kernel_rfl
theorem parse_mbcsTo2 : parse Source.mbcsTo2 = some Ast.itemsMbcsTo2 := by kernel_rfl
theorem parse_mbcsTo3 : parse Source.mbcsTo3 = some Ast.itemsMbcsTo3 := by kernel_rfl
theorem parse_mbcsTo4 : parse Source.mbcsTo4 = some Ast.itemsMbcsTo4 := by kernel_rfl
theorem parse_mbcsTo5 : parse Source.mbcsTo5 = some Ast.itemsMbcsTo5 := by kernel_rfl
theorem parse_unicodeIs0 : parse Source.unicodeIs0 = some Ast.itemsUnicode0 := by kernel_rfl
theorem parse_unicodeTo0 : parse Source.unicodeTo0 = some Ast.itemsUnicode1 := by kernel_rfl

theorem parse_windows : parseAll Source.windows = some Ast.itemsWindows :=
  parseAll_cons parse_windowsIs0 <| parseAll_cons parse_windowsTo0 <| rfl

theorem parse_mbcsIs : parseAll Source.mbcsIs = some Ast.itemsMbcsIs := parseAll_cons parse_mbcsIs0 <| rfl

theorem parse_mbcsTo : parseAll Source.mbcsTo = some Ast.itemsMbcsTo :=
  parseAll_cons parse_mbcsTo0 <| parseAll_cons parse_mbcsTo1 <| parseAll_cons parse_mbcsTo2 <|
  parseAll_cons parse_mbcsTo3 <| parseAll_cons parse_mbcsTo4 <| parseAll_cons parse_mbcsTo5 <| rfl

theorem parse_unicode : parseAll Source.unicode = some Ast.itemsUnicode :=
  parseAll_cons parse_unicodeIs0 <| parseAll_cons parse_unicodeTo0 <| rfl

/-- The items that only Windows has. -/
def Ast.windowsItems : Tchar → List Item
  | .none => Ast.itemsWindows ++ []
  | .mbcs => Ast.itemsWindows ++ (Ast.itemsMbcsIs ++ Ast.itemsMbcsTo)
  | .unicode => Ast.itemsWindows ++ Ast.itemsUnicode

theorem parse_onWindows (t : Tchar) :
    parseAll (Source.onWindows t) = some (Ast.allItems false ++ Ast.windowsItems t) := by
  refine parseAll_append (parse_pieces false) ?_
  cases t
  · exact parseAll_append parse_windows rfl
  · exact parseAll_append parse_windows (parseAll_append parse_mbcsIs parse_mbcsTo)
  · exact parseAll_append parse_windows parse_unicode

theorem externs_windows (t : Tchar) :
    externs (Ast.allItems false ++ Ast.windowsItems t) = [name% "supportedUnicodeVersion"] := by
  cases t
  · kernel_rfl
  · kernel_rfl
  · kernel_rfl

theorem windows_known (f : Nat → Ty → Int → Option Int) (s : List Int) (sc : Bool) (t : Tchar) :
    program ⟨f, fun _ => some s⟩ sc .c16 (Ast.allItems false ++ Ast.windowsItems t) = some (Ast.onWindows t s) := by
  cases t
  · kernel_rfl
  · kernel_rfl
  · kernel_rfl

/-- A call of a function of the text for Windows. -/
theorem callWindows_eq {X : Externals} {s : List Int} (h : X.str (name% "supportedUnicodeVersion") = some s)
    (sc : Bool) (t : Tchar) (n cls name : Nat) (vs : List Val) :
    callText X sc .c16 (Source.onWindows t) n cls name vs = (Ast.onWindows t s).call X sc n n cls name vs .done := by
  have hp : program X sc .c16 (Ast.allItems false ++ Ast.windowsItems t) = some (Ast.onWindows t s) := by
    rw [← windows_known X.fn s sc t]
    unfold program
    rw [globalsOf_congr (Y := ⟨X.fn, fun _ => some s⟩) fun x hx => ?_]
    rw [externs_windows, List.mem_singleton] at hx
    rw [hx, h]
  unfold callText
  rw [parse_onWindows]
  show (match program X sc .c16 (Ast.allItems false ++ Ast.windowsItems t) with | some P => _ | none => _) = _
  rw [hp]

/-! ## What a call means -/

theorem candidates_append (q c n : Nat) (vs : List Val) (fs gs : List Fun) :
    candidates q c n vs (fs ++ gs) = candidates q c n vs fs ++ candidates q c n vs gs := by
  induction fs with
  | nil => rfl
  | cons f fs ih =>
    simp only [List.cons_append, candidates, ih]
    cases Nat.beq f.name n <;> cases Nat.beq f.cls c <;> cases Nat.ble q (f.fit vs) <;> rfl

theorem mem_candidates {q c n : Nat} {vs : List Val} {fs : List Fun} {f : Fun} (h : f ∈ candidates q c n vs fs) :
    f ∈ fs ∧ f.name = n ∧ f.cls = c ∧ q ≤ f.fit vs := by
  induction fs with
  | nil => cases h
  | cons g fs ih =>
    unfold candidates at h
    cases h1 : Nat.beq g.name n <;> cases h2 : Nat.beq g.cls c <;> cases h3 : Nat.ble q (g.fit vs) <;>
      simp only [h1, h2, h3, cond_true, cond_false] at h
    case true.true.true =>
      cases h with
      | head => exact ⟨.head _, Nat.eq_of_beq_eq_true h1, Nat.eq_of_beq_eq_true h2, Nat.le_of_ble_eq_true h3⟩
      | tail _ h => exact ⟨.tail _ (ih h).1, (ih h).2⟩
    all_goals exact ⟨.tail _ (ih h).1, (ih h).2⟩

/-- More functions do not change the meaning of a call, if a call that they fit did not mean anything. -/
theorem resolve_append {fs gs : List Fun}
    (H : ∀ f ∈ gs, ∀ vs, 1 ≤ f.fit vs → resolve fs f.cls f.name vs = none) {c n : Nat} {vs : List Val} {g : Fun}
    (h : resolve fs c n vs = some g) : resolve (fs ++ gs) c n vs = some g := by
  have none_of : ∀ q, 1 ≤ q → candidates q c n vs gs = [] := by
    intro q hq
    cases e : candidates q c n vs gs with
    | nil => rfl
    | cons f l =>
      obtain ⟨h1, rfl, rfl, h2⟩ := mem_candidates (q := q) (c := c) (n := n) (vs := vs) (fs := gs) (f := f)
        (by rw [e]; exact .head _)
      rw [H f h1 vs (by omega)] at h
      nomatch h
  unfold resolve at h ⊢
  rw [candidates_append, candidates_append, none_of 2 (by omega), none_of 1 (by omega), List.append_nil, List.append_nil]
  exact h

theorem fit_ptr {t : Ty} {x : Nat} {vs : List Val} (h : 1 ≤ fit [⟨.ptr (.prim t), x, none⟩] vs) :
    (∃ p, vs = [.ptr t p]) ∨ vs = [.null] := by
  match vs with
  | [] => simp [fit] at h
  | v :: w :: vs => simp [fit] at h
  | [v] =>
    cases v with
    | ptr s p =>
      by_cases e : t = s
      · subst e; exact .inl ⟨p, rfl⟩
      · simp [fit, TyExpr.fits, e] at h
    | null => exact .inr rfl
    | _ => simp [fit, TyExpr.fits] at h

theorem fit_str {t : Ty} {x : Nat} {vs : List Val} (h : 1 ≤ fit [⟨.str (.prim t), x, none⟩] vs) :
    (∃ s, vs = [.str t s]) ∨ ∃ p, vs = [.ptr t p] := by
  match vs with
  | [] => simp [fit] at h
  | v :: w :: vs => simp [fit] at h
  | [v] =>
    cases v with
    | ptr s p =>
      by_cases e : t = s
      · subst e; exact .inr ⟨p, rfl⟩
      · simp [fit, TyExpr.fits, e] at h
    | str s p =>
      by_cases e : t = s
      · subst e; exact .inl ⟨p, rfl⟩
      · simp [fit, TyExpr.fits, e] at h
    | _ => simp [fit, TyExpr.fits] at h

/-- A function with a pointer as its only parameter. -/
theorem new_ptr {fs : List Fun} {name : Nat} {ret : TyExpr} {t : Ty} {x : Nat} {is : List (Nat × Expr)} {b : Option Stmt}
    (h : ∀ p, resolve fs 0 name [.ptr t p] = none) (h' : resolve fs 0 name [.null] = none) :
    ∀ vs, 1 ≤ Fun.fit ⟨(nat_lit 0), name, ret, [⟨.ptr (.prim t), x, none⟩], is, b⟩ vs → resolve fs 0 name vs = none := by
  intro vs hf
  rcases fit_ptr (x := x) (t := t) (vs := vs) hf with ⟨p, rfl⟩ | rfl
  · exact h p
  · exact h'

/-- A function with a string as its only parameter. -/
theorem new_str {fs : List Fun} {name : Nat} {ret : TyExpr} {t : Ty} {x : Nat} {is : List (Nat × Expr)} {b : Option Stmt}
    (h : ∀ s, resolve fs 0 name [.str t s] = none) (h' : ∀ p, resolve fs 0 name [.ptr t p] = none) :
    ∀ vs, 1 ≤ Fun.fit ⟨(nat_lit 0), name, ret, [⟨.str (.prim t), x, none⟩], is, b⟩ vs → resolve fs 0 name vs = none := by
  intro vs hf
  rcases fit_str (x := x) (t := t) (vs := vs) hf with ⟨p, rfl⟩ | ⟨p, rfl⟩
  · exact h p
  · exact h' p

/-- Functions for a pointer and for a string with a new name. -/
theorem new_name {fs : List Fun} {name : Nat} (h : ∀ vs, resolve fs 0 name vs = none) (f : Fun) (hc : f.cls = 0)
    (hn : f.name = name) : ∀ vs, 1 ≤ f.fit vs → resolve fs f.cls f.name vs = none := by
  intro vs _
  rw [hc, hn]
  exact h vs

theorem new_windows : ∀ f ∈ Ast.funsWindows, ∀ vs, 1 ≤ f.fit vs → resolve (Ast.funs ++ Ast.funs16) f.cls f.name vs = none := by
  intro f hf
  simp only [Ast.funsWindows, List.mem_cons, List.not_mem_nil, or_false] at hf
  rcases hf with rfl | rfl | rfl | rfl | rfl | rfl | rfl | rfl
  · exact new_ptr (fun p => by kernel_rfl) (by kernel_rfl)
  · exact new_str (fun p => by kernel_rfl) (fun p => by kernel_rfl)
  · exact new_ptr (fun p => by kernel_rfl) (by kernel_rfl)
  · exact new_str (fun p => by kernel_rfl) (fun p => by kernel_rfl)
  · exact new_ptr (fun p => by kernel_rfl) (by kernel_rfl)
  · exact new_str (fun p => by kernel_rfl) (fun p => by kernel_rfl)
  · exact new_ptr (fun p => by kernel_rfl) (by kernel_rfl)
  · exact new_str (fun p => by kernel_rfl) (fun p => by kernel_rfl)

theorem no_isTstring (vs : List Val) : resolve (Ast.funs ++ Ast.funs16 ++ Ast.funsWindows) 0 (name% "isTstring") vs = none := by
  kernel_rfl

theorem no_toTstring (vs : List Val) : resolve (Ast.funs ++ Ast.funs16 ++ Ast.funsWindows) 0 (name% "toTstring") vs = none := by
  kernel_rfl

theorem new_mbcs : ∀ f ∈ Ast.funsMbcs, ∀ vs, 1 ≤ f.fit vs →
    resolve (Ast.funs ++ Ast.funs16 ++ Ast.funsWindows) f.cls f.name vs = none := by
  intro f hf
  simp only [Ast.funsMbcs, List.mem_cons, List.not_mem_nil, or_false] at hf
  rcases hf with rfl | rfl | rfl | rfl | rfl | rfl | rfl | rfl | rfl | rfl | rfl | rfl
  all_goals first | exact new_name no_isTstring _ rfl rfl | exact new_name no_toTstring _ rfl rfl

theorem new_unicode : ∀ f ∈ Ast.funsUnicode, ∀ vs, 1 ≤ f.fit vs →
    resolve (Ast.funs ++ Ast.funs16 ++ Ast.funsWindows) f.cls f.name vs = none := by
  intro f hf
  simp only [Ast.funsUnicode, List.mem_cons, List.not_mem_nil, or_false] at hf
  rcases hf with rfl | rfl | rfl | rfl | rfl | rfl | rfl | rfl | rfl | rfl | rfl | rfl
  all_goals first | exact new_name no_isTstring _ rfl rfl | exact new_name no_toTstring _ rfl rfl

/-- More functions that are not members of classes. -/
theorem extends_append {fs gs : List Fun} {globals : Env} {classes : List (Nat × List (Nat × Ty))} {wide : Ty}
    (H : ∀ f ∈ gs, ∀ vs, 1 ≤ f.fit vs → resolve fs f.cls f.name vs = none) (hs : ∀ f ∈ gs, f.hasSelf = false) :
    Program.Extends ⟨fs ++ gs, globals, classes, wide⟩ ⟨fs, globals, classes, wide⟩ where
  resolve _ _ _ _ h := resolve_append H h
  globals := rfl
  classes := rfl
  wide := rfl
  member := by
    funext c n
    show fs.any _ = (fs ++ gs).any _
    rw [List.any_append]
    have : gs.any (fun f => bif Nat.beq f.name n then (bif Nat.beq f.cls c then f.hasSelf else false) else false) = false := by
      rw [List.any_eq_false]
      intro f hf
      rw [hs f hf]
      cases Nat.beq f.name n <;> cases Nat.beq f.cls c <;> decide
    rw [this, Bool.or_false]

theorem hasSelf_windows : ∀ f ∈ Ast.funsWindows, f.hasSelf = false := by
  intro f hf
  simp only [Ast.funsWindows, List.mem_cons, List.not_mem_nil, or_false] at hf
  rcases hf with rfl | rfl | rfl | rfl | rfl | rfl | rfl | rfl <;> rfl

theorem hasSelf_mbcs : ∀ f ∈ Ast.funsMbcs, f.hasSelf = false := by
  intro f hf
  simp only [Ast.funsMbcs, List.mem_cons, List.not_mem_nil, or_false] at hf
  rcases hf with rfl | rfl | rfl | rfl | rfl | rfl | rfl | rfl | rfl | rfl | rfl | rfl <;> rfl

theorem hasSelf_unicode : ∀ f ∈ Ast.funsUnicode, f.hasSelf = false := by
  intro f hf
  simp only [Ast.funsUnicode, List.mem_cons, List.not_mem_nil, or_false] at hf
  rcases hf with rfl | rfl | rfl | rfl | rfl | rfl | rfl | rfl | rfl | rfl | rfl | rfl <;> rfl

/-- On Windows the library has more functions. -/
theorem none_extends (s : List Int) : (Ast.onWindows .none s).Extends (Ast.program false s) :=
  extends_append new_windows hasSelf_windows

theorem tchar_extends (t : Tchar) (s : List Int) : (Ast.onWindows t s).Extends (Ast.onWindows .none s) := by
  cases t
  · exact ⟨fun _ _ _ _ h => h, rfl, rfl, rfl, rfl⟩
  · have := extends_append (globals := Ast.globals s) (classes := Ast.classes) (wide := .c16) new_mbcs hasSelf_mbcs
    rw [List.append_assoc] at this
    exact this
  · have := extends_append (globals := Ast.globals s) (classes := Ast.classes) (wide := .c16) new_unicode hasSelf_unicode
    rw [List.append_assoc] at this
    exact this

theorem Program.Extends.trans {P Q R : Program} (h : R.Extends Q) (h' : Q.Extends P) : R.Extends P :=
  ⟨fun _ _ _ _ e => h.resolve _ _ _ _ (h'.resolve _ _ _ _ e), h'.globals.trans h.globals, h'.classes.trans h.classes,
    h'.member.trans h.member, h'.wide.trans h.wide⟩

theorem windows_extends (t : Tchar) (s : List Int) : (Ast.onWindows t s).Extends (Ast.program false s) :=
  (tchar_extends t s).trans (none_extends s)

end Ansak.Cpp
