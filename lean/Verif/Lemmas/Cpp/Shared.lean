import Verif.Spec.Shared
import Verif.Lemmas.Cpp.Trim
import Verif.Lemmas.Cpp.Link

/-! # `trim` for a string and itself, executed from its syntax tree -/

namespace Ansak.Cpp

variable {E : Sealed} {X : Externals} {sc : Bool} {r d : Nat} {w : Bool} {s : List Int}

theorem sharedText_eq (h : X.str (name% "supportedUnicodeVersion") = some s) (n name : Nat) (v : Val) :
    Spec.sharedText X sc (wideType w) (Source.pieces w) n name v = Spec.sharedCall (Ast.program w s) X sc n name v := by
  unfold Spec.sharedText
  rw [parse_pieces]
  show (match program X sc (wideType w) (Ast.allItems w) with | some P => _ | none => _) = _
  rw [program_items h sc w]

set_option hygiene false in
/-- The proof that the body of `trim` removes everything from a string if `spaces` is that same string. -/
macro "empties " t:term:max : tactic => `(tactic| (
  obtain ⟨r, rfl⟩ : ∃ q, r = q + 1 := ⟨r - 1, by omega⟩
  run
  induct [L] (fun L => [(name% "victim", Val.str $t L)])
    (fun L => K (.next [(name% "victim", Val.str $t []), (name% "spaces", Val.alias (name% "victim"))]))
    (fun L => L.length) (fun L => L.length < 18446744073709551615 ∧ L.length < r + 1)
  · intro n L h IH
    cases he : L.isEmpty with
    | true =>
      run1 [rounds_succ E]
      show E.rounds _ _ _ (r + 1) _ _ = _
      run1 [rounds_succ E]
      rw [List.isEmpty_iff] at he
      subst he
      rfl
    | false =>
      obtain ⟨c, hc, hl, h1, hd⟩ := last_char he
      run1 [rounds_succ E, read_at E, found E h.1]
      rw [decide_eq_true (List.mem_of_getLast? hl), Follow.branch_true E rfl]
      run1
      rw [hd]
      exact IH _ ⟨by rw [List.length_dropLast]; omega, by rw [List.length_dropLast]; omega⟩
        (by rw [List.length_dropLast]; omega)
  · exact ⟨h, hr⟩
  · exact hr
  · rfl))

theorem shared_char {K : End → Out} (L : List Int) (h : L.length < 18446744073709551615) (hr : L.length < r) :
    E.exec (E.ctx (Ast.program w s) X sc r d .char) .void Ast.trim_V_S_body
      [(name% "victim", .str .char L), (name% "spaces", .alias (name% "victim"))] K =
    K (.next [(name% "victim", .str .char []), (name% "spaces", .alias (name% "victim"))]) := by
  empties .char

theorem shared_c16 {K : End → Out} (L : List Int) (h : L.length < 18446744073709551615) (hr : L.length < r) :
    E.exec (E.ctx (Ast.program w s) X sc r d .c16) .void Ast.trim_V_S_body
      [(name% "victim", .str .c16 L), (name% "spaces", .alias (name% "victim"))] K =
    K (.next [(name% "victim", .str .c16 []), (name% "spaces", .alias (name% "victim"))]) := by
  empties .c16

theorem shared_c32 {K : End → Out} (L : List Int) (h : L.length < 18446744073709551615) (hr : L.length < r) :
    E.exec (E.ctx (Ast.program w s) X sc r d .c32) .void Ast.trim_V_S_body
      [(name% "victim", .str .c32 L), (name% "spaces", .alias (name% "victim"))] K =
    K (.next [(name% "victim", .str .c32 []), (name% "spaces", .alias (name% "victim"))]) := by
  empties .c32

theorem sharedCall_char {n : Nat} (L : List Int) (h : L.length < 18446744073709551615) (hn : L.length < n) :
    Spec.sharedCall (Ast.program w s) X sc n (name% "trim") (.str .char L) = .done .void [some (.str .char [])] := by
  have hf : resolve (Ast.program w s).funs (nat_lit 0) (name% "trim") [.str .char L, .str .char L] = some Ast.trim_V_S := by
    kernel_rfl
  unfold Spec.sharedCall
  rw [hf]
  exact shared_char (E := Sealed.real) (X := X) (sc := sc) (d := n - 1) (w := w) (s := s) L h hn

theorem sharedCall_c16 {n : Nat} (L : List Int) (h : L.length < 18446744073709551615) (hn : L.length < n) :
    Spec.sharedCall (Ast.program w s) X sc n (name% "trim") (.str .c16 L) = .done .void [some (.str .c16 [])] := by
  have hf : resolve (Ast.program w s).funs (nat_lit 0) (name% "trim") [.str .c16 L, .str .c16 L] = some Ast.trim_V_S := by
    kernel_rfl
  unfold Spec.sharedCall
  rw [hf]
  exact shared_c16 (E := Sealed.real) (X := X) (sc := sc) (d := n - 1) (w := w) (s := s) L h hn

theorem sharedCall_c32 {n : Nat} (L : List Int) (h : L.length < 18446744073709551615) (hn : L.length < n) :
    Spec.sharedCall (Ast.program w s) X sc n (name% "trim") (.str .c32 L) = .done .void [some (.str .c32 [])] := by
  have hf : resolve (Ast.program w s).funs (nat_lit 0) (name% "trim") [.str .c32 L, .str .c32 L] = some Ast.trim_V_S := by
    kernel_rfl
  unfold Spec.sharedCall
  rw [hf]
  exact shared_c32 (E := Sealed.real) (X := X) (sc := sc) (d := n - 1) (w := w) (s := s) L h hn

end Ansak.Cpp
