import Verif.Lemmas.Cpp.Unsequenced

/-! # C75: no operand changes what another operand uses -/

namespace Ansak.Props

open Spec

/-- No expression of the text of the library has operands, or arguments, of which one changes what another one uses. -/
theorem C75_text_order (w : Bool) : ∃ is, Cpp.parseAll (Cpp.Source.pieces w) = some is ∧ OrderFree is :=
  ⟨_, Cpp.parse_pieces w, Cpp.order_pieces w⟩

/-- The same on Windows. -/
theorem C75_text_order_windows (t : Cpp.Source.Tchar) : ∃ is, Cpp.parseAll (Cpp.Source.onWindows t) = some is ∧ OrderFree is :=
  ⟨_, Cpp.parse_onWindows t, Cpp.order_onWindows t⟩

/-- What depends on the order is noticed: `f(*p++, *p)`, `*p++ | *p++ << 8`, `p = p++`, `a[i] = i++`, `s.append(f(s))` if `f` takes its
argument by reference, and `*p + s.erase(n)`, where `p` may lead into `s`. And `*p++ && *p` does not. The operands of `i++ + s` are apart, unless both are
references, which may be to the same object. -/
example :
    let p := 2; let f := 3; let s := 4; let i := 5
    let fs : List Cpp.Fun := [⟨0, f, .void, [⟨.ref (.str (.prim .char)), 6, none⟩], [], none⟩]
    settled fs [] [] (.call f (.cons (.deref (.postIncr p)) (.cons (.deref (.var p)) .nil))) = false ∧
    settled fs [] [] (.bin .bitOr (.deref (.postIncr p)) (.bin .shl (.deref (.postIncr p)) (.num 8))) = false ∧
    settled fs [] [] (.set p (.postIncr p)) = false ∧
    settled fs [] [] (.setAt s (.var i) (.postIncr i)) = false ∧
    settled fs [] [] (.method s (name% "append") (.cons (.call f (.cons (.var s) .nil)) .nil)) = false ∧
    settled fs [] [] (.bin .add (.deref (.var p)) (.method s (name% "erase") (.cons (.num 0) .nil))) = false ∧
    settled fs [] [] (.bin .and (.deref (.postIncr p)) (.deref (.var p))) = true ∧
    settled fs [] [] (.bin .add (.postIncr i) (.var s)) = true ∧
    settled fs [] [i, s] (.bin .add (.postIncr i) (.var s)) = false := by decide +kernel

/-- An expression of `split` of which the order is open and of which an operand changes something:
`result[iResX++] = src.substr(0, *breaks.begin())`. -/
example :
    let i := Cpp.Expr.postIncr (name% "iResX")
    let e := Cpp.Expr.method (name% "src") (name% "substr")
      (.cons (.num 0) (.cons (.deref (.method (name% "breaks") (name% "begin") .nil)) .nil))
    alters [] [] i = [name% "iResX"] ∧ apart [] [] [] i e = true ∧ settled [] [] [] (.setAt (name% "result") i e) = true ∧
    settled [] [] [] (.setAt (name% "result") i (.var (name% "iResX"))) = false := by decide +kernel

/-- After `p = f(&i)`, the operands of `*p + i++` may be the same object. -/
example :
    let i := 5
    let sh := shares (.decl .auto 2 (.call 3 (.cons (.addr i) .nil)))
    sh = [i] ∧ settled [] [] sh (.bin .add (.deref (.var 2)) (.postIncr i)) = false ∧
    settled [] [] [] (.bin .add (.deref (.var 2)) (.postIncr i)) = true := by decide +kernel

end Ansak.Props
