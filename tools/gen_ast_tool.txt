import Verif.Model.Tool.Source
import Verif.Model.Tool.Sem
open Ansak Ansak.Tool
def nm (n : Nat) : String := Id.run do
  let mut s := []
  let mut m := n
  for _ in [0:40] do
    if m = 0 then break
    s := Char.ofNat (m % 256) :: s
    m := m / 256
  return "(name% \"" ++ String.ofList s ++ "\")"
def opn : Op → String | .or => ".or" | .and => ".and" | .bitOr => ".bitOr" | .eq => ".eq" | .ne => ".ne" | .gt => ".gt" | .shl => ".shl" | .mod => ".mod"
mutual
def pe : Expr → String
 | .num n => s!"(.num {n})" | .chr n => s!"(.chr {n})" | .lit cs => s!"(.lit {cs})" | .bool b => s!"(.bool {b})"
 | .var x => s!"(.var {nm x})" | .addr x => s!"(.addr {nm x})" | .not e => s!"(.not {pe e})" | .incr x => s!"(.incr {nm x})"
 | .bin o a b => s!"(.bin {opn o} {pe a} {pe b})" | .set x e => s!"(.set {nm x} {pe e})" | .index a b => s!"(.index {pe a} {pe b})"
 | .call f a => s!"(.call {nm f} {pa a})" | .method e f a => s!"(.method {pe e} {nm f} {pa a})"
def pa : Args → String | .nil => ".nil" | .cons e es => s!"(.cons {pe e} {pa es})"
end
def ind (n : Nat) : String := "\n" ++ String.ofList (List.replicate n ' ')
def ps (i : Nat) : Stmt → String
 | .skip => ".skip"
 | .seq s t => s!"(.seq {ps (i+2) s}{ind i}{ps i t})"
 | .expr e => s!"(.expr {pe e})"
 | .decl t x e => s!"(.decl {nm t} {nm x} {pe e})"
 | .make t x a => s!"(.make {nm t} {nm x} {pa a})"
 | .ret e => s!"(.ret {pe e})" | .cont => ".cont"
 | .block s => s!"(.block{ind i}{ps i s})"
 | .ite c t f => s!"(.ite {pe c} {ps (i+2) t}{ind i}{ps (i+2) f})"
 | .loop _ _ => "(.loop Ast.loopCondition Ast.loopBody)"
 | .tryCatch _ _ => "(.tryCatch Ast.attempt Ast.handler)"

def loops : Stmt → List (Expr × Stmt) | .seq a b => loops a ++ loops b | .block a => loops a | .ite _ a b => loops a ++ loops b | .loop c s => [(c, s)] | .tryCatch a b => loops a ++ loops b | _ => []
def tries : Stmt → List (Stmt × Stmt) | .seq a b => tries a ++ tries b | .block a => tries a | .ite _ a b => tries a ++ tries b | .loop _ s => tries s | .tryCatch a b => [(a, b)] | _ => []
def how : Passing → String | .value => ".value" | .ref => ".ref" | .pointers => ".pointers"
def go : IO Unit := do
  for f in (parse source).getD [] do
    for (c, b) in loops f.body do
      IO.println s!"/-- The condition of the loop of `process`. -/\ndef loopCondition : Expr :=\n  {pe c}\n"
      IO.println s!"/-- The body of the loop. -/\ndef loopBody : Stmt :=\n  {ps 2 b}\n"
    for (a, h) in tries f.body do
      IO.println s!"/-- What `main` does in `try`. -/\ndef attempt : Stmt :=\n  {ps 2 a}\n"
      IO.println s!"/-- What `main` does in `catch`. -/\ndef handler : Stmt :=\n  {ps 2 h}\n"
    let n := ((nm f.name).drop 8).dropEnd 2
    let q := f.params.map fun p => s!"⟨{nm p.ty}, {how p.how}, {nm p.name}⟩"
    IO.println s!"def {n} : Fun :=\n  ⟨{nm f.ret}, {nm f.name}, {q},\n  {ps 2 f.body}⟩\n"
#eval go
