import Verif.Model.Cpp.Sem
import Verif.Model.Cpp.Source
import Verif.Model.Cpp.SourceWindows
open Ansak Ansak.Cpp

def showName (n : Nat) : String := Id.run do
  let mut s := ""
  let mut n := n
  while n > 0 do
    s := (Char.ofNat (n % 256)).toString ++ s
    n := n / 256
  return s
def nm (n : Nat) : String := if n = 0 then "(nat_lit 0)" else s!"(name% \"{showName n}\")"

def pTy : Ty → String
  | .bool => ".bool" | .char => ".char" | .uchar => ".uchar" | .c16 => ".c16" | .c32 => ".c32" | .wchar => ".wchar"
  | .int => ".int" | .uint => ".uint" | .long => ".long" | .ulong => ".ulong"
  | .enum n => s!"(.enum {nm n})"
def pTE : TyExpr → String
  | .prim t => s!"(.prim {pTy t})" | .auto => ".auto" | .void => ".void" | .param => ".param"
  | .str t => s!"(.str {pTE t})" | .adder t => s!"(.adder {pTE t})" | .ptr t => s!"(.ptr {pTE t})"
  | .vec t => s!"(.vec {pTE t})" | .list t => s!"(.list {pTE t})" | .named n => s!"(.named {nm n})"
  | .ref t => s!"(.ref {pTE t})" | .cls n => s!"(.cls {nm n})"
def pOp : BinOp → String
  | .or => ".or" | .and => ".and" | .bitOr => ".bitOr" | .bitAnd => ".bitAnd" | .eq => ".eq" | .ne => ".ne"
  | .lt => ".lt" | .gt => ".gt" | .le => ".le" | .ge => ".ge" | .shl => ".shl" | .shr => ".shr"
  | .add => ".add" | .sub => ".sub"
mutual
partial def pE : Expr → String
  | .num n => s!"(.num {n})"
  | .chr n => s!"(.chr {n})"
  | .lit t cs => s!"(.lit {pTy t} {cs})"
  | .npos => ".npos"
  | .bool b => s!"(.bool {b})"
  | .null => ".null"
  | .var x => s!"(.var {nm x})"
  | .this => ".this"
  | .deref e => s!"(.deref {pE e})"
  | .addr x => s!"(.addr {nm x})"
  | .not e => s!"(.not {pE e})"
  | .compl e => s!"(.compl {pE e})"
  | .neg e => s!"(.neg {pE e})"
  | .incr x => s!"(.incr {nm x})"
  | .postIncr x => s!"(.postIncr {nm x})"
  | .bin op a b => s!"(.bin {pOp op} {pE a} {pE b})"
  | .cond a b c => s!"(.cond {pE a} {pE b} {pE c})"
  | .set x e => s!"(.set {nm x} {pE e})"
  | .setAt x i e => s!"(.setAt {nm x} {pE i} {pE e})"
  | .setOp op x e => s!"(.setOp {pOp op} {nm x} {pE e})"
  | .comma a b => s!"(.comma {pE a} {pE b})"
  | .index a b => s!"(.index {pE a} {pE b})"
  | .cast t e => s!"(.cast {pTE t} {pE e})"
  | .reinterpret t e => s!"(.reinterpret {pTE t} {pE e})"
  | .sizeof t => s!"(.sizeof {pTE t})"
  | .call f as => s!"(.call {nm f} {pAs as})"
  | .method x f as => s!"(.method {nm x} {nm f} {pAs as})"
  | .valueMethod e f as => s!"(.valueMethod {pE e} {nm f} {pAs as})"
  | .field x f => s!"(.field {nm x} {nm f})"
  | .make t as => s!"(.make {pTE t} {pAs as})"
partial def pAs : Args → String
  | .nil => ".nil"
  | .cons e es => s!"(.cons {pE e} {pAs es})"
end
def ind (n : Nat) : String := "\n" ++ "".pushn ' ' n
partial def pS (i : Nat) : Stmt → String
  | .skip => ".skip"
  | .seq s t => s!"(.seq {pS (i+1) s}{ind i}{pS i t})"
  | .expr e => s!"(.expr {pE e})"
  | .decl t x e => s!"(.decl {pTE t} {nm x} {pE e})"
  | .make t x as => s!"(.make {pTE t} {nm x} {pAs as})"
  | .array t x as => s!"(.array {pTE t} {nm x} {pAs as})"
  | .arrayOf t x n as => s!"(.arrayOf {pTE t} {nm x} {n} {pAs as})"
  | .typedef t x => s!"(.typedef {pTE t} {nm x})"
  | .ret e => s!"(.ret {pE e})"
  | .brk => ".brk"
  | .block s => s!"(.block{ind (i+1)}{pS (i+1) s})"
  | .ite c t f => s!"(.ite {pE c}{ind (i+1)}{pS (i+1) t}{ind (i+1)}{pS (i+1) f})"
  | .loop c s b => s!"(.loop {pE c} {pS i s}{ind (i+1)}{pS (i+1) b})"
  | .doWhile c b => s!"(.doWhile {pE c}{ind (i+1)}{pS (i+1) b})"
  | .forIn x y b => s!"(.forIn {nm x} {nm y}{ind (i+1)}{pS (i+1) b})"
def pO (o : Option Expr) : String := match o with | none => "none" | some e => s!"(some {pE e})"
def pP (p : Param) : String := s!"⟨{pTE p.ty}, {nm p.name}, {pO p.dflt}⟩"
def pL (l : List String) : String := "[" ++ ", ".intercalate l ++ "]"
def pVal : Val → String
  | .int t n => s!"(.int {pTy t} ({n} : Nat))"
  | .arr t s => s!"(.arr {pTy t} {s})"
  | .str t _ => s!"(.str {pTy t} version)"
  | _ => "?"

/-- identifiers for functions -/
def ident (f : Fun) : String :=
  let base := if f.cls = 0 then showName f.name else
    if f.cls = f.name then "construct" else
    match showName f.name with
    | "operator==" => "equals" | "operator!=" => "differs" | "operator()" => "apply" | s => s
  let tn : TyExpr → String := fun t => match t with
    | .prim .char | .ptr (.prim .char) => "8" | .prim .c16 | .ptr (.prim .c16) => "16"
    | .prim .c32 | .ptr (.prim .c32) => "32"
    | .prim .wchar | .ptr (.prim .wchar) => "W" | .str (.prim .wchar) => "SW"
    | .ref (.str (.prim .char)) => "S8" | .ref (.str (.prim .c16)) => "S16" | .ref (.str (.prim .c32)) => "S32"
    | .ref (.str .param) => "V" | .str .param => "S" | .vec _ => ""
    | .str (.prim .char) => "S8" | .str (.prim .c16) => "S16" | .str (.prim .c32) => "S32"
    | .prim .uint => "Len" | .cls _ => "Pred" | .prim (.enum _) => "E" | .ref (.ptr _) => ""
    | _ => ""
  base ++ String.join (f.params.map fun p => if tn p.ty = "" then "" else "_" ++ tn p.ty)

def fn (sfx : String) (f : Fun) : String :=
  let b := match f.body with | some _ => s!"(some {ident f}{sfx}_body)" | none => "none"
  s!"⟨{nm f.cls}, {nm f.name}, {pTE f.ret}, {pL (f.params.map pP)}, {pL (f.inits.map fun (x, e) => s!"({nm x}, {pE e})")}, {b}⟩"

def header (imports what : String) : String :=
  s!"{imports}\n/-!\n# The syntax trees of {what}\n\nWhat the parser makes of the source text (written by `tools/gen_ast.txt`, and proved to be right in\n`Verif.Lemmas.Cpp.Text`).\n-/\n\nnamespace Ansak.Cpp.Ast\n\n"

/-- The definitions for some pieces: bodies, items. -/
def emit (pre : String) (ps : List Cxx.Text) (sfx : String) (out : String) : IO String := do
  let some is := parseAll ps | throw (.userError "parse")
  let mut out := out
  let mut used : List String := []
  for f in functions is do
    match f.body with
    | some b =>
      let i := ident f ++ sfx
      if used.contains i then throw (.userError s!"dup {i}")
      used := i :: used
      out := out ++ s!"def {i}_body : Stmt :=\n  {pS 2 b}\n\n"
    | none => pure ()
  let mut i := 0
  for p in ps do
    let some js := parse p | throw (.userError s!"piece {i}")
    out := out ++ s!"def {pre}{i} : List Item :=\n  ["
    out := out ++ ",\n   ".intercalate (js.map fun j => match j with
      | .func f => s!".func {fn sfx f}"
      | .enum n cs => s!".enum {nm n} {pL (cs.map fun (x, o) => s!"({nm x}, {pO o})")}"
      | .array t x n as => s!".array {pTE t} {nm x} {pE n} {pAs as}"
      | .field c t x => s!".field {nm c} {pTE t} {nm x}"
      | .extern t x => s!".extern {pTE t} {nm x}")
    out := out ++ "]\n\n"
    i := i + 1
  return out ++ s!"def {pre} : List Item :=\n  " ++ " <|\n  ".intercalate ((List.range i).map fun j => s!"{pre}{j}.append") ++ " []\n\n"

/-- The definitions of functions. -/
def emitFuns (name sfx : String) (fs : List Fun) (out : String) : String := Id.run do
  let mut out := out
  let mut names := #[]
  for f in fs do
    let n := ident f ++ sfx
    names := names.push n
    out := out ++ s!"def {n} : Fun :=\n  {fn sfx f}\n\n"
  return out ++ s!"def {name} : List Fun :=\n  [" ++ ",\n   ".intercalate names.toList ++ "]\n\n"

def main : IO Unit := do
  let X : Externals := ⟨fun _ _ _ => none, fun _ => some []⟩
  let prog (ps : List Cxx.Text) : IO Program := do
    let some is := parseAll ps | throw (.userError "parse")
    let some P := program X false .c32 is | throw (.userError "program")
    return P
  let P ← prog Source.common
  let n := P.funs.length
  let P16 ← prog (Source.pieces false)
  let P32 ← prog (Source.pieces true)
  let mut out ← emit "items" Source.common "" (header "import Verif.Model.Cpp.Sem\n" "the library")
  out := emitFuns "funs" "" P.funs out
  out := out ++ "def globals (version : List Int) : Env :=\n  [" ++ ",\n   ".intercalate (P.globals.map fun (x, v) => s!"({nm x}, {pVal v})") ++ "]\n\n"
  out := out ++ "def classes : List (Nat × List (Nat × Ty)) :=\n  " ++ pL (P.classes.map fun (c, fs) => s!"({nm c}, {pL (fs.map fun (x, t) => s!"({nm x}, {pTy t})")})") ++ "\n\n"
  out ← emit "items16_" Source.wide16 "_w16" out
  out := emitFuns "funs16" "_w16" (P16.funs.drop n) out
  out ← emit "items32_" Source.wide32 "_w32" out
  out := emitFuns "funs32" "_w32" (P32.funs.drop n) out
  out := out ++ "/-- The library with a `wchar_t` of 32 bits, or of 16. -/\ndef program (w32 : Bool) (version : List Int) : Program :=\n  ⟨funs ++ (bif w32 then funs32 else funs16), globals version, classes, wideType w32⟩\n\nend Ansak.Cpp.Ast\n"
  IO.FS.writeFile "/tmp/gen/Ast.lean" out
  let PW ← prog (Source.pieces false ++ Source.windows)
  let PM ← prog (Source.onWindows .mbcs)
  let PU ← prog (Source.onWindows .unicode)
  out ← emit "itemsWindows" Source.windows "_win" (header "import Verif.Model.Cpp.Ast\nimport Verif.Model.Cpp.SourceWindows\n" "what the library has for Windows")
  out := emitFuns "funsWindows" "_win" (PW.funs.drop P16.funs.length) out
  out ← emit "itemsMbcsIs" Source.mbcsIs "_mbcs" out
  out ← emit "itemsMbcsTo" Source.mbcsTo "_mbcs" out
  out := emitFuns "funsMbcs" "_mbcs" (PM.funs.drop PW.funs.length) out
  out ← emit "itemsUnicode" Source.unicode "_unicode" out
  out := emitFuns "funsUnicode" "_unicode" (PU.funs.drop PW.funs.length) out
  out := out ++ "/-- The functions that the library has on Windows. -/\ndef windowsFuns : Source.Tchar → List Fun\n  | .none => funsWindows\n  | .mbcs => funsWindows ++ funsMbcs\n  | .unicode => funsWindows ++ funsUnicode\n\n"
  out := out ++ "/-- The library on Windows. -/\ndef onWindows (t : Source.Tchar) (version : List Int) : Program :=\n  ⟨(funs ++ funs16) ++ windowsFuns t, globals version, classes, .c16⟩\n\n"
  out := out ++ "end Ansak.Cpp.Ast\n"
  IO.FS.writeFile "/tmp/gen/AstWindows.lean" out
