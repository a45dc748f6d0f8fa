import Verif.Model.Cxx.Lex

/-!
# C++ source text: syntax

The syntax of the part of C++ that the character tables use: functions of one character, local variables, `if`,
`switch`, `return`, `break`, and expressions without side effects.
-/

namespace Ansak.Cxx

/-- Expressions. -/
inductive Expr where
  | num (n : Nat)
  | bool (b : Bool)
  | var (x : Nat)
  /-- `!e` -/
  | not (e : Expr)
  /-- `~e` -/
  | compl (e : Expr)
  | bin (op : BinOp) (a b : Expr)
  /-- `c ? a : b` -/
  | cond (c a b : Expr)
  /-- `static_cast<ty>(e)` -/
  | cast (ty : Ty) (e : Expr)
  /-- `f(e)` -/
  | call (f : Nat) (e : Expr)

/-- Statements. -/
inductive Stmt where
  /-- Nothing; also the end of the body of a `switch`. -/
  | skip
  | seq (s t : Stmt)
  | ret (e : Expr)
  | brk
  /-- `ty x = e;`, or `auto x = e;` -/
  | decl (ty : Option Ty) (x : Nat) (e : Expr)
  /-- `x &= e;` -/
  | andSet (x : Nat) (e : Expr)
  | block (s : Stmt)
  | ite (c : Expr) (t f : Stmt)
  /-- `switch (e) { groups }` -/
  | switch (e : Expr) (groups : Stmt)
  /-- Part of the body of a `switch`: the labels `case k:`, perhaps `default:`, the statements up to the next
  label, and the rest of the body. -/
  | group (labels : List Nat) (dflt : Bool) (body rest : Stmt)

/-- A function `ret name(arg param) { body }`. -/
structure Fun where
  name : Nat
  arg : Ty
  ret : Ty
  param : Nat
  body : Stmt

/-- What a file contains, apart from namespaces, `using` and `#include`. -/
inductive Item where
  | func (f : Fun)
  /-- `const type name = "string";` -/
  | const (name value : Nat)

/-- A parser takes the tokens and what to do next with what it has read and the remaining tokens. It is written
this way, and not as a function that returns what it has read, because Lean's kernel runs it faster. -/
abbrev P (α : Type) := List Tok → (α → List Tok → Option (List Item)) → Option (List Item)

/-- `p`, then `q` with what `p` has read. -/
def andThen {α β : Type} (p : P α) (q : α → P β) : P β := fun ts k => p ts fun a ts => q a ts k

@[inherit_doc andThen] scoped infixr:55 " ⊳ " => andThen

/-- Read nothing. -/
def yield {α : Type} (a : α) : P α := fun ts k => k a ts

/-- There is no way to read this. -/
def fail {α : Type} : P α := fun _ _ => none

/-- The operator, punctuation or word `n`. -/
def key (n : Nat) : P Unit := fun ts k =>
  match ts with
  | [] => none
  | t :: ts =>
    match t with
    | .key m => bif Nat.beq m n then k () ts else none
    | _ => none

/-- Is the operator, punctuation or word `n` next? If so it is read. -/
def sees (n : Nat) : P Bool := fun ts k =>
  match ts with
  | [] => k false []
  | t :: ts =>
    match t with
    | .key m => bif Nat.beq m n then k true ts else k false (t :: ts)
    | _ => k false (t :: ts)

/-- An identifier. -/
def ident : P Nat := fun ts k =>
  match ts with
  | [] => none
  | t :: ts =>
    match t with
    | .id x => k x ts
    | _ => none

/-- A number. -/
def number : P Nat := fun ts k =>
  match ts with
  | [] => none
  | t :: ts =>
    match t with
    | .num x => k x ts
    | _ => none

/-- A string. -/
def string : P Nat := fun ts k =>
  match ts with
  | [] => none
  | t :: ts =>
    match t with
    | .str x => k x ts
    | _ => none

/-- The operator `<` or `>`, as a bracket: operators of level 5. -/
def angle : P Unit := fun ts k =>
  match ts with
  | [] => none
  | t :: ts =>
    match t with
    | .op l _ => bif Nat.beq l 5 then k () ts else none
    | _ => none

/-- The word `char` after `unsigned`. -/
def uchar : Ty → P Ty
  | .uint => fun ts k =>
    match ts with
    | .ty .char :: ts => k .uchar ts
    | ts => k .uint ts
  | t => yield t

/-- A type. -/
def type : P Ty := fun ts k =>
  match ts with
  | [] => none
  | t :: ts =>
    match t with
    | .ty t => uchar t ts k
    | _ => none

/-- Unary expressions; `expr` reads the expression in parentheses. The second argument limits the number of
unary operators in a row. -/
def unary (expr : P Expr) : Nat → P Expr
  | 0 => fail
  | n + 1 => fun ts k =>
    match ts with
    | [] => none
    | t :: ts =>
      match t with
      | .num v => k (.num v) ts
      | .id x =>
        (sees (name% "(") ⊳ fun call =>
          bif call then expr ⊳ fun e => key (name% ")") ⊳ fun _ => yield (.call x e)
          else yield (.var x)) ts k
      | .key m =>
        bif Nat.beq m (name% "(") then (expr ⊳ fun e => key (name% ")") ⊳ fun _ => yield e) ts k
        else bif Nat.beq m (name% "true") then k (.bool true) ts
        else bif Nat.beq m (name% "false") then k (.bool false) ts
        else bif Nat.beq m (name% "!") then unary expr n ts fun e ts => k (.not e) ts
        else bif Nat.beq m (name% "~") then unary expr n ts fun e ts => k (.compl e) ts
        else bif Nat.beq m (name% "static_cast") then
          (angle ⊳ fun _ => type ⊳ fun ty => angle ⊳ fun _ => key (name% "(") ⊳ fun _ => expr ⊳ fun e =>
            key (name% ")") ⊳ fun _ => yield (.cast ty e)) ts k
        else none
      | _ => none

/-- Binary expressions: `a` has been read; what follows are operators of precedence `lvl` or higher with their
right operands. All binary operators group to the left. -/
def climb (u : P Expr) : Nat → Nat → Expr → P Expr
  | 0, _, _ => fail
  | n + 1, lvl, a => fun ts k =>
    match ts with
    | [] => none
    | t :: ts =>
      match t with
      | .op l op =>
        bif Nat.ble lvl l then
          -- the right operand takes the operators that bind tighter
          (u ⊳ fun b => climb u n (l + 1) b ⊳ fun b => climb u n lvl (.bin op a b)) ts k
        else k a (.op l op :: ts)
      | t => k a (t :: ts)

/-- Expressions, at most `n` levels of parentheses deep. -/
def expr : Nat → P Expr
  | 0 => fail
  | n + 1 =>
    unary (expr n) 5 ⊳ fun a => climb (unary (expr n) 5) 200 0 a ⊳ fun c =>
      sees (name% "?") ⊳ fun q =>
        bif q then expr n ⊳ fun a => key (name% ":") ⊳ fun _ => expr n ⊳ fun b => yield (.cond c a b)
        else yield c

/-- The nesting of parentheses and blocks is at most 20. -/
def depth : Nat := 20

/-- `( expression )` -/
def parens : P Expr :=
  key (name% "(") ⊳ fun _ => expr depth ⊳ fun e => key (name% ")") ⊳ fun _ => yield e

/-- `expression ;` -/
def exprSemi : P Expr := expr depth ⊳ fun e => key (name% ";") ⊳ fun _ => yield e

/-- Statements up to a closing brace, which is read; `stmt` reads one. The second argument limits their
number. -/
def stmts (stmt : P Stmt) : Nat → P Stmt
  | 0 => fail
  | n + 1 => sees (name% "}") ⊳ fun e =>
    bif e then yield .skip else stmt ⊳ fun s => stmts stmt n ⊳ fun t => yield (.seq s t)

/-- Is a label or a closing brace next? -/
def atLabel : P Bool := fun ts k =>
  match ts with
  | [] => none
  | t :: ts =>
    match t with
    | .key m =>
      k (bif Nat.beq m (name% "case") then true else bif Nat.beq m (name% "}") then true
        else Nat.beq m (name% "default")) (.key m :: ts)
    | t => k false (t :: ts)

/-- Statements up to the next label or closing brace, which is not read. -/
def groupBody (stmt : P Stmt) : Nat → P Stmt
  | 0 => fail
  | n + 1 => atLabel ⊳ fun e =>
    bif e then yield .skip else stmt ⊳ fun s => groupBody stmt n ⊳ fun t => yield (.seq s t)

/-- The labels before a statement: `case k:` and `default:`. -/
def labels : Nat → P (List Nat × Bool)
  | 0 => fail
  | n + 1 =>
    sees (name% "case") ⊳ fun c =>
      bif c then number ⊳ fun v => key (name% ":") ⊳ fun _ => labels n ⊳ fun r => yield (v :: r.1, r.2)
      else sees (name% "default") ⊳ fun d =>
        bif d then key (name% ":") ⊳ fun _ => labels n ⊳ fun r => yield (r.1, true)
        else yield ([], false)

/-- The body of a `switch` up to its closing brace. There are no statements before the first label. -/
def groups (stmt : P Stmt) : Nat → P Stmt
  | 0 => fail
  | n + 1 => sees (name% "}") ⊳ fun e =>
    bif e then yield .skip
    else atLabel ⊳ fun l =>
      bif l then
        labels 500 ⊳ fun l => groupBody stmt 200 ⊳ fun s => groups stmt n ⊳ fun r => yield (.group l.1 l.2 s r)
      else fail

/-- `x = e;` after a type, or after `auto`. -/
def declared (ty : Option Ty) : P Stmt :=
  ident ⊳ fun x => key (name% "=") ⊳ fun _ => exprSemi ⊳ fun e => yield (.decl ty x e)

/-- Statements, at most `n` levels deep. -/
def stmt : Nat → P Stmt
  | 0 => fail
  | n + 1 => fun ts k =>
    match ts with
    | [] => none
    | t :: ts =>
      match t with
      | .key m =>
        bif Nat.beq m (name% "return") then exprSemi ts fun e ts => k (.ret e) ts
        else bif Nat.beq m (name% "break") then key (name% ";") ts fun _ ts => k .brk ts
        else bif Nat.beq m (name% "{") then stmts (stmt n) 200 ts fun s ts => k (.block s) ts
        else bif Nat.beq m (name% "if") then
          (parens ⊳ fun c => stmt n ⊳ fun t => sees (name% "else") ⊳ fun e =>
            bif e then stmt n ⊳ fun f => yield (.ite c t f) else yield (.ite c t .skip)) ts k
        else bif Nat.beq m (name% "switch") then
          (parens ⊳ fun e => key (name% "{") ⊳ fun _ => groups (stmt n) 500 ⊳ fun g => yield (.switch e g)) ts k
        else bif Nat.beq m (name% "auto") then declared none ts k
        else none
      | .id x => (key (name% "&=") ⊳ fun _ => exprSemi ⊳ fun e => yield (.andSet x e)) ts k
      | .ty t => (uchar t ⊳ fun ty => declared (some ty)) ts k
      | _ => none

/-- `ret name(arg param) { body }` -/
def function : P Fun :=
  type ⊳ fun ret => ident ⊳ fun name => key (name% "(") ⊳ fun _ => type ⊳ fun arg => ident ⊳ fun x =>
    key (name% ")") ⊳ fun _ => key (name% "{") ⊳ fun _ => stmts (stmt depth) 200 ⊳ fun s =>
      yield ⟨name, arg, ret, x, s⟩

/-- The items of a text; `namespace name {`, `namespace {`, `}` and `using namespace name;` are skipped. The first
argument limits the number of items. -/
def items : Nat → List Tok → Option (List Item)
  | 0, _ => none
  | n + 1, ts =>
    match ts with
    | [] => some []
    | t :: ts =>
      match t with
      | .key m =>
        bif Nat.beq m (name% "}") then items n ts
        else bif Nat.beq m (name% "using") then
          (key (name% "namespace") ⊳ fun _ => ident ⊳ fun _ => key (name% ";")) ts fun _ ts => items n ts
        else bif Nat.beq m (name% "namespace") then
          sees (name% "{") ts fun b ts =>
            bif b then items n ts else (ident ⊳ fun _ => key (name% "{")) ts fun _ ts => items n ts
        else bif Nat.beq m (name% "const") then
          (ident ⊳ fun _ => ident ⊳ fun x => key (name% "=") ⊳ fun _ => string ⊳ fun v => key (name% ";") ⊳ fun _ =>
            yield (Item.const x v)) ts fun i ts => (items n ts).map (i :: ·)
        else none
      | t => function (t :: ts) fun f ts => (items n ts).map (.func f :: ·)

/-- The items of a piece of a source file. The source files are kept in pieces; a piece ends between two items. -/
def parse (text : Text) : Option (List Item) := items 200 (lex text)

/-- The items of a source file, given in pieces. -/
def parseAll : List Text → Option (List Item)
  | [] => some []
  | t :: ts =>
    match parse t with
    | some is =>
      match parseAll ts with
      | some js => some (is ++ js)
      | none => none
    | none => none

end Ansak.Cxx
