import Verif.Model.Cpp.Lex

/-!
# The C++ of the tool: syntax

The syntax of the part of C++ that mkUnicodeTestData/mkUnicodeTestData.cxx uses. Qualifiers of names are read and dropped, and so
are `using` and preprocessor directives (`#include`, and `#if` around one).
-/

namespace Ansak.Tool

open Cpp (Tok)
open Cxx (Text)

/-- The binary operators. -/
inductive Op where
  | or | and | bitOr | eq | ne | gt | shl | mod
deriving DecidableEq

mutual

/-- Expressions. -/
inductive Expr where
  | num (n : Nat)
  /-- `'c'` -/
  | chr (n : Nat)
  /-- `"…"` -/
  | lit (cs : List Nat)
  | bool (b : Bool)
  | var (x : Nat)
  /-- `&x` -/
  | addr (x : Nat)
  | not (e : Expr)
  /-- `++x` -/
  | incr (x : Nat)
  | bin (op : Op) (a b : Expr)
  /-- `x = e` -/
  | set (x : Nat) (e : Expr)
  /-- `e[i]` -/
  | index (e i : Expr)
  | call (f : Nat) (args : Args)
  /-- `e.f(args)` -/
  | method (e : Expr) (f : Nat) (args : Args)

/-- The arguments of a call. -/
inductive Args where
  | nil
  | cons (e : Expr) (es : Args)

end

/-- Statements. -/
inductive Stmt where
  | skip
  | seq (s t : Stmt)
  | expr (e : Expr)
  /-- `ty x = e;` -/
  | decl (ty x : Nat) (e : Expr)
  /-- `ty x;` or `ty x(args);` -/
  | make (ty x : Nat) (args : Args)
  /-- `return e;` -/
  | ret (e : Expr)
  | cont
  | block (s : Stmt)
  | ite (c : Expr) (t f : Stmt)
  | loop (c : Expr) (s : Stmt)
  /-- `try { s } catch (...) { h }` -/
  | tryCatch (s h : Stmt)

/-- How a parameter is declared. -/
inductive Passing where
  /-- `ty x` -/
  | value
  /-- `ty& x` -/
  | ref
  /-- `ty* x[]` -/
  | pointers
deriving DecidableEq

/-- A parameter. -/
structure Param where
  ty : Nat
  how : Passing
  name : Nat

/-- A function. -/
structure Fun where
  ret : Nat
  name : Nat
  params : List Param
  body : Stmt

/-- A parser: what it has read, and the tokens that remain. -/
abbrev P (α : Type) := List Tok → Option (α × List Tok)

/-- `p`, then `q` with what `p` has read. -/
def andThen {α β : Type} (p : P α) (q : α → P β) : P β := fun ts =>
  match p ts with
  | some (a, ts) => q a ts
  | none => none

@[inherit_doc andThen] scoped infixr:55 " ⊳ " => andThen

/-- Read nothing. -/
def yield {α : Type} (a : α) : P α := fun ts => some (a, ts)

/-- There is no way to read this. -/
def fail {α : Type} : P α := fun _ => none

/-- Is the operator or punctuation `n` next? If so it is read. -/
def sees (n : Nat) : P Bool := fun ts =>
  match ts with
  | .sym m :: rest => if m = n then some (true, rest) else some (false, ts)
  | _ => some (false, ts)

/-- The operator or punctuation `n`. -/
def sym (n : Nat) : P Unit := sees n ⊳ fun b => if b then yield () else fail

/-- Is the word `n` next? If so it is read. -/
def seesWord (n : Nat) : P Bool := fun ts =>
  match ts with
  | .id m :: rest => if m = n then some (true, rest) else some (false, ts)
  | _ => some (false, ts)

/-- A word. -/
def ident : P Nat := fun ts =>
  match ts with
  | .id x :: ts => some (x, ts)
  | _ => none

/-- Is the word `n` next, or are two words? They are not read. -/
def twoWords : P Bool := fun ts =>
  match ts with
  | .id _ :: .id _ :: _ => some (true, ts)
  | _ => some (false, ts)

/-- The rest of a name, of which the last part counts. -/
def qualified : Nat → Nat → P Nat
  | 0, _ => fail
  | n + 1, x => sees (name% "::") ⊳ fun q => if q then ident ⊳ qualified n else yield x

/-- Expressions with commas between them up to the closing parenthesis, which is read. -/
def args (expr : P Expr) : Nat → P Args
  | 0 => fail
  | n + 1 => sees (name% ")") ⊳ fun e =>
    if e then yield .nil
    else expr ⊳ fun a => sees (name% ",") ⊳ fun c =>
      if c then args expr n ⊳ fun as => yield (.cons a as)
      else sym (name% ")") ⊳ fun _ => yield (.cons a .nil)

/-- `[i]` and `.f(…)` after an expression. -/
def postfix_ (expr : P Expr) : Nat → Expr → P Expr
  | 0, _ => fail
  | n + 1, e => sees (name% "[") ⊳ fun s =>
    if s then expr ⊳ fun i => sym (name% "]") ⊳ fun _ => postfix_ expr n (.index e i)
    else sees (name% ".") ⊳ fun d =>
      if d then ident ⊳ fun f => sym (name% "(") ⊳ fun _ => args expr 5 ⊳ fun as => postfix_ expr n (.method e f as)
      else yield e

/-- Unary expressions; `expr` reads what is in parentheses or brackets. -/
def unary (expr : P Expr) : Nat → P Expr
  | 0 => fail
  | n + 1 => fun ts =>
    match ts with
    | .num v :: ts => some (.num v, ts)
    | .chr v :: ts => some (.chr v, ts)
    | .str pre cs :: ts => if pre = 0 then some (.lit cs, ts) else none
    | .id x :: ts =>
      if x = (name% "true") then some (.bool true, ts)
      else if x = (name% "false") then some (.bool false, ts)
      else (qualified 4 x ⊳ fun x => sees (name% "(") ⊳ fun c =>
        if c then args expr 5 ⊳ fun as => postfix_ expr 5 (.call x as) else postfix_ expr 5 (.var x)) ts
    | .sym m :: ts =>
      if m = (name% "(") then (expr ⊳ fun e => sym (name% ")") ⊳ fun _ => yield e) ts
      else if m = (name% "!") then (unary expr n ⊳ fun e => yield (.not e)) ts
      else if m = (name% "&") then (ident ⊳ fun x => yield (.addr x)) ts
      else if m = (name% "++") then (ident ⊳ fun x => yield (.incr x)) ts
      else none
    | _ => none

/-- Binary operators with their precedence. -/
def operator (n : Nat) : Option (Nat × Op) :=
  if n = (name% "||") then some (0, .or)
  else if n = (name% "&&") then some (1, .and)
  else if n = (name% "|") then some (2, .bitOr)
  else if n = (name% "==") then some (4, .eq)
  else if n = (name% "!=") then some (4, .ne)
  else if n = (name% ">") then some (5, .gt)
  else if n = (name% "<<") then some (6, .shl)
  else if n = (name% "%") then some (8, .mod)
  else none

/-- Binary expressions: `a` has been read; what follows are operators of precedence `lvl` or higher with their
right operands. All binary operators group to the left. -/
def climb (u : P Expr) : Nat → Nat → Expr → P Expr
  | 0, _, _ => fail
  | n + 1, lvl, a => fun ts =>
    match ts with
    | .sym m :: rest =>
      match operator m with
      | some (l, op) =>
        if lvl ≤ l then (u ⊳ fun b => climb u n (l + 1) b ⊳ fun b => climb u n lvl (.bin op a b)) rest
        else some (a, ts)
      | none => some (a, ts)
    | ts => some (a, ts)

/-- `= e` after an expression, which has to be a variable. -/
def assigned (expr : P Expr) (a : Expr) : P Expr :=
  sees (name% "=") ⊳ fun s =>
    if s then
      match a with
      | .var x => expr ⊳ fun e => yield (.set x e)
      | _ => fail
    else yield a

/-- Expressions, at most `n` levels of parentheses deep. -/
def expr : Nat → P Expr
  | 0 => fail
  | n + 1 => unary (expr n) 3 ⊳ fun a => climb (unary (expr n) 3) 10 0 a ⊳ assigned (expr n)

/-- `( expression )` -/
def parens : P Expr := sym (name% "(") ⊳ fun _ => expr 6 ⊳ fun e => sym (name% ")") ⊳ fun _ => yield e

/-- Statements up to a closing brace, which is read; `stmt` reads one. -/
def stmts (stmt : P Stmt) : Nat → P Stmt
  | 0 => fail
  | n + 1 => sees (name% "}") ⊳ fun e =>
    if e then yield .skip else stmt ⊳ fun s => stmts stmt n ⊳ fun t => yield (.seq s t)

/-- A type and a variable, with its initialiser. -/
def declaration : P Stmt :=
  -- `struct` before the name of a class means nothing
  seesWord (name% "struct") ⊳ fun _ => ident ⊳ fun t => ident ⊳ fun x => sees (name% "=") ⊳ fun i =>
    if i then expr 6 ⊳ fun e => sym (name% ";") ⊳ fun _ => yield (.decl t x e)
    else sees (name% "(") ⊳ fun c =>
      if c then args (expr 6) 5 ⊳ fun as => sym (name% ";") ⊳ fun _ => yield (.make t x as)
      else sym (name% ";") ⊳ fun _ => yield (.make t x .nil)

/-- Statements, at most `n` levels deep. -/
def stmt : Nat → P Stmt
  | 0 => fail
  | n + 1 =>
    sees (name% "{") ⊳ fun b => if b then stmts (stmt n) 20 ⊳ fun s => yield (.block s) else
    seesWord (name% "return") ⊳ fun b =>
      if b then expr 6 ⊳ fun e => sym (name% ";") ⊳ fun _ => yield (.ret e) else
    seesWord (name% "continue") ⊳ fun b => if b then sym (name% ";") ⊳ fun _ => yield .cont else
    seesWord (name% "if") ⊳ fun b =>
      if b then parens ⊳ fun c => stmt n ⊳ fun t => seesWord (name% "else") ⊳ fun e =>
        if e then stmt n ⊳ fun f => yield (.ite c t f) else yield (.ite c t .skip)
      else
    seesWord (name% "while") ⊳ fun b => if b then parens ⊳ fun c => stmt n ⊳ fun s => yield (.loop c s) else
    seesWord (name% "try") ⊳ fun b =>
      if b then stmt n ⊳ fun s => seesWord (name% "catch") ⊳ fun c =>
        if c then
          sym (name% "(") ⊳ fun _ => sym (name% ".") ⊳ fun _ => sym (name% ".") ⊳ fun _ => sym (name% ".") ⊳ fun _ =>
            sym (name% ")") ⊳ fun _ => stmt n ⊳ fun h => yield (.tryCatch s h)
        else fail
      else
    twoWords ⊳ fun b => if b then declaration else expr 6 ⊳ fun e => sym (name% ";") ⊳ fun _ => yield (.expr e)

/-- The parameters of a function up to the closing parenthesis. -/
def params : Nat → P (List Param)
  | 0 => fail
  | n + 1 => ident ⊳ fun t => sees (name% "&") ⊳ fun r => sees (name% "*") ⊳ fun p => ident ⊳ fun x =>
    (if p then sym (name% "[") ⊳ fun _ => sym (name% "]") else yield ()) ⊳ fun _ =>
      let q : Param := ⟨t, if p then .pointers else if r then .ref else .value, x⟩
      sees (name% ",") ⊳ fun c =>
        if c then params n ⊳ fun ps => yield (q :: ps) else sym (name% ")") ⊳ fun _ => yield [q]

/-- The functions of a text. -/
def functions : Nat → P (List Fun)
  | 0 => fail
  | n + 1 => fun ts =>
    match ts with
    | [] => some ([], [])
    | ts =>
      (seesWord (name% "using") ⊳ fun u =>
        if u then ident ⊳ fun _ => ident ⊳ fun _ => sym (name% ";") ⊳ fun _ => functions n
        else ident ⊳ fun t => ident ⊳ fun f => sym (name% "(") ⊳ fun _ => params 5 ⊳ fun ps => sym (name% "{") ⊳ fun _ =>
          stmts (stmt 8) 20 ⊳ fun s => functions n ⊳ fun fs => yield (⟨t, f, ps, s⟩ :: fs)) ts

/-- The functions of a text; `none` if it cannot be read. -/
def parse (text : Text) : Option (List Fun) :=
  match functions 10 (Cpp.lex text) with
  | some (fs, []) => some fs
  | _ => none

end Ansak.Tool
