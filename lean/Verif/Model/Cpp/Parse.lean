import Verif.Model.Cpp.Lex

/-!
# The C++ of the library: syntax

The syntax of the part of C++ that the library uses apart from the character tables. `const`, `static`, `inline`
and `extern` are read and dropped; so are namespaces and the qualifiers of names (no two entities that a name in
these files could mean differ by their namespace only). The type names of the standard library and of
`interface/string.hxx` are built in.
-/

namespace Ansak.Cpp

open Cxx (Text force oneOf)

/-- Arithmetic types and enumerations. -/
inductive Ty where
  | bool
  | char
  | uchar
  | c16
  | c32
  /-- `wchar_t`, of which only pointers and strings are used here; its values are kept as unsigned numbers -/
  | wchar
  | int
  | uint
  /-- 64 bits: the type of the difference of two pointers -/
  | long
  /-- 64 bits: `size_t` -/
  | ulong
  /-- an enumeration, all of which have the underlying type `int` -/
  | enum (n : Nat)
deriving DecidableEq

/-- Types as they are written. -/
inductive TyExpr where
  | prim (t : Ty)
  | auto
  | void
  /-- the parameter `C` of a template -/
  | param
  /-- `std::basic_string<t>` -/
  | str (t : TyExpr)
  /-- `std::vector<t>` -/
  | vec (t : TyExpr)
  /-- `std::list<t>` -/
  | list (t : TyExpr)
  /-- a name that is defined by a `typedef` in the function -/
  | named (n : Nat)
  /-- `CharacterAdder<t>` -/
  | adder (t : TyExpr)
  /-- `const t*` -/
  | ptr (t : TyExpr)
  /-- `t&`; but `const t&` is read as `t` -/
  | ref (t : TyExpr)
  /-- a class -/
  | cls (n : Nat)
deriving DecidableEq

/-- The binary operators. -/
inductive BinOp where
  | or | and | bitOr | bitAnd | eq | ne | lt | gt | le | ge | shl | shr | add | sub
deriving DecidableEq

mutual

/-- Expressions. Where an object is changed, or a member of it is used, it is always a variable. -/
inductive Expr where
  | num (n : Nat)
  /-- `'c'` -/
  | chr (n : Nat)
  /-- `"…"`: the characters without the terminating NUL -/
  | lit (t : Ty) (cs : List Nat)
  /-- `basic_string<…>::npos` -/
  | npos
  | bool (b : Bool)
  | null
  | var (x : Nat)
  /-- `this` -/
  | this
  /-- `*e` -/
  | deref (e : Expr)
  /-- `&x` -/
  | addr (x : Nat)
  | not (e : Expr)
  | compl (e : Expr)
  /-- `-e` -/
  | neg (e : Expr)
  /-- `++x` -/
  | incr (x : Nat)
  /-- `x++` -/
  | postIncr (x : Nat)
  | bin (op : BinOp) (a b : Expr)
  /-- `c ? a : b` -/
  | cond (c a b : Expr)
  /-- `x = e` -/
  | set (x : Nat) (e : Expr)
  /-- `x[i] = e` -/
  | setAt (x : Nat) (i e : Expr)
  /-- `x op= e` -/
  | setOp (op : BinOp) (x : Nat) (e : Expr)
  /-- `a, b` -/
  | comma (a b : Expr)
  /-- `e[i]` -/
  | index (e i : Expr)
  /-- `static_cast<ty>(e)` -/
  | cast (ty : TyExpr) (e : Expr)
  /-- `reinterpret_cast<ty>(e)` -/
  | reinterpret (ty : TyExpr) (e : Expr)
  /-- `sizeof(ty)` -/
  | sizeof (ty : TyExpr)
  /-- `f(args)`: a call of a function, or of an object -/
  | call (f : Nat) (args : Args)
  /-- `x.f(args)` -/
  | method (x f : Nat) (args : Args)
  /-- `e.f(args)` where `e` is the value of a call -/
  | valueMethod (e : Expr) (f : Nat) (args : Args)
  /-- `x.f` -/
  | field (x f : Nat)
  /-- `ty(args)` -/
  | make (ty : TyExpr) (args : Args)

/-- Lists of expressions. -/
inductive Args where
  | nil
  | cons (e : Expr) (es : Args)

end

/-- Statements. -/
inductive Stmt where
  | skip
  | seq (s t : Stmt)
  | expr (e : Expr)
  /-- `ty x = e;` -/
  | decl (ty : TyExpr) (x : Nat) (e : Expr)
  /-- `ty x;` or `ty x(args);` -/
  | make (ty : TyExpr) (x : Nat) (args : Args)
  /-- `ty x[] = { args };` -/
  | array (ty : TyExpr) (x : Nat) (args : Args)
  /-- `ty x[n] = { args };` -/
  | arrayOf (ty : TyExpr) (x n : Nat) (args : Args)
  /-- `typedef ty x;` -/
  | typedef (ty : TyExpr) (x : Nat)
  /-- `return e;` -/
  | ret (e : Expr)
  | brk
  | block (s : Stmt)
  | ite (c : Expr) (t f : Stmt)
  /-- `for (init; c; step) body` without `init`, which comes before it in a block -/
  | loop (c : Expr) (step : Stmt) (body : Stmt)
  /-- `do body while (c);` -/
  | doWhile (c : Expr) (body : Stmt)
  /-- `for (auto x : y) body` -/
  | forIn (x y : Nat) (body : Stmt)

/-- A parameter, with the argument that it has by default. -/
structure Param where
  ty : TyExpr
  name : Nat
  dflt : Option Expr

/-- A function, or the declaration of one. A constructor has the name of its class. -/
structure Fun where
  /-- the class, 0 if it is not a member -/
  cls : Nat
  name : Nat
  ret : TyExpr
  params : List Param
  /-- the initialisers of a constructor -/
  inits : List (Nat × Expr)
  body : Option Stmt

/-- A declaration or definition. -/
inductive Item where
  | func (f : Fun)
  /-- `enum name : int { x = e, … };` -/
  | enum (name : Nat) (consts : List (Nat × Option Expr))
  /-- `ty x[e] = { args };` -/
  | array (ty : TyExpr) (x : Nat) (size : Expr) (args : Args)
  /-- a member variable of a class -/
  | field (cls : Nat) (ty : TyExpr) (x : Nat)
  /-- `extern ty x;` -/
  | extern (ty : TyExpr) (x : Nat)

/-- A parser takes the tokens and what to do next with what it has read and the remaining tokens. -/
abbrev P (α : Type) := List Tok → (α → List Tok → Option (List Item)) → Option (List Item)

/-- `p`, then `q` with what `p` has read. -/
def andThen {α β : Type} (p : P α) (q : α → P β) : P β := fun ts k => p ts fun a ts => q a ts k

@[inherit_doc andThen] scoped infixr:55 " ⊳ " => andThen

/-- Read nothing. -/
def yield {α : Type} (a : α) : P α := fun ts k => k a ts

/-- There is no way to read this. -/
def fail {α : Type} : P α := fun _ _ => none

/-- The operator or punctuation `n`. -/
def sym (n : Nat) : P Unit := fun ts k =>
  match ts with
  | [] => none
  | t :: ts =>
    match t with
    | .sym m => bif Nat.beq m n then k () ts else none
    | _ => none

/-- Is the operator or punctuation `n` next? If so it is read. -/
def sees (n : Nat) : P Bool := fun ts k =>
  match ts with
  | [] => k false []
  | t :: ts =>
    match t with
    | .sym m => bif Nat.beq m n then k true ts else k false (t :: ts)
    | _ => k false (t :: ts)

/-- Is the operator or punctuation `n` next? It is not read. -/
def peeks (n : Nat) : P Bool := fun ts k =>
  match ts with
  | [] => k false []
  | t :: ts =>
    match t with
    | .sym m => k (Nat.beq m n) (.sym m :: ts)
    | t => k false (t :: ts)

/-- Is the word `n` next? If so it is read. -/
def seesWord (n : Nat) : P Bool := fun ts k =>
  match ts with
  | [] => k false []
  | t :: ts =>
    match t with
    | .id m => bif Nat.beq m n then k true ts else k false (t :: ts)
    | _ => k false (t :: ts)

/-- A word. -/
def ident : P Nat := fun ts k =>
  match ts with
  | [] => none
  | t :: ts =>
    match t with
    | .id x => k x ts
    | _ => none

/-- The word `n`. -/
def word (n : Nat) : P Unit := ident ⊳ fun m => bif Nat.beq m n then yield () else fail

/-- Names that are types by themselves. -/
def typeName (n : Nat) : Option TyExpr :=
  bif Nat.beq n (name% "bool") then some (.prim .bool)
  else bif Nat.beq n (name% "char") then some (.prim .char)
  else bif Nat.beq n (name% "char16_t") then some (.prim .c16)
  else bif Nat.beq n (name% "char32_t") then some (.prim .c32)
  else bif Nat.beq n (name% "wchar_t") then some (.prim .wchar)
  else bif Nat.beq n (name% "int") then some (.prim .int)
  else bif Nat.beq n (name% "uint32_t") then some (.prim .uint)
  else bif Nat.beq n (name% "auto") then some .auto
  else bif Nat.beq n (name% "void") then some .void
  else bif Nat.beq n (name% "C") then some .param
  else bif oneOf n [name% "string", name% "utf8String"] then some (.str (.prim .char))
  else bif oneOf n [name% "u16string", name% "utf16String", name% "ucs2String"] then some (.str (.prim .c16))
  else bif oneOf n [name% "u32string", name% "ucs4String"] then some (.str (.prim .c32))
  else bif Nat.beq n (name% "wstring") then some (.str (.prim .wchar))
  else bif oneOf n [name% "RangeType", name% "RangeTypeFlags", name% "EncodingType", name% "EncodingTypeFlags",
      name% "SourceEncoding"] then some (.prim (.enum n))
  else bif Nat.beq n (name% "EncodingCheckPredicate") then some (.cls n)
  else none

/-- Words that a declaration can begin with before its type. -/
def specifier (n : Nat) : Bool :=
  oneOf n [name% "const", name% "static", name% "inline", name% "extern", name% "typename"]

/-- Other words that begin a type. -/
def typeWord (n : Nat) : Bool :=
  oneOf n [name% "std", name% "unsigned", name% "basic_string", name% "CharacterAdder"]

/-- Does a type begin with this word? -/
def isType (n : Nat) : Bool :=
  bif specifier n then true else bif typeWord n then true else
    match typeName n with
    | some _ => true
    | none => false

/-- `*` and `&` after a type; `const_`: is the type constant? The first argument limits their number. -/
def declarator : Nat → Bool → TyExpr → P TyExpr
  | 0, _, _ => fail
  | n + 1, const_, t =>
    sees (name% "*") ⊳ fun s =>
      bif s then declarator n false (.ptr t)
      else sees (name% "&") ⊳ fun r =>
        bif r then yield (bif const_ then t else .ref t) else yield t

/-- A type without `*` and `&`. The first argument limits its size. -/
def baseType : Nat → P TyExpr
  | 0 => fail
  | n + 1 => ident ⊳ fun x =>
    bif specifier x then baseType n
    else bif Nat.beq x (name% "std") then sym (name% "::") ⊳ fun _ => baseType n
    else bif Nat.beq x (name% "unsigned") then ident ⊳ fun y =>
      bif Nat.beq y (name% "int") then yield (.prim .uint)
      else bif Nat.beq y (name% "char") then yield (.prim .uchar)
      else fail
    else bif Nat.beq x (name% "basic_string") then
      sym (name% "<") ⊳ fun _ => baseType n ⊳ fun t => sym (name% ">") ⊳ fun _ => yield (.str t)
    else bif Nat.beq x (name% "vector") then
      sym (name% "<") ⊳ fun _ => baseType n ⊳ fun t => sym (name% ">") ⊳ fun _ => yield (.vec t)
    else bif Nat.beq x (name% "list") then
      sym (name% "<") ⊳ fun _ => baseType n ⊳ fun t => sym (name% ">") ⊳ fun _ => yield (.list t)
    else bif Nat.beq x (name% "CharacterAdder") then
      sym (name% "<") ⊳ fun _ => baseType n ⊳ fun t => sym (name% ">") ⊳ fun _ => yield (.adder t)
    else
      match typeName x with
      | some t => yield t
      | none => sees (name% "::") ⊳ fun q =>
        -- `x::size_type`
        bif q then word (name% "size_type") ⊳ fun _ => yield (.prim .ulong) else yield (.named x)

/-- Is the word `const` next? It is not read. -/
def peeksConst : P Bool := fun ts k =>
  match ts with
  | [] => k false []
  | t :: ts =>
    match t with
    | .id m => k (Nat.beq m (name% "const")) (.id m :: ts)
    | t => k false (t :: ts)

/-- A type. -/
def type : P TyExpr := peeksConst ⊳ fun c => baseType 8 ⊳ declarator 4 c

/-- Binary operators with their precedence. -/
def operator (n : Nat) : Option (Nat × BinOp) :=
  bif Nat.beq n (name% "||") then some (0, .or)
  else bif Nat.beq n (name% "&&") then some (1, .and)
  else bif Nat.beq n (name% "|") then some (2, .bitOr)
  else bif Nat.beq n (name% "&") then some (3, .bitAnd)
  else bif Nat.beq n (name% "==") then some (4, .eq)
  else bif Nat.beq n (name% "!=") then some (4, .ne)
  else bif Nat.beq n (name% "<") then some (5, .lt)
  else bif Nat.beq n (name% ">") then some (5, .gt)
  else bif Nat.beq n (name% "<=") then some (5, .le)
  else bif Nat.beq n (name% ">=") then some (5, .ge)
  else bif Nat.beq n (name% "<<") then some (6, .shl)
  else bif Nat.beq n (name% ">>") then some (6, .shr)
  else bif Nat.beq n (name% "+") then some (7, .add)
  else bif Nat.beq n (name% "-") then some (7, .sub)
  else none

/-- The operator of `op=`. -/
def assignment (n : Nat) : Option BinOp :=
  bif Nat.beq n (name% "-=") then some .sub
  else bif Nat.beq n (name% "+=") then some .add
  else bif Nat.beq n (name% "&=") then some .bitAnd
  else bif Nat.beq n (name% "|=") then some .bitOr
  else none

/-- Expressions with commas between them up to the closing bracket `close`, which is read. The second argument
limits their number. -/
def args (expr : P Expr) (close : Nat) : Nat → P Args
  | 0 => fail
  | n + 1 => sees close ⊳ fun e =>
    bif e then yield .nil
    else expr ⊳ fun a => sees (name% ",") ⊳ fun c =>
      bif c then args expr close n ⊳ fun as => yield (.cons a as)
      else sym close ⊳ fun _ => yield (.cons a .nil)

/-- The names of members that are not words. -/
def operatorName : P Nat := fun ts k =>
  match ts with
  | .sym a :: ts =>
    bif Nat.beq a (name% "(") then sym (name% ")") ts fun _ ts => k (name% "operator()") ts
    else bif Nat.beq a (name% "==") then k (name% "operator==") ts
    else bif Nat.beq a (name% "!=") then k (name% "operator!=") ts
    else none
  | _ => none

/-- A name, perhaps with qualifiers, of which the last part counts. The second argument limits the number of
parts. -/
def qualified : Nat → Nat → P Nat
  | 0, _ => fail
  | n + 1, x => sees (name% "::") ⊳ fun q => bif q then ident ⊳ qualified n else yield x

/-- `.f(…)` after a call. The third argument limits the number. -/
def afterCall (expr : P Expr) : Nat → Expr → P Expr
  | 0, _ => fail
  | n + 1, e => sees (name% ".") ⊳ fun d =>
    bif d then ident ⊳ fun f => sym (name% "(") ⊳ fun _ => args expr (name% ")") 10 ⊳ fun as =>
      afterCall expr n (.valueMethod e f as)
    else yield e

/-- What follows a name. -/
def afterName (expr : P Expr) (x : Nat) : P Expr :=
  sees (name% "(") ⊳ fun c =>
    bif c then args expr (name% ")") 10 ⊳ fun as => afterCall expr 4 (.call x as)
    else sees (name% ".") ⊳ fun d =>
      bif d then ident ⊳ fun f => sees (name% "(") ⊳ fun c =>
        bif c then args expr (name% ")") 10 ⊳ fun as => yield (.method x f as)
        else yield (.field x f)
      else sees (name% "++") ⊳ fun i => bif i then yield (.postIncr x) else yield (.var x)

/-- An expression that begins with `x::y`, perhaps with more qualifiers. -/
def fromQualified (expr : P Expr) (y : Nat) : P Expr :=
  bif Nat.beq y (name% "npos") then yield .npos
  else qualified 4 y ⊳ afterName expr

/-- An expression that begins with the name `y` of the standard library. -/
def fromStd (expr : P Expr) (y : Nat) : P Expr :=
  bif Nat.beq y (name% "basic_string") then
    sym (name% "<") ⊳ fun _ => type ⊳ fun _ => sym (name% ">") ⊳ fun _ => sym (name% "::") ⊳ fun _ =>
      word (name% "npos") ⊳ fun _ => yield .npos
  else
    match typeName y with
    | some t => sym (name% "(") ⊳ fun _ => args expr (name% ")") 10 ⊳ fun as => yield (.make t as)
    | none => qualified 4 y ⊳ afterName expr

/-- An expression that begins with the word `x`. -/
def fromWord (expr : P Expr) (x : Nat) : P Expr :=
  bif Nat.beq x (name% "true") then yield (.bool true)
  else bif Nat.beq x (name% "false") then yield (.bool false)
  else bif Nat.beq x (name% "nullptr") then yield .null
  else bif Nat.beq x (name% "this") then yield .this
  else bif Nat.beq x (name% "sizeof") then
    sym (name% "(") ⊳ fun _ => type ⊳ fun t => sym (name% ")") ⊳ fun _ => yield (.sizeof t)
  else bif Nat.beq x (name% "static_cast") then
    sym (name% "<") ⊳ fun _ => type ⊳ fun t => sym (name% ">") ⊳ fun _ => sym (name% "(") ⊳ fun _ =>
      expr ⊳ fun e => sym (name% ")") ⊳ fun _ => yield (.cast t e)
  else bif Nat.beq x (name% "reinterpret_cast") then
    sym (name% "<") ⊳ fun _ => type ⊳ fun t => sym (name% ">") ⊳ fun _ => sym (name% "(") ⊳ fun _ =>
      expr ⊳ fun e => sym (name% ")") ⊳ fun _ => yield (.reinterpret t e)
  else bif Nat.beq x (name% "std") then sym (name% "::") ⊳ fun _ => ident ⊳ fromStd expr
  else bif Nat.beq x (name% "operator") then operatorName ⊳ fun f => afterName expr f
  else
    match typeName x with
    | some t =>
      sees (name% "::") ⊳ fun q =>
        bif q then ident ⊳ fun y => qualified 4 y ⊳ afterName expr
        else sym (name% "(") ⊳ fun _ => args expr (name% ")") 10 ⊳ fun as => yield (.make t as)
    | none => sees (name% "::") ⊳ fun q => bif q then ident ⊳ fromQualified expr else afterName expr x

/-- The type of the characters of a string literal. -/
def litType (pre : Nat) : Ty :=
  bif Nat.beq pre (nat_lit 0) then .char else bif Nat.beq pre (name% "u") then .c16 else .c32

/-- A string literal, of which a part has been read. The next parts have to have the same prefix. -/
def literal (pre : Nat) : List Nat → List Tok → (Expr → List Tok → Option (List Item)) → Option (List Item)
  | cs, [], k => k (.lit (litType pre) cs) []
  | cs, t :: ts, k =>
    match t with
    | .str q ds => bif Nat.beq pre q then literal pre (cs ++ ds) ts k else none
    | t => k (.lit (litType pre) cs) (t :: ts)

/-- `[i]` after an expression. The second argument limits the number. -/
def indexed (expr : P Expr) : Nat → Expr → P Expr
  | 0, _ => fail
  | n + 1, e => sees (name% "[") ⊳ fun s =>
    bif s then expr ⊳ fun i => sym (name% "]") ⊳ fun _ => indexed expr n (.index e i) else yield e

/-- Unary expressions; `expr` reads what is in parentheses. The second argument limits the number of unary
operators in a row. -/
def unary (expr : P Expr) : Nat → P Expr
  | 0 => fail
  | n + 1 => fun ts k =>
    match ts with
    | [] => none
    | t :: ts =>
      match t with
      | .num v => k (.num v) ts
      | .chr v => k (.chr v) ts
      | .str pre cs => literal pre cs ts k
      | .id x => (fromWord expr x ⊳ indexed expr 4) ts k
      | .sym m =>
        bif Nat.beq m (name% "(") then (expr ⊳ fun e => sym (name% ")") ⊳ fun _ => yield e) ts k
        else bif Nat.beq m (name% "!") then unary expr n ts fun e ts => k (.not e) ts
        else bif Nat.beq m (name% "~") then unary expr n ts fun e ts => k (.compl e) ts
        else bif Nat.beq m (name% "-") then unary expr n ts fun e ts => k (.neg e) ts
        else bif Nat.beq m (name% "*") then unary expr n ts fun e ts => k (.deref e) ts
        else bif Nat.beq m (name% "&") then ident ts fun x ts => k (.addr x) ts
        else bif Nat.beq m (name% "++") then ident ts fun x ts => k (.incr x) ts
        else none
      | .bad => none

/-- Binary expressions: `a` has been read; what follows are operators of precedence `lvl` or higher with their
right operands. All binary operators group to the left. -/
def climb (u : P Expr) : Nat → Nat → Expr → P Expr
  | 0, _, _ => fail
  | n + 1, lvl, a => fun ts k =>
    match ts with
    | [] => none
    | t :: ts =>
      match t with
      | .sym m =>
        match operator m with
        | some (l, op) =>
          bif Nat.ble lvl l then
            -- the right operand takes the operators that bind tighter
            (u ⊳ fun b => climb u n (l + 1) b ⊳ fun b => climb u n lvl (.bin op a b)) ts k
          else k a (.sym m :: ts)
        | none => k a (.sym m :: ts)
      | t => k a (t :: ts)

/-- `= e` or `op= e` after an expression, which has to be a variable, or an element of one. -/
def assigned (expr : P Expr) (a : Expr) : P Expr := fun ts k =>
  match a with
  | .var x =>
    match ts with
    | .sym m :: ts =>
      bif Nat.beq m (name% "=") then expr ts fun e ts => k (.set x e) ts
      else
        match assignment m with
        | some op => expr ts fun e ts => k (.setOp op x e) ts
        | none => k a (.sym m :: ts)
    | ts => k a ts
  | .index (.var x) i =>
    match ts with
    | .sym m :: ts =>
      bif Nat.beq m (name% "=") then expr ts fun e ts => k (.setAt x i e) ts else k a (.sym m :: ts)
    | ts => k a ts
  | a => k a ts

/-- Expressions without a comma, at most `n` levels of parentheses deep. -/
def expr : Nat → P Expr
  | 0 => fail
  | n + 1 =>
    unary (expr n) 5 ⊳ fun a => climb (unary (expr n) 5) 50 0 a ⊳ fun c =>
      sees (name% "?") ⊳ fun q =>
        bif q then expr n ⊳ fun a => sym (name% ":") ⊳ fun _ => expr n ⊳ fun b => yield (.cond c a b)
        else assigned (expr n) c

/-- The nesting of parentheses and blocks is at most 16. -/
def depth : Nat := 16

/-- An expression, perhaps with a comma. -/
def exprComma : P Expr :=
  expr depth ⊳ fun a => sees (name% ",") ⊳ fun c =>
    bif c then expr depth ⊳ fun b => yield (.comma a b) else yield a

/-- `( expression )` -/
def parens : P Expr :=
  sym (name% "(") ⊳ fun _ => expr depth ⊳ fun e => sym (name% ")") ⊳ fun _ => yield e

/-- `expression ;` -/
def exprSemi : P Expr := expr depth ⊳ fun e => sym (name% ";") ⊳ fun _ => yield e

/-- Skip up to the next `;`, which is read. -/
def skipSemi : List Tok → (Unit → List Tok → Option (List Item)) → Option (List Item)
  | [], _ => none
  | t :: ts, k =>
    match t with
    | .sym m => bif Nat.beq m (name% ";") then k () ts else skipSemi ts k
    | _ => skipSemi ts k

/-- Statements up to a closing brace, which is read; `stmt` reads one. The second argument limits their
number. -/
def stmts (stmt : P Stmt) : Nat → P Stmt
  | 0 => fail
  | n + 1 => sees (name% "}") ⊳ fun e =>
    bif e then yield .skip else stmt ⊳ fun s => stmts stmt n ⊳ fun t => yield (.seq s t)

/-- A number, if there is one. -/
def optNum : P (Option Nat) := fun ts k =>
  match ts with
  | [] => none
  | t :: ts =>
    match t with
    | .num n => k (some n) ts
    | t => k none (t :: ts)

/-- Is a word next? It is not read. -/
def peeksIdent : P Bool := fun ts k =>
  match ts with
  | [] => k false []
  | t :: ts =>
    match t with
    | .id m => k true (.id m :: ts)
    | t => k false (t :: ts)

/-- `x = e, y = e, …;` after a type. The second argument limits their number. -/
def decls (t : TyExpr) : Nat → P Stmt
  | 0 => fail
  | n + 1 => ident ⊳ fun x =>
    sees (name% "=") ⊳ fun i =>
      bif i then expr depth ⊳ fun e => sees (name% ",") ⊳ fun c =>
        bif c then decls t n ⊳ fun s => yield (.seq (.decl t x e) s)
        else sym (name% ";") ⊳ fun _ => yield (.decl t x e)
      else sees (name% "(") ⊳ fun c =>
        bif c then args (expr depth) (name% ")") 10 ⊳ fun as => sym (name% ";") ⊳ fun _ => yield (.make t x as)
        else sees (name% "[") ⊳ fun a =>
          bif a then optNum ⊳ fun n => sym (name% "]") ⊳ fun _ => sym (name% "=") ⊳ fun _ => sym (name% "{") ⊳ fun _ =>
            args (expr depth) (name% "}") 200 ⊳ fun as => sym (name% ";") ⊳ fun _ =>
              match n with
              | none => yield (.array t x as)
              | some n => yield (.arrayOf t x n as)
          else sym (name% ";") ⊳ fun _ => yield (.make t x .nil)

/-- The rest of a `for` after the opening parenthesis, `auto` and the name of the variable. -/
def forRest (stmt : P Stmt) (x : Nat) : P Stmt :=
  sees (name% ":") ⊳ fun r =>
    bif r then ident ⊳ fun y => sym (name% ")") ⊳ fun _ => stmt ⊳ fun s => yield (.forIn x y s)
    else sym (name% "=") ⊳ fun _ => exprSemi ⊳ fun i => exprSemi ⊳ fun c => exprComma ⊳ fun e =>
      sym (name% ")") ⊳ fun _ => stmt ⊳ fun s => yield (.block (.seq (.decl .auto x i) (.loop c (.expr e) s)))

/-- Statements, at most `n` levels deep. -/
def stmt : Nat → P Stmt
  | 0 => fail
  | n + 1 => fun ts k =>
    match ts with
    | [] => none
    | t :: ts =>
      match t with
      | .sym m =>
        bif Nat.beq m (name% "{") then stmts (stmt n) 50 ts fun s ts => k (.block s) ts
        else (exprComma ⊳ fun e => sym (name% ";") ⊳ fun _ => yield (.expr e)) (.sym m :: ts) k
      | .id x =>
        bif Nat.beq x (name% "return") then exprSemi ts fun e ts => k (.ret e) ts
        else bif Nat.beq x (name% "break") then sym (name% ";") ts fun _ ts => k .brk ts
        else bif Nat.beq x (name% "static_assert") then skipSemi ts fun _ ts => k .skip ts
        else bif Nat.beq x (name% "if") then
          (parens ⊳ fun c => stmt n ⊳ fun t => seesWord (name% "else") ⊳ fun e =>
            bif e then stmt n ⊳ fun f => yield (.ite c t f) else yield (.ite c t .skip)) ts k
        else bif Nat.beq x (name% "while") then
          (parens ⊳ fun c => stmt n ⊳ fun s => yield (.loop c .skip s)) ts k
        else bif Nat.beq x (name% "for") then
          (sym (name% "(") ⊳ fun _ => word (name% "auto") ⊳ fun _ => ident ⊳ fun y => forRest (stmt n) y) ts k
        else bif Nat.beq x (name% "do") then
          (stmt n ⊳ fun s => word (name% "while") ⊳ fun _ => parens ⊳ fun c => sym (name% ";") ⊳ fun _ =>
            yield (.doWhile c s)) ts k
        else bif Nat.beq x (name% "typedef") then
          (type ⊳ fun t => ident ⊳ fun y => sym (name% ";") ⊳ fun _ => yield (.typedef t y)) ts k
        else bif isType x then (type ⊳ fun t => decls t 10) (.id x :: ts) k
        -- two words in a row: the first one is the name of a type
        else peeksIdent ts fun d ts =>
          bif d then decls (.named x) 10 ts k
          else (exprComma ⊳ fun e => sym (name% ";") ⊳ fun _ => yield (.expr e)) (.id x :: ts) k
      | _ => none

/-- A name, if there is one; 0 otherwise. -/
def optName : P Nat := fun ts k =>
  match ts with
  | [] => none
  | t :: ts =>
    match t with
    | .id x => k x ts
    | t => k 0 (t :: ts)

/-- The parameters of a function up to the closing parenthesis. The first argument limits their number. -/
def params : Nat → P (List Param)
  | 0 => fail
  | n + 1 => sees (name% ")") ⊳ fun e =>
    bif e then yield []
    else type ⊳ fun t => optName ⊳ fun x => sees (name% "=") ⊳ fun d =>
      (bif d then expr depth ⊳ fun e => yield (some e) else yield none) ⊳ fun dflt =>
        sees (name% ",") ⊳ fun c =>
          bif c then params n ⊳ fun ps => yield (⟨t, x, dflt⟩ :: ps)
          else sym (name% ")") ⊳ fun _ => yield [⟨t, x, dflt⟩]

/-- `x(e), …` up to the opening brace, which is not read. The first argument limits their number. -/
def inits : Nat → P (List (Nat × Expr))
  | 0 => fail
  | n + 1 => ident ⊳ fun x => parens ⊳ fun e => sees (name% ",") ⊳ fun c =>
    bif c then inits n ⊳ fun is => yield ((x, e) :: is) else yield [(x, e)]

/-- The rest of a function, after the opening parenthesis. -/
def afterParen (cls : Nat) (ret : TyExpr) (name : Nat) : P Fun :=
  params 10 ⊳ fun ps => seesWord (name% "const") ⊳ fun _ => sees (name% ":") ⊳ fun i =>
    (bif i then inits 10 else yield []) ⊳ fun is => sees (name% ";") ⊳ fun d =>
      bif d then yield ⟨cls, name, ret, ps, is, none⟩
      else sym (name% "{") ⊳ fun _ => stmts (stmt depth) 50 ⊳ fun s => yield ⟨cls, name, ret, ps, is, some s⟩

/-- The name of a function: a word or an operator. -/
def functionName (x : Nat) : P Nat := bif Nat.beq x (name% "operator") then operatorName else yield x

/-- A function, array or external variable, given its type. -/
def afterType (t : TyExpr) : P Item :=
  sees (name% "::") ⊳ fun q =>
    bif q then
      -- `X::X(…)`: a constructor
      ident ⊳ fun x => sym (name% "(") ⊳ fun _ => afterParen x t x ⊳ fun f => yield (.func f)
    else ident ⊳ fun x => sees (name% "::") ⊳ fun q =>
      bif q then
        ident ⊳ fun o => functionName o ⊳ fun y => sym (name% "(") ⊳ fun _ => afterParen x t y ⊳ fun f => yield (.func f)
      else sees (name% "(") ⊳ fun c =>
        bif c then afterParen 0 t x ⊳ fun f => yield (.func f)
        else sees (name% "[") ⊳ fun a =>
          bif a then expr depth ⊳ fun n => sym (name% "]") ⊳ fun _ => sym (name% "=") ⊳ fun _ =>
            sym (name% "{") ⊳ fun _ => args (expr depth) (name% "}") 200 ⊳ fun as => sym (name% ";") ⊳ fun _ =>
              yield (.array t x n as)
          else sym (name% ";") ⊳ fun _ => yield (.extern t x)

/-- The constants of an enumeration up to the closing brace. The first argument limits their number. -/
def consts : Nat → P (List (Nat × Option Expr))
  | 0 => fail
  | n + 1 => sees (name% "}") ⊳ fun e =>
    bif e then yield []
    else ident ⊳ fun x => sees (name% "=") ⊳ fun d =>
      (bif d then expr depth ⊳ fun e => yield (some e) else yield none) ⊳ fun v =>
        sees (name% ",") ⊳ fun c =>
          bif c then consts n ⊳ fun cs => yield ((x, v) :: cs)
          else sym (name% "}") ⊳ fun _ => yield [(x, v)]

/-- A member of the class `cls`; if it is `static` it is like a function outside of the class. -/
def member (cls : Nat) : P Item :=
  seesWord (name% "static") ⊳ fun s => force (bif s then nat_lit 0 else cls) fun cls => type ⊳ fun t => sees (name% "(") ⊳ fun c =>
    bif c then afterParen cls t cls ⊳ fun f => yield (.func f)
    else ident ⊳ fun o => functionName o ⊳ fun x => sees (name% "(") ⊳ fun c =>
      bif c then afterParen cls t x ⊳ fun f => yield (.func f)
      else sym (name% ";") ⊳ fun _ => yield (.field cls t x)

/-- The members of the class `cls` up to `};`. The second argument limits their number. -/
def members (cls : Nat) : Nat → P (List Item)
  | 0 => fail
  | n + 1 => sees (name% "}") ⊳ fun e =>
    bif e then sym (name% ";") ⊳ fun _ => yield []
    else seesWord (name% "public") ⊳ fun p =>
      bif p then sym (name% ":") ⊳ fun _ => members cls n
      else seesWord (name% "private") ⊳ fun p =>
        bif p then sym (name% ":") ⊳ fun _ => members cls n
        else member cls ⊳ fun i => members cls n ⊳ fun is => yield (i :: is)

/-- Skip up to `};`, which is read. The first argument: was the last token `}`? -/
def skipClass : Bool → List Tok → (Unit → List Tok → Option (List Item)) → Option (List Item)
  | _, [], _ => none
  | b, t :: ts, k =>
    match t with
    | .sym m =>
      bif Nat.beq m (name% ";") then (bif b then k () ts else skipClass false ts k)
      else skipClass (Nat.beq m (name% "}")) ts k
    | _ => skipClass false ts k

/-- `= type;` after `using x`: has to agree with what is built in. -/
def using_ (x : Nat) : P Unit :=
  sees (name% "=") ⊳ fun a =>
    bif a then type ⊳ fun t => sym (name% ";") ⊳ fun _ =>
      match typeName x with
      | some u => if t = u then yield () else fail
      | none => fail
    else fail

/-- The items of a text. Namespaces and the class `CharacterAdder`, which is built in, are skipped. The first
argument limits the number of items. -/
def items : Nat → List Tok → Option (List Item)
  | 0, _ => none
  | n + 1, ts =>
    match ts with
    | [] => some []
    | t :: ts =>
      match t with
      | .sym m => bif Nat.beq m (name% "}") then items n ts else none
      | .id x =>
        bif Nat.beq x (name% "using") then
          ident ts fun y ts =>
            bif Nat.beq y (name% "namespace") then skipSemi ts fun _ ts => items n ts
            else using_ y ts fun _ ts => items n ts
        else bif Nat.beq x (name% "namespace") then
          (optName ⊳ fun _ => sym (name% "{")) ts fun _ ts => items n ts
        else bif Nat.beq x (name% "template") then
          (sym (name% "<") ⊳ fun _ => word (name% "typename") ⊳ fun _ => word (name% "C") ⊳ fun _ =>
            sym (name% ">")) ts fun _ ts => items n ts
        else bif Nat.beq x (name% "class") then
          ident ts fun y ts =>
            bif Nat.beq y (name% "CharacterAdder") then skipClass false ts fun _ ts => items n ts
            else (sym (name% "{") ⊳ fun _ => members y 50) ts fun is ts => (items n ts).map (is ++ ·)
        else bif Nat.beq x (name% "enum") then
          (ident ⊳ fun y => sym (name% ":") ⊳ fun _ => word (name% "int") ⊳ fun _ => sym (name% "{") ⊳ fun _ =>
            consts 50 ⊳ fun cs => sym (name% ";") ⊳ fun _ => yield (Item.enum y cs)) ts fun i ts =>
              (items n ts).map (i :: ·)
        else (type ⊳ afterType) (.id x :: ts) fun i ts => (items n ts).map (i :: ·)
      | _ => none

/-- The items of a piece of a source file. The source files are kept in pieces; a piece ends between two items. -/
def parse (text : Text) : Option (List Item) := items 100 (lex text)

/-- The items of a program, given in pieces. -/
def parseAll : List Text → Option (List Item)
  | [] => some []
  | t :: ts =>
    match parse t with
    | some is =>
      match parseAll ts with
      | some js => some (is ++ js)
      | none => none
    | none => none

end Ansak.Cpp
