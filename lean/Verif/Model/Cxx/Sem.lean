import Verif.Model.Cxx.Parse

/-!
# C++ source text: meaning

What a function of `Verif.Model.Cxx.Parse` returns. A value of any of the types is kept in 32 bits: a `bool` as
0 or 1, negative numbers in two's complement. Whether `char` is signed is a parameter. `none` is
undefined behaviour, or something that this part of the model does not know.
-/

namespace Ansak.Cxx

/-- Values with their bits: 32 are enough for the types that occur. -/
abbrev Word := BitVec 32

/-- Conversion to a type ([conv.integral]). -/
def convert (signedChar : Bool) (w : Word) : Ty → Word
  | .bool => if w = 0 then 0 else 1
  | .char => if signedChar then (w.setWidth 8).signExtend 32 else (w.setWidth 8).setWidth 32
  | .uchar => (w.setWidth 8).setWidth 32
  | .c16 => (w.setWidth 16).setWidth 32
  | .c32 => w
  | .int => w
  | .uint => w

/-- Integral promotion ([conv.prom]). -/
def promote : Ty → Ty
  | .c32 => .uint
  | .uint => .uint
  | _ => .int

/-- The common type of two operands ([expr.arith.conv]). -/
def common (a b : Ty) : Ty :=
  match promote a, promote b with
  | .int, .int => .int
  | _, _ => .uint

/-- A `bool`. -/
def ofBool (b : Bool) : Ty × Word := (.bool, if b then 1 else 0)

/-- The operators other than `&&` and `||`. -/
def binary' (op : BinOp) (a b : Ty × Word) : Option (Ty × Word) :=
  let ty := common a.1 b.1
  let signed := match ty with | .int => true | _ => false
  let less (x y : Word) : Bool := if signed then x.slt y else x.ult y
  match op with
  | .bitOr => some (ty, a.2 ||| b.2)
  | .bitAnd => some (ty, a.2 &&& b.2)
  | .add => if signed && (a.2.toInt + b.2.toInt != (a.2 + b.2).toInt) then none else some (ty, a.2 + b.2)
  | .shr =>
    -- the type is that of the left operand; the amount must be less than the width
    if 32 ≤ b.2.toNat then none
    else
      match promote a.1 with
      | .int => some (.int, a.2.sshiftRight b.2.toNat)
      | t => some (t, a.2 >>> b.2.toNat)
  | .eq => some (ofBool (a.2 == b.2))
  | .ne => some (ofBool (a.2 != b.2))
  | .lt => some (ofBool (less a.2 b.2))
  | .gt => some (ofBool (less b.2 a.2))
  | .le => some (ofBool (!less b.2 a.2))
  | .ge => some (ofBool (!less a.2 b.2))
  | .or => none
  | .and => none

/-- A function as others see it: its name, its types, and what it returns. -/
structure Callee where
  name : Nat
  arg : Ty
  ret : Ty
  run : Word → Option Word

/-- Are two types the same? -/
def Ty.beq : Ty → Ty → Bool
  | .bool, .bool => true
  | .char, .char => true
  | .uchar, .uchar => true
  | .c16, .c16 => true
  | .c32, .c32 => true
  | .int, .int => true
  | .uint, .uint => true
  | _, _ => false

/-- Which function does a call with an argument of type `ty` mean? The one whose parameter has that type; if there
is none, and only one function of that name, that one. -/
def resolve {α : Type} (name : α → Nat) (arg : α → Ty) (fs : List α) (f : Nat) (ty : Ty) : Option α :=
  match fs.filter fun g => Nat.beq (name g) f with
  | [g] => some g
  | gs => gs.find? fun g => (arg g).beq ty

/-- The local variables, the newest first. -/
abbrev Vars := List (Nat × Ty × Word)

/-- Expressions. -/
def Expr.eval (sc : Bool) (fs : List Callee) (ρ : Vars) : Expr → Option (Ty × Word)
  | .num n => if n < 2 ^ 31 then some (.int, BitVec.ofNat 32 n) else none
  | .bool b => some (ofBool b)
  | .var x => ρ.lookup x
  | .not e => (e.eval sc fs ρ).map fun v => ofBool (v.2 == 0)
  | .compl e => (e.eval sc fs ρ).map fun v => (promote v.1, ~~~v.2)
  | .bin op a b =>
    match op with
    | .or => (a.eval sc fs ρ).bind fun v => if v.2 = 0 then (b.eval sc fs ρ).map fun w => ofBool (w.2 != 0)
        else some (ofBool true)
    | .and => (a.eval sc fs ρ).bind fun v => if v.2 = 0 then some (ofBool false)
        else (b.eval sc fs ρ).map fun w => ofBool (w.2 != 0)
    | op => (a.eval sc fs ρ).bind fun v => (b.eval sc fs ρ).bind fun w => binary' op v w
  | .cond c a b =>
    (c.eval sc fs ρ).bind fun v => if v.2 = 0 then b.eval sc fs ρ else a.eval sc fs ρ
  | .cast ty e => (e.eval sc fs ρ).map fun v => (ty, convert sc v.2 ty)
  | .call f e =>
    (e.eval sc fs ρ).bind fun v => (resolve Callee.name Callee.arg fs f v.1).bind fun g =>
      (g.run (convert sc v.2 g.arg)).map fun r => (g.ret, r)

/-- How a statement ends. -/
inductive End where
  | next (ρ : Vars)
  | brk (ρ : Vars)
  | ret (v : Word)

/-- Change the newest variable of that name. -/
def Vars.set : Vars → Nat → Word → Vars
  | [], _, _ => []
  | (y, ty, w) :: ρ, x, v => if y = x then (y, ty, v) :: ρ else (y, ty, w) :: Vars.set ρ x v

/-- At the end of a block its variables disappear. -/
def Vars.leave (outer inner : Vars) : Vars := inner.drop (inner.length - outer.length)

/-- If the statement before ended normally, go on with `f`. -/
def End.andThen (f : Vars → Option End) : End → Option End
  | .next ρ => f ρ
  | .brk ρ => some (.brk ρ)
  | .ret v => some (.ret v)

/-- The end of a block that was entered with the variables `outer`. -/
def End.leave (outer : Vars) : End → End
  | .next ρ => .next (outer.leave ρ)
  | .brk ρ => .brk (outer.leave ρ)
  | .ret v => .ret v

/-- The value that was returned. -/
def End.returned : End → Option Word
  | .ret v => some v
  | _ => none

/-- `break` ends a `switch`. -/
def End.broken : End → End
  | .brk ρ => .next ρ
  | .next ρ => .next ρ
  | .ret v => .ret v

/-- Has the body of a `switch` the label `case n`? -/
def Stmt.hasLabel (n : Nat) : Stmt → Bool
  | .group ls _ _ rest => ls.contains n || rest.hasLabel n
  | _ => false

/-- Where to begin in the body of a `switch`. -/
inductive Seek where
  /-- at the label `case n:` -/
  | label (n : Nat)
  /-- at the label `default:` -/
  | dflt
  /-- here -/
  | here

/-- Does the search end at these labels? -/
def Seek.found (ls : List Nat) (dflt : Bool) : Seek → Bool
  | .label n => ls.contains n
  | .dflt => dflt
  | .here => true

/-- What a variable is initialised with; without a type it takes that of the expression. -/
def initial (sc : Bool) (ty : Option Ty) (v : Ty × Word) : Ty × Word :=
  match ty with
  | none => v
  | some t => (t, convert sc v.2 t)

/-- Statements, of a function that returns a `ret`. -/
def Stmt.exec (sc : Bool) (fs : List Callee) (ret : Ty) : Stmt → Seek → Vars → Option End
  | .skip, _, ρ => some (.next ρ)
  | .seq s t, _, ρ =>
    (s.exec sc fs ret .here ρ).bind (End.andThen fun ρ' => t.exec sc fs ret .here ρ')
  | .ret e, _, ρ => (e.eval sc fs ρ).map fun v => .ret (convert sc v.2 ret)
  | .brk, _, ρ => some (.brk ρ)
  | .decl ty x e, _, ρ =>
    (e.eval sc fs ρ).map fun v => .next ((x, initial sc ty v) :: ρ)
  | .andSet x e, _, ρ =>
    (ρ.lookup x).bind fun v => (e.eval sc fs ρ).bind fun w => (binary' .bitAnd v w).map fun r =>
      .next (ρ.set x (convert sc r.2 v.1))
  | .block s, _, ρ =>
    (s.exec sc fs ret .here ρ).map (End.leave ρ)
  | .ite c t f, _, ρ =>
    (c.eval sc fs ρ).bind fun v =>
      (if v.2 = 0 then f.exec sc fs ret .here ρ else t.exec sc fs ret .here ρ).map (End.leave ρ)
  | .switch e g, _, ρ =>
    (e.eval sc fs ρ).bind fun v =>
      (g.exec sc fs ret (if g.hasLabel v.2.toNat then .label v.2.toNat else .dflt) ρ).map
        fun r => (r.leave ρ).broken
  | .group ls d body rest, k, ρ =>
    if k.found ls d then
      (body.exec sc fs ret .here ρ).bind (End.andThen fun ρ' => rest.exec sc fs ret .here ρ')
    else rest.exec sc fs ret k ρ

/-- What a function returns when it is called with an argument of its type. To reach the end of the body without
`return` is undefined. -/
def Fun.run (sc : Bool) (fs : List Callee) (f : Fun) (a : Word) : Option Word :=
  (f.body.exec sc fs f.ret .here [(f.param, f.arg, a)]).bind End.returned

/-- The functions of a file, the newest first: each can call those before it. -/
def callees (sc : Bool) : List Item → List Callee → List Callee
  | [], fs => fs
  | .const _ _ :: is, fs => callees sc is fs
  | .func f :: is, fs => callees sc is (⟨f.name, f.arg, f.ret, f.run sc fs⟩ :: fs)

/-- Call the function `name(arg)` of a source file, given in pieces. -/
def call (sc : Bool) (pieces : List Text) (name : Nat) (arg : Ty) (a : Word) : Option Word :=
  (parseAll pieces).bind fun is =>
    ((callees sc is []).find? fun g => Nat.beq g.name name && g.arg.beq arg).bind fun g => g.run a

/-- The value of the string constant `name` among the items of a file. -/
def constantOf (name : Nat) : List Item → Option Nat
  | [] => none
  | .const x v :: is => bif Nat.beq x name then some v else constantOf name is
  | .func _ :: is => constantOf name is

/-- The value of the string constant `name`. -/
def constant (pieces : List Text) (name : Nat) : Option Nat :=
  (parseAll pieces).bind (constantOf name)

end Ansak.Cxx
