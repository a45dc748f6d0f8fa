import Verif.Model.Cpp.Parse

/-!
# The C++ of the library: meaning

What a function of a program does when it is called.

* A value of an arithmetic type is a mathematical integer together with its type. `char` is signed or not,
  depending on a parameter; `int` has 32 bits; the difference of two pointers has 64.
* A pointer is a buffer and an offset, or null. To read outside of the buffer is undefined behaviour. Pointer
  arithmetic alone is not: the library computes `src - 1`, which no compiler minds.
* A `std::basic_string` is the list of its characters.
* References to constant objects are copies, unless the object is the one for which a member function is called
  (`self`; no member function passes it on to another object). Other references are copied in and out. A `CharacterAdder` is a
  reference to its string.
* Operands and arguments are evaluated from left to right. (No expression of the library has two side effects, or
  a side effect that another part of it can see.)
* The type of `c ? a : b` is that of the branch that is taken.
* A variable that is not initialised has no value: to use it is undefined behaviour.

Everything is written with continuations (`k`: what happens next), because then an execution can be followed in a
proof without rearranging it. A call nests at most `d` deep and a loop makes at most `n` rounds: the outcome is
`timeout` if that is not enough.
-/

namespace Ansak.Cpp

open Cxx (oneOf)

/-! ## Values -/

/-- A value. -/
inductive Val where
  | int (t : Ty) (n : Int)
  /-- a buffer and an offset, or null -/
  | ptr (t : Ty) (p : Option (List Int × Int))
  | str (t : Ty) (s : List Int)
  | arr (t : Ty) (s : List Int)
  /-- a vector of strings -/
  | vec (t : Ty) (l : List (List Int))
  /-- a list of numbers -/
  | list (t : Ty) (l : List Int)
  /-- a type, the value of a name that is defined by `typedef` -/
  | type (ty : TyExpr)
  /-- an object of a class with its member variables -/
  | obj (cls : Nat) (fields : List (Nat × Ty × Int))
  /-- a function -/
  | fn (name : Nat)
  /-- another name for the variable `x` -/
  | alias (x : Nat)
  | null
  | void
  /-- as an argument of a member function: the very object for which it is called, `*this` -/
  | self
  /-- the address of `*this` -/
  | addr
  /-- the address of an object of a class that is not `*this` -/
  | elsewhere
  /-- not initialised -/
  | uninit (t : Ty)

/-- The outcome of a computation. -/
inductive Out where
  /-- a value is returned; and the values of the objects that were passed by reference -/
  | done (v : Val) (refs : List (Option Val))
  /-- undefined behaviour -/
  | ub
  /-- more calls or rounds are needed -/
  | timeout
  /-- this model does not know -/
  | stuck

/-! ## Integers -/

/-- The least value of a type. -/
def Ty.min (sc : Bool) : Ty → Int
  | .bool => 0
  | .char => bif sc then -2 ^ 7 else 0
  | .uchar => 0
  | .c16 => 0
  | .c32 => 0
  | .wchar => 0
  | .int => -2 ^ 31
  | .uint => 0
  | .long => -2 ^ 63
  | .ulong => 0
  | .enum _ => -2 ^ 31

/-- The greatest value of a type. -/
def Ty.max (sc : Bool) : Ty → Int
  | .bool => 1
  | .char => bif sc then 2 ^ 7 - 1 else 2 ^ 8 - 1
  | .uchar => 2 ^ 8 - 1
  | .c16 => 2 ^ 16 - 1
  | .c32 => 2 ^ 32 - 1
  | .wchar => 2 ^ 32 - 1
  | .int => 2 ^ 31 - 1
  | .uint => 2 ^ 32 - 1
  | .long => 2 ^ 63 - 1
  | .ulong => 2 ^ 64 - 1
  | .enum _ => 2 ^ 31 - 1

/-- The number of bytes. -/
def Ty.size : Ty → Nat
  | .bool => 1
  | .char => 1
  | .uchar => 1
  | .c16 => 2
  | .c32 => 4
  | .wchar => 4
  | .int => 4
  | .uint => 4
  | .long => 8
  | .ulong => 8
  | .enum _ => 4

/-- 2 to the number of bits. -/
def Ty.count : Ty → Nat
  | .bool => 256
  | .char => 256
  | .uchar => 256
  | .c16 => 65536
  | .c32 => 4294967296
  | .wchar => 4294967296
  | .int => 4294967296
  | .uint => 4294967296
  | .long => 18446744073709551616
  | .ulong => 18446744073709551616
  | .enum _ => 4294967296

/-- Can a type represent negative numbers? -/
def Ty.signed (sc : Bool) : Ty → Bool
  | .char => sc
  | .int => true
  | .long => true
  | .enum _ => true
  | _ => false

/-- The value of a type that is congruent to `n` modulo 2 to the number of bits ([conv.integral]). -/
def Ty.wrap (sc : Bool) (t : Ty) (n : Int) : Int :=
  match t with
  | .bool => if n = 0 then 0 else 1
  | t => bif t.signed sc then n.bmod t.count else n % t.count

/-- Has the type `t` all values of the type `s`? -/
def Ty.includes (sc : Bool) (t s : Ty) : Bool := decide (t.min sc ≤ s.min sc ∧ s.max sc ≤ t.max sc)

/-- Conversion from the type `s` to the type `t`. -/
def convert (sc : Bool) (s t : Ty) (n : Int) : Int := bif t.includes sc s then n else t.wrap sc n

/-- Integral promotion ([conv.prom]). -/
def promote : Ty → Ty
  | .c32 => .uint
  | .wchar => .uint
  | .uint => .uint
  | .long => .long
  | .ulong => .ulong
  | _ => .int

/-- The common type of two promoted types ([expr.arith.conv]). -/
def common : Ty → Ty → Ty
  | .ulong, _ => .ulong
  | _, .ulong => .ulong
  | .long, _ => .long
  | _, .long => .long
  | .uint, _ => .uint
  | _, .uint => .uint
  | _, _ => .int

/-- The bits of a number. -/
def Ty.bits (t : Ty) (n : Int) : BitVec (8 * t.size) := BitVec.ofInt (8 * t.size) n

/-- The number with these bits. -/
def Ty.ofBits (t : Ty) (b : BitVec (8 * t.size)) : Int := bif t.signed true then b.toInt else b.toNat

/-- Convert `n` from the type `s` to the type `t`. -/
def convertTo (sc : Bool) (s t : Ty) (n : Int) (k : Int → Out) : Out := k (convert sc s t n)

/-- `true` is 1, `false` is 0. -/
def bit (b : Bool) : Int := bif b then 1 else 0

/-- A `bool`. -/
def ofBool (b : Bool) : Val := .int .bool (bit b)

/-- Go on with a value. (This only makes sure that it is evaluated.) -/
def Val.force (v : Val) (k : Val → Out) : Out :=
  match v with
  | .int t n => k (.int t n)
  | .ptr t p => k (.ptr t p)
  | .str t s => k (.str t s)
  | .arr t s => k (.arr t s)
  | .vec t l => k (.vec t l)
  | .list t l => k (.list t l)
  | .type ty => k (.type ty)
  | .obj c fs => k (.obj c fs)
  | .fn f => k (.fn f)
  | .alias x => k (.alias x)
  | .null => k .null
  | .void => k .void
  | .self => k .self
  | .addr => k .addr
  | .elsewhere => k .elsewhere
  | .uninit t => k (.uninit t)

/-- The result `r` of an operation of type `t`, which is `int` or wider: it has to be representable if the type is
signed. -/
def arith (t : Ty) (r : Int) (k : Val → Out) : Out :=
  bif t.signed true then (if t.min true ≤ r ∧ r ≤ t.max true then k (.int t r) else .ub)
  else k (.int t (r % t.count))

/-- The shifts; the operands are promoted, the type is that of the left one. The amount has to be less than the
number of bits. A negative number cannot be shifted to the left. -/
def shift (left : Bool) (t : Ty) (a b : Int) (k : Val → Out) : Out :=
  if 0 ≤ b ∧ b < 8 * (t.size : Int) then
    bif left then (if 0 ≤ a then arith t (a * 2 ^ b.toNat) k else .ub)
    else k (.int t (a / 2 ^ b.toNat))
  else .ub

/-- `~n` -/
def complement (sc : Bool) (t : Ty) (n : Int) (k : Val → Out) : Out :=
  k (.int (promote t) (convert sc .long (promote t) (-convert sc t (promote t) n - 1)))

/-- Binary operators on two numbers of the common type `t`. -/
def arithmetic (op : BinOp) (t : Ty) (a b : Int) (k : Val → Out) : Out :=
  match op with
  | .bitOr => k (.int t (t.ofBits (t.bits a ||| t.bits b)))
  | .bitAnd => k (.int t (t.ofBits (t.bits a &&& t.bits b)))
  | .eq => k (ofBool (decide (a = b)))
  | .ne => k (ofBool (decide (a ≠ b)))
  | .lt => k (ofBool (decide (a < b)))
  | .gt => k (ofBool (decide (a > b)))
  | .le => k (ofBool (decide (a ≤ b)))
  | .ge => k (ofBool (decide (a ≥ b)))
  | .add => arith t (a + b) k
  | .sub => arith t (a - b) k
  | _ => .stuck

/-- Binary operators on numbers. -/
def binaryInt (sc : Bool) (op : BinOp) (s : Ty) (a : Int) (t : Ty) (b : Int) (k : Val → Out) : Out :=
  match op with
  | .shl => shift true (promote s) (convert sc s (promote s) a) (convert sc t (promote t) b) k
  | .shr => shift false (promote s) (convert sc s (promote s) a) (convert sc t (promote t) b) k
  | op =>
    arithmetic op (common (promote s) (promote t)) (convert sc s (common (promote s) (promote t)) a)
      (convert sc t (common (promote s) (promote t)) b) k

/-- The sum of an offset and a number. -/
def moved (i n : Int) (k : Int → Out) : Out := k (i + n)

/-- The difference of an offset and a number. -/
def movedBack (i n : Int) (k : Int → Out) : Out := k (i - n)

/-- Comparison of pointers into the same buffer, or with null. -/
def samePtr : Option (List Int × Int) → Option (List Int × Int) → Bool
  | none, none => true
  | some (_, i), some (_, j) => decide (i = j)
  | _, _ => false

/-- Binary operators other than `&&` and `||`, and other than those of classes. -/
def binary (sc : Bool) (op : BinOp) (v w : Val) (k : Val → Out) : Out :=
  match v, w with
  | .int s a, .int t b => binaryInt sc op s a t b k
  | .ptr t p, .int _ b =>
    match op, p with
    | .add, some (buf, i) => moved i b fun i => k (.ptr t (some (buf, i)))
    | .sub, some (buf, i) => movedBack i b fun i => k (.ptr t (some (buf, i)))
    | .add, none => .ub
    | .sub, none => .ub
    | _, _ => .stuck
  | .ptr _ p, .ptr _ q =>
    match op with
    | .sub =>
      match p, q with
      | some (_, i), some (_, j) => movedBack i j fun n => k (.int .long n)
      | _, _ => .ub
    | .eq => k (ofBool (samePtr p q))
    | .ne => k (ofBool (!samePtr p q))
    | _ => .stuck
  | .ptr _ p, .null =>
    match op with
    | .eq => k (ofBool (samePtr p none))
    | .ne => k (ofBool (!samePtr p none))
    | _ => .stuck
  | .addr, .addr =>
    match op with
    | .eq => k (ofBool true)
    | _ => .stuck
  | .addr, .elsewhere =>
    match op with
    | .eq => k (ofBool false)
    | _ => .stuck
  | .uninit _, _ => .ub
  | _, .uninit _ => .ub
  | _, _ => .stuck

/-- A decision. -/
def branch (b : Bool) (yes no : Out) : Out := bif b then yes else no

/-- Conversion to `bool`. -/
def truth (v : Val) (k : Bool → Out) : Out :=
  match v with
  | .int _ n => k (decide (n ≠ 0))
  | .ptr _ p => k p.isSome
  | .uninit _ => .ub
  | _ => .stuck

/-- Element `i` of a buffer. -/
def read (buf : List Int) (i : Int) (k : Int → Out) : Out :=
  if 0 ≤ i then
    match buf[i.toNat]? with
    | some n => k n
    | none => .ub
  else .ub

/-- The characters of a buffer before the first 0. -/
def untilZero : List Int → Option (List Int)
  | [] => none
  | c :: cs => if c = 0 then some [] else (untilZero cs).map (c :: ·)

/-- The characters from offset `i` of a buffer on, before the first 0. -/
def readString (buf : List Int) (i : Int) (k : List Int → Out) : Out :=
  if 0 ≤ i then
    match untilZero (buf.drop i.toNat) with
    | some s => k s
    | none => .ub
  else .ub

/-- `std::basic_string<…>::npos`, the greatest number of 64 bits. -/
def npos : Nat := 18446744073709551615

/-- The first position from `i` on at which `c` is in the string, or `npos`. -/
def position (s : List Int) (c : Int) (i : Nat) : Nat :=
  match (s.drop i).findIdx? (fun d => decide (d = c)) with
  | some j => i + j
  | none => npos

/-- The string without `n` characters (or all that there are) from position `i` on. -/
def without (s : List Int) (i n : Nat) : List Int := s.take i ++ (s.drop i).drop n

/-- What belongs to a name. -/
def assoc {α : Type} : List (Nat × α) → Nat → Option α
  | [], _ => none
  | (y, a) :: l, x => bif Nat.beq y x then some a else assoc l x

/-! ## Variables -/

/-- The variables, the newest first. -/
abbrev Env := List (Nat × Val)

/-- The newest variable of that name. -/
def Env.find : Env → Nat → Option Val
  | [], _ => none
  | (y, v) :: ρ, x => bif Nat.beq y x then some v else Env.find ρ x

/-- Change the newest variable of that name. -/
def Env.put : Env → Nat → Val → Env
  | [], _, _ => []
  | (y, w) :: ρ, x, v => bif Nat.beq y x then (y, v) :: ρ else (y, w) :: Env.put ρ x v

/-- Change the variable that the name `x` stands for. -/
def Env.assign (ρ : Env) (x : Nat) (v : Val) : Env :=
  match ρ.find x with
  | some (.alias y) => ρ.put y v
  | _ => ρ.put x v

/-- Go on with these variables. (This only makes sure that they are evaluated.) -/
def Env.force : Env → (Env → Out) → Out
  | [], k => k []
  | (x, v) :: ρ, k => Env.force ρ fun ρ => k ((x, v) :: ρ)

/-- Without as many of the first variables as there are in the first argument. -/
def Env.dropLike : Env → Env → Env
  | [], ρ => ρ
  | _ :: _, [] => []
  | _ :: a, _ :: ρ => Env.dropLike a ρ

/-- The oldest variables, as many as in `outer`: at the end of a block its variables disappear. -/
def Env.leave (outer inner : Env) : Env := Env.dropLike (Env.dropLike outer inner) inner

/-- The present values of the member variables of an object, which are among the variables of a member
function. -/
def Env.fields (ρ : Env) : List (Nat × Ty × Int) → (List (Nat × Ty × Int) → Out) → Out
  | [], k => k []
  | (x, t, n) :: fs, k =>
    match ρ.find x with
    | some (.int _ m) => Env.fields ρ fs fun gs => k ((x, t, m) :: gs)
    | _ => Env.fields ρ fs fun gs => k ((x, t, n) :: gs)

/-- `*this`, or, outside of member functions, `other`. -/
def Env.self (ρ : Env) (other : Out) (k : Nat → List (Nat × Ty × Int) → Out) : Out :=
  match ρ.find (name% "this") with
  | some (.obj c fs) => ρ.fields fs fun fs => k c fs
  | _ => other

/-- Are two types the same? -/
def Ty.same : Ty → Ty → Bool
  | .bool, .bool => true
  | .char, .char => true
  | .uchar, .uchar => true
  | .c16, .c16 => true
  | .c32, .c32 => true
  | .wchar, .wchar => true
  | .int, .int => true
  | .uint, .uint => true
  | .long, .long => true
  | .ulong, .ulong => true
  | .enum x, .enum y => Nat.beq x y
  | _, _ => false

/-- The element type of a type with elements, where `C` is the type `T`. -/
def TyExpr.elem (T : Ty) : TyExpr → Option Ty
  | .prim t => some t
  | .param => some T
  | _ => none

/-- A type in which names that were defined by `typedef` are replaced by what they stand for. -/
def TyExpr.at (ρ : Env) : TyExpr → TyExpr
  | .named n =>
    match ρ.find n with
    | some (.type ty) => ty
    | _ => .named n
  | .vec ty => .vec (ty.at ρ)
  | .list ty => .list (ty.at ρ)
  | ty => ty

/-- The value `v` as one of the type `ty`. -/
def coerce (sc : Bool) (T : Ty) (ty : TyExpr) (v : Val) (k : Val → Out) : Out :=
  match ty, v with
  | .auto, v => k v
  | _, .uninit _ => .ub
  | .prim t, .int s n => convertTo sc s t n fun n => k (.int t n)
  | .param, .int s n => convertTo sc s T n fun n => k (.int T n)
  | .ptr e, .ptr t p =>
    match e.elem T with
    | some u => bif t.same u then k (.ptr t p) else .stuck
    | none => .stuck
  | .ptr e, .null =>
    match e.elem T with
    | some t => k (.ptr t none)
    | none => .stuck
  | .ref (.ptr e), .ptr t p =>
    match e.elem T with
    | some u => bif t.same u then k (.ptr t p) else .stuck
    | none => .stuck
  | .str e, .str t s =>
    match e.elem T with
    | some u => bif t.same u then k (.str t s) else .stuck
    | none => .stuck
  -- a string is made from a pointer
  | .str e, .ptr t (some (buf, i)) =>
    match e.elem T with
    | some u => bif t.same u then readString buf i fun s => k (.str t s) else .stuck
    | none => .stuck
  | .str e, .ptr t none =>
    match e.elem T with
    | some u => bif t.same u then .ub else .stuck
    | none => .stuck
  | .ref (.str e), .str t s =>
    match e.elem T with
    | some u => bif t.same u then k (.str t s) else .stuck
    | none => .stuck
  | .vec (.str e), .vec t l =>
    match e.elem T with
    | some u => bif t.same u then k (.vec t l) else .stuck
    | none => .stuck
  | .adder e, .str t s =>
    match e.elem T with
    | some u => bif t.same u then k (.str t s) else .stuck
    | none => .stuck
  | .ref (.adder e), .str t s =>
    match e.elem T with
    | some u => bif t.same u then k (.str t s) else .stuck
    | none => .stuck
  | .cls c, .obj d fs => bif Nat.beq c d then k (.obj d fs) else .stuck
  | .cls _, .self => k .self
  | .void, .void => k .void
  | _, _ => .stuck

/-- The value `v` as one that can be assigned to a variable that has the value `old`. -/
def assignable (sc : Bool) (old v : Val) (k : Val → Out) : Out :=
  match old, v with
  | _, .uninit _ => .ub
  | .int t _, .int s n => convertTo sc s t n fun n => k (.int t n)
  | .uninit t, .int s n => convertTo sc s t n fun n => k (.int t n)
  | .ptr t _, .ptr u p => bif t.same u then k (.ptr t p) else .stuck
  | .ptr t _, .null => k (.ptr t none)
  | .str t _, .str u s => bif t.same u then k (.str t s) else .stuck
  | _, _ => .stuck

/-- The names of the variables among the arguments; 0 for others. -/
def Args.names : Args → List Nat
  | .nil => []
  | .cons (.var x) es => x :: es.names
  | .cons _ es => 0 :: es.names

/-- Store what came back by reference in the variables that were the arguments. -/
def Env.back (ρ : Env) : List Nat → List (Option Val) → Env
  | x :: xs, some v :: vs => Env.back (ρ.assign x v) xs vs
  | _ :: xs, none :: vs => Env.back ρ xs vs
  | _, _ => ρ

/-! ## Expressions and statements -/

/-- How to call a function: the class, or 0; the name; the arguments, of which the first one is the object if it is
a member; and what happens next with the value and the values that come back by reference. -/
abbrev Call := Nat → Nat → List Val → (Val → List (Option Val) → Out) → Out

/-- What expressions depend on besides the variables. -/
structure Ctx where
  /-- is `char` signed? -/
  sc : Bool
  /-- the limit on the rounds of a loop -/
  rounds : Nat
  /-- constants and arrays -/
  globals : Env
  /-- how to call a function -/
  call : Call
  /-- is this a member of the class? -/
  member : Nat → Nat → Bool
  /-- the type that `C` stands for -/
  T : Ty
  /-- the type of characters that has the size of `wchar_t` -/
  wide : Ty

/-- A variable. A name that is not that of a variable is that of a function. -/
def Ctx.var (Γ : Ctx) (ρ : Env) (x : Nat) : Val :=
  match ρ.find x with
  | some (.alias y) =>
    match ρ.find y with
    | some v => v
    | none => .void
  | some v => v
  | none =>
    match Γ.globals.find x with
    | some v => v
    | none => .fn x

/-- Methods of strings, vectors and lists, and of classes. What would throw an exception is not known. An iterator of a
list is a pointer into its elements (and a list does not change while there are iterators). -/
def Ctx.method (Γ : Ctx) (x f : Nat) (names : List Nat) (vs : List Val) (ρ : Env) (k : Val → Env → Out) : Out :=
  match Γ.var ρ x, vs with
  | .str t s, [] =>
    bif Nat.beq f (name% "c_str") then k (.ptr t (some (s ++ [0], 0))) ρ
    else bif Nat.beq f (name% "empty") then k (ofBool s.isEmpty) ρ
    else bif Nat.beq f (name% "size") then k (.int .ulong (s.length : Nat)) ρ
    else .stuck
  | .str t s, [.int u n] =>
    bif Nat.beq f (name% "push_back") then
      convertTo Γ.sc u t n fun n => (ρ.assign x (.str t (s ++ [n]))).force fun ρ => k .void ρ
    else bif oneOf f [name% "find", name% "find_first_of"] then
      convertTo Γ.sc u t n fun n => k (.int .ulong (position s n 0 : Nat)) ρ
    else bif Nat.beq f (name% "substr") then
      convertTo Γ.sc u .ulong n fun n => branch (decide (n.toNat ≤ s.length)) (k (.str t (s.drop n.toNat)) ρ) .stuck
    else bif Nat.beq f (name% "erase") then
      convertTo Γ.sc u .ulong n fun n => branch (decide (n.toNat ≤ s.length))
        ((ρ.assign x (.str t (s.take n.toNat))).force fun ρ => k .void ρ) .stuck
    else .stuck
  | .str t s, [.int u n, .int u' m] =>
    bif Nat.beq f (name% "find") then
      convertTo Γ.sc u t n fun n => convertTo Γ.sc u' .ulong m fun m => k (.int .ulong (position s n m.toNat : Nat)) ρ
    else bif Nat.beq f (name% "substr") then
      convertTo Γ.sc u .ulong n fun n => convertTo Γ.sc u' .ulong m fun m =>
        branch (decide (n.toNat ≤ s.length)) (k (.str t ((s.drop n.toNat).take m.toNat)) ρ) .stuck
    else bif Nat.beq f (name% "erase") then
      convertTo Γ.sc u .ulong n fun n => convertTo Γ.sc u' .ulong m fun m => branch (decide (n.toNat ≤ s.length))
        ((ρ.assign x (.str t (without s n.toNat m.toNat))).force fun ρ => k .void ρ) .stuck
    else .stuck
  | .str t s, [.str u s'] =>
    bif Nat.beq f (name% "append") then
      bif t.same u then (ρ.assign x (.str t (s ++ s'))).force fun ρ => k .void ρ else .stuck
    else .stuck
  | .str t s, [.arr u a] =>
    bif Nat.beq f (name% "append") then
      bif t.same u then readString a (0 : Nat) fun s' => (ρ.assign x (.str t (s ++ s'))).force fun ρ => k .void ρ else .stuck
    else .stuck
  | .vec _ l, [] =>
    bif Nat.beq f (name% "empty") then k (ofBool l.isEmpty) ρ else .stuck
  | .vec t l, [.str u s] =>
    bif Nat.beq f (name% "push_back") then
      bif t.same u then (ρ.assign x (.vec t (l ++ [s]))).force fun ρ => k .void ρ else .stuck
    else .stuck
  | .list t l, [] =>
    bif Nat.beq f (name% "size") then k (.int .ulong (l.length : Nat)) ρ
    else bif Nat.beq f (name% "begin") then k (.ptr t (some (l, (0 : Nat)))) ρ
    else bif Nat.beq f (name% "end") then k (.ptr t (some (l, (l.length : Nat)))) ρ
    else .stuck
  | .list t l, [.int u n] =>
    bif Nat.beq f (name% "push_back") then
      convertTo Γ.sc u t n fun n => (ρ.assign x (.list t (l ++ [n]))).force fun ρ => k .void ρ
    else .stuck
  | .obj c fs, vs => Γ.call c f (.obj c fs :: vs) fun v refs => (ρ.back (x :: names) refs).force fun ρ => k v ρ
  | _, _ => .stuck

/-- `ty(vs)` -/
def Ctx.make (Γ : Ctx) (ty : TyExpr) (vs : List Val) (k : Val → Out) : Out :=
  match ty, vs with
  | .str e, [] =>
    match e.elem Γ.T with
    | some t => k (.str t [])
    | none => .stuck
  | .str e, [.ptr t (some (buf, i))] =>
    match e.elem Γ.T with
    | some u => bif t.same u then readString buf i fun s => k (.str t s) else .stuck
    | none => .stuck
  | .str _, [.ptr _ none] => .ub
  | .str e, [.str t s] => coerce Γ.sc Γ.T (.str e) (.str t s) k
  | .vec (.str e), [] =>
    match e.elem Γ.T with
    | some t => k (.vec t [])
    | none => .stuck
  | .vec (.str e), [.int u n] =>
    match e.elem Γ.T with
    | some t => convertTo Γ.sc u .ulong n fun n => k (.vec t (List.replicate n.toNat []))
    | none => .stuck
  | .list e, [] =>
    match e.elem Γ.T with
    | some t => k (.list t [])
    | none => .stuck
  | .cls c, vs => Γ.call c c vs fun v _ => k v
  | _, _ => .stuck

/-- Calls of functions, of objects as functions, and of constructors. -/
def Ctx.apply (Γ : Ctx) (f : Nat) (names : List Nat) (vs : List Val) (ρ : Env) (k : Val → Env → Out) : Out :=
  match Γ.var ρ f, vs with
  | .str t s, [.int u n] =>
    convertTo Γ.sc u t n fun n => (ρ.assign f (.str t (s ++ [n]))).force fun ρ => k .void ρ
  | .obj c fs, vs =>
    Γ.call c (name% "operator()") (.obj c fs :: vs) fun v refs => (ρ.back (f :: names) refs).force fun ρ => k v ρ
  | .type ty, vs => Γ.make ty vs fun v => k v ρ
  | .fn g, vs =>
    ρ.self (Γ.call (nat_lit 0) g vs fun v refs => (ρ.back names refs).force fun ρ => k v ρ) fun c fs =>
      branch (Γ.member c g)
        (Γ.call c g (.obj c fs :: vs) fun v refs => (ρ.back (0 :: names) refs).force fun ρ => k v ρ)
        (Γ.call (nat_lit 0) g vs fun v refs => (ρ.back names refs).force fun ρ => k v ρ)
  | _, _ => .stuck

/-- Can a pointer to characters of the one type be used as one to the other type? That is the case for `wchar_t` and the
type of characters of that size. (That it violates the rules for aliasing is not considered.) -/
def Ctx.alike (Γ : Ctx) : Ty → Ty → Bool
  | .wchar, t => t.same Γ.wide
  | t, .wchar => t.same Γ.wide
  | _, _ => false

mutual

/-- Expressions. -/
def Expr.eval (Γ : Ctx) : Expr → Env → (Val → Env → Out) → Out
  | .num n, ρ, k => (bif Nat.blt n 2147483648 then Val.int .int n else .int .uint n).force fun v => k v ρ
  | .chr n, ρ, k => k (.int .char n) ρ
  | .lit t cs, ρ, k => k (.ptr t (some (cs.map Int.ofNat ++ [0], 0))) ρ
  | .npos, ρ, k => k (.int .ulong (npos : Nat)) ρ
  | .bool b, ρ, k => k (ofBool b) ρ
  | .null, ρ, k => k .null ρ
  | .var x, ρ, k => (Γ.var ρ x).force fun v => k v ρ
  | .this, ρ, k => k .addr ρ
  | .addr x, ρ, k =>
    match Γ.var ρ x with
    | .self => k .addr ρ
    | .obj _ _ => k .elsewhere ρ
    | _ => .stuck
  | .deref e, ρ, k => e.eval Γ ρ fun v ρ =>
    match v with
    | .ptr t (some (buf, i)) => read buf i fun n => k (.int t n) ρ
    | .ptr _ none => .ub
    | .addr => ρ.self .stuck fun c fs => k (.obj c fs) ρ
    | _ => .stuck
  | .not e, ρ, k => e.eval Γ ρ fun v ρ => truth v fun b => k (ofBool !b) ρ
  | .compl e, ρ, k => e.eval Γ ρ fun v ρ =>
    match v with
    | .int t n => complement Γ.sc t n fun v => k v ρ
    | .uninit _ => .ub
    | _ => .stuck
  | .neg e, ρ, k => e.eval Γ ρ fun v ρ =>
    match v with
    | .int t n => arith (promote t) (-convert Γ.sc t (promote t) n) fun v => k v ρ
    | .uninit _ => .ub
    | _ => .stuck
  | .incr x, ρ, k =>
    binary Γ.sc .add (Γ.var ρ x) (.int .int (1 : Nat)) fun v => assignable Γ.sc (Γ.var ρ x) v fun v =>
      (ρ.assign x v).force fun ρ => k v ρ
  | .postIncr x, ρ, k =>
    (Γ.var ρ x).force fun old => binary Γ.sc .add old (.int .int (1 : Nat)) fun v => assignable Γ.sc old v fun v =>
      (ρ.assign x v).force fun ρ => k old ρ
  | .bin op a b, ρ, k =>
    match op with
    | .or => a.eval Γ ρ fun v ρ => truth v fun c =>
      branch c (k (ofBool true) ρ) (b.eval Γ ρ fun w ρ => truth w fun c => k (ofBool c) ρ)
    | .and => a.eval Γ ρ fun v ρ => truth v fun c =>
      branch c (b.eval Γ ρ fun w ρ => truth w fun c => k (ofBool c) ρ) (k (ofBool false) ρ)
    | op => a.eval Γ ρ fun v ρ => b.eval Γ ρ fun w ρ =>
      match op, v with
      | .eq, .obj c fs => Γ.call c (name% "operator==") [.obj c fs, w] fun v _ => k v ρ
      | .ne, .obj c fs => Γ.call c (name% "operator!=") [.obj c fs, w] fun v _ => k v ρ
      | op, v => binary Γ.sc op v w fun v => k v ρ
  | .cond c a b, ρ, k => c.eval Γ ρ fun v ρ => truth v fun t => branch t (a.eval Γ ρ k) (b.eval Γ ρ k)
  | .set x e, ρ, k => e.eval Γ ρ fun v ρ => assignable Γ.sc (Γ.var ρ x) v fun v => (ρ.assign x v).force fun ρ => k v ρ
  | .setAt x i e, ρ, k => e.eval Γ ρ fun v ρ => i.eval Γ ρ fun w ρ =>
    match Γ.var ρ x, w, v with
    | .arr t s, .int _ n, .int u m => convertTo Γ.sc u t m fun m =>
      branch (decide (0 ≤ n ∧ n < (s.length : Nat)))
        ((ρ.assign x (.arr t (s.set n.toNat m))).force fun ρ => k (.int t m) ρ) .ub
    | .vec t l, .int _ n, .str u s =>
      bif t.same u then branch (decide (0 ≤ n ∧ n < (l.length : Nat)))
        ((ρ.assign x (.vec t (l.set n.toNat s))).force fun ρ => k (.str t s) ρ) .ub
      else .stuck
    | _, _, _ => .stuck
  | .setOp op x e, ρ, k => e.eval Γ ρ fun v ρ => binary Γ.sc op (Γ.var ρ x) v fun v =>
    assignable Γ.sc (Γ.var ρ x) v fun v => (ρ.assign x v).force fun ρ => k v ρ
  | .comma a b, ρ, k => a.eval Γ ρ fun _ ρ => b.eval Γ ρ k
  | .index e i, ρ, k => e.eval Γ ρ fun v ρ => i.eval Γ ρ fun w ρ =>
    match v, w with
    | .ptr t (some (buf, i)), .int _ n => moved i n fun i => read buf i fun m => k (.int t m) ρ
    | .ptr _ none, .int _ _ => .ub
    | .arr t s, .int _ n => read s n fun m => k (.int t m) ρ
    | .str t s, .int _ n => read (s ++ [0]) n fun m => k (.int t m) ρ
    | _, _ => .stuck
  | .cast ty e, ρ, k => e.eval Γ ρ fun v ρ => coerce Γ.sc Γ.T ty v fun v => k v ρ
  | .reinterpret ty e, ρ, k => e.eval Γ ρ fun v ρ =>
    match ty, v with
    | .ptr e, .ptr t p =>
      match e.elem Γ.T with
      | some u => bif Γ.alike t u then k (.ptr u p) ρ else .stuck
      | none => .stuck
    | _, _ => .stuck
  | .sizeof ty, ρ, k =>
    match ty.elem Γ.T with
    | some t => k (.int .ulong (t.size : Nat)) ρ
    | none => .stuck
  | .call f as, ρ, k => as.eval Γ ρ fun vs ρ => Γ.apply f as.names vs ρ k
  | .method x f as, ρ, k => as.eval Γ ρ fun vs ρ => Γ.method x f as.names vs ρ k
  | .valueMethod e f as, ρ, k => e.eval Γ ρ fun v ρ => as.eval Γ ρ fun vs ρ =>
    match v, vs with
    | .str t s, [] => bif Nat.beq f (name% "c_str") then k (.ptr t (some (s ++ [0], 0))) ρ else .stuck
    | _, _ => .stuck
  | .field x f, ρ, k =>
    match Γ.var ρ x with
    | .obj _ fs =>
      match assoc fs f with
      | some (t, n) => k (.int t n) ρ
      | none => .stuck
    | .self => ρ.self .stuck fun _ fs =>
      match assoc fs f with
      | some (t, n) => k (.int t n) ρ
      | none => .stuck
    | _ => .stuck
  | .make ty as, ρ, k => as.eval Γ ρ fun vs ρ => Γ.make ty vs fun v => k v ρ

/-- Lists of expressions. -/
def Args.eval (Γ : Ctx) : Args → Env → (List Val → Env → Out) → Out
  | .nil, ρ, k => k [] ρ
  | .cons e es, ρ, k => e.eval Γ ρ fun v ρ => es.eval Γ ρ fun vs ρ => k (v :: vs) ρ

end

/-- How a statement ends. -/
inductive End where
  | next (ρ : Env)
  | brk (ρ : Env)
  | ret (v : Val) (ρ : Env)

/-- The end of a block that was entered with the variables `outer`. -/
def End.leave (outer : Env) (e : End) (k : End → Out) : Out :=
  match e with
  | .next ρ => (outer.leave ρ).force fun ρ => k (.next ρ)
  | .brk ρ => (outer.leave ρ).force fun ρ => k (.brk ρ)
  | .ret v ρ => (outer.leave ρ).force fun ρ => k (.ret v ρ)

/-- A loop: `cond` is its condition, `step` what is done after a round, `body` a round. At most `n` rounds. -/
def rounds (cond : Env → (Bool → Env → Out) → Out) (step body : Env → (End → Out) → Out) :
    Nat → Env → (End → Out) → Out
  | 0, _, _ => .timeout
  | n + 1, ρ, k => cond ρ fun b ρ =>
    branch b
      (body ρ fun e =>
        match e with
        | .next ρ => step ρ fun e =>
          match e with
          | .next ρ => rounds cond step body n ρ k
          | _ => .stuck
        | .brk ρ => k (.next ρ)
        | .ret v ρ => k (.ret v ρ))
      (k (.next ρ))

/-- A loop over the elements of a string of characters of type `t`. -/
def each (t : Ty) (x : Nat) (body : Env → (End → Out) → Out) : List Int → Env → (End → Out) → Out
  | [], ρ, k => k (.next ρ)
  | c :: cs, ρ, k => body ((x, .int t c) :: ρ) fun e =>
    e.leave ρ fun e =>
      match e with
      | .next ρ => each t x body cs ρ k
      | .brk ρ => k (.next ρ)
      | .ret v ρ => k (.ret v ρ)

/-- A loop over these values. -/
def eachVal (x : Nat) (body : Env → (End → Out) → Out) : List Val → Env → (End → Out) → Out
  | [], ρ, k => k (.next ρ)
  | v :: vs, ρ, k => body ((x, v) :: ρ) fun e =>
    e.leave ρ fun e =>
      match e with
      | .next ρ => eachVal x body vs ρ k
      | .brk ρ => k (.next ρ)
      | .ret v ρ => k (.ret v ρ)

/-- The numbers of a list of values, converted to the type `t`. -/
def numbers (sc : Bool) (t : Ty) : List Val → Option (List Int)
  | [] => some []
  | .int s n :: vs => (numbers sc t vs).map (convert sc s t n :: ·)
  | _ :: _ => none

/-- Statements, of a function that returns a `ret`. -/
def Stmt.exec (Γ : Ctx) (ret : TyExpr) : Stmt → Env → (End → Out) → Out
  | .skip, ρ, k => k (.next ρ)
  | .seq s t, ρ, k => s.exec Γ ret ρ fun e =>
    match e with
    | .next ρ => t.exec Γ ret ρ k
    | .brk ρ => k (.brk ρ)
    | .ret v ρ => k (.ret v ρ)
  | .expr e, ρ, k => e.eval Γ ρ fun _ ρ => k (.next ρ)
  | .decl ty x e, ρ, k => e.eval Γ ρ fun v ρ => coerce Γ.sc Γ.T (ty.at ρ) v fun v => k (.next ((x, v) :: ρ))
  | .make ty x as, ρ, k =>
    match ty, as with
    | .prim t, .nil => k (.next ((x, .uninit t) :: ρ))
    | .adder _, .cons (.var y) .nil => k (.next ((x, .alias y) :: ρ))
    | ty, as => as.eval Γ ρ fun vs ρ => Γ.make (ty.at ρ) vs fun v => k (.next ((x, v) :: ρ))
  | .array ty x as, ρ, k => as.eval Γ ρ fun vs ρ =>
    match ty.elem Γ.T with
    | some t =>
      match numbers Γ.sc t vs with
      | some s => k (.next ((x, .arr t s) :: ρ))
      | none => .stuck
    | none => .stuck
  | .arrayOf ty x n as, ρ, k => as.eval Γ ρ fun vs ρ =>
    match ty.elem Γ.T with
    | some t =>
      match numbers Γ.sc t vs with
      | some s => k (.next ((x, .arr t (s ++ List.replicate (n - s.length) 0)) :: ρ))
      | none => .stuck
    | none => .stuck
  | .typedef ty x, ρ, k => k (.next ((x, .type (ty.at ρ)) :: ρ))
  | .ret e, ρ, k => e.eval Γ ρ fun v ρ => coerce Γ.sc Γ.T ret v fun v => k (.ret v ρ)
  | .brk, ρ, k => k (.brk ρ)
  | .block s, ρ, k => s.exec Γ ret ρ fun e => e.leave ρ k
  | .ite c t f, ρ, k => c.eval Γ ρ fun v ρ => truth v fun b =>
    branch b (t.exec Γ ret ρ fun e => e.leave ρ k) (f.exec Γ ret ρ fun e => e.leave ρ k)
  | .loop c step body, ρ, k =>
    Cpp.rounds (fun ρ k => c.eval Γ ρ fun v ρ => truth v fun b => k b ρ) (fun ρ k => step.exec Γ ret ρ k)
      (fun ρ k => body.exec Γ ret ρ fun e => e.leave ρ k) Γ.rounds ρ k
  | .doWhile c body, ρ, k => body.exec Γ ret ρ fun e => e.leave ρ fun e =>
    match e with
    | .next ρ =>
      Cpp.rounds (fun ρ k => c.eval Γ ρ fun v ρ => truth v fun b => k b ρ) (fun ρ k => k (.next ρ))
        (fun ρ k => body.exec Γ ret ρ fun e => e.leave ρ k) Γ.rounds ρ k
    | .brk ρ => k (.next ρ)
    | .ret v ρ => k (.ret v ρ)
  | .forIn x y body, ρ, k =>
    match Γ.var ρ y with
    | .str t s => each t x (fun ρ k => body.exec Γ ret ρ k) s ρ k
    | .vec t l => eachVal x (fun ρ k => body.exec Γ ret ρ k) (l.map (.str t)) ρ k
    | _ => .stuck

/-! ## Functions -/

/-- How well does a value fit a parameter? 2: it has the type; 1: it can be converted; 0: not at all. -/
def TyExpr.fits : TyExpr → Val → Nat
  | .prim t, .int s _ =>
    if t = s then 2
    else
      match t with
      | .enum _ => 0
      | _ => 1
  | .param, .int _ _ => 2
  | .ptr (.prim t), .ptr s _ => if t = s then 2 else 0
  | .ptr _, .null => 1
  | .ref (.ptr (.prim t)), .ptr s _ => if t = s then 2 else 0
  | .str (.prim t), .str s _ => if t = s then 2 else 0
  | .str (.prim t), .ptr s _ => if t = s then 1 else 0
  | .ref (.str (.prim t)), .str s _ => if t = s then 2 else 0
  | .str .param, .str _ _ => 2
  | .ref (.str .param), .str _ _ => 2
  | .vec (.str .param), .vec _ _ => 2
  | .adder (.prim t), .str s _ => if t = s then 2 else 0
  | .ref (.adder (.prim t)), .str s _ => if t = s then 2 else 0
  | .cls c, .obj d _ => bif Nat.beq c d then 2 else 0
  | .cls _, .self => 2
  | _, _ => 0

/-- How well do the arguments fit the parameters? If there are fewer arguments, the rest of the parameters have to
have defaults. -/
def fit : List Param → List Val → Nat
  | [], [] => 2
  | [], _ :: _ => 0
  | p :: ps, [] =>
    match p.dflt with
    | some _ => fit ps []
    | none => 0
  | p :: ps, v :: vs => Nat.min (p.ty.fits v) (fit ps vs)

/-- Is the function, or constructor, `f` called with its object as the first argument? -/
def Fun.hasSelf (f : Fun) : Bool := bif Nat.beq f.cls (nat_lit 0) then false else bif Nat.beq f.cls f.name then false else true

/-- How well do the arguments fit a function? -/
def Fun.fit (f : Fun) (vs : List Val) : Nat :=
  bif f.hasSelf then
    match vs with
    | [] => 0
    | _ :: vs => Cpp.fit f.params vs
  else Cpp.fit f.params vs

/-- The functions that fit, at least as well as `q`. -/
def candidates (q : Nat) (cls name : Nat) (vs : List Val) : List Fun → List Fun
  | [] => []
  | f :: fs =>
    bif Nat.beq f.name name then
      bif Nat.beq f.cls cls then
        bif Nat.ble q (f.fit vs) then f :: candidates q cls name vs fs else candidates q cls name vs fs
      else candidates q cls name vs fs
    else candidates q cls name vs fs

/-- Which function does a call mean? There has to be just one that fits exactly, or else just one that fits. -/
def resolve (fs : List Fun) (cls name : Nat) (vs : List Val) : Option Fun :=
  match candidates 2 cls name vs fs with
  | [f] => some f
  | [] =>
    match candidates 1 cls name vs fs with
    | [f] => some f
    | _ => none
  | _ => none

/-- The type that `C` stands for. -/
def deduce : List Param → List Val → Ty
  | p :: ps, v :: vs =>
    match p.ty, v with
    | .param, .int t _ => t
    | .str .param, .str t _ => t
    | .ref (.str .param), .str t _ => t
    | .vec (.str .param), .vec t _ => t
    | _, _ => deduce ps vs
  | _, _ => .int

/-- The parameters as variables. -/
def bind (Γ : Ctx) : List Param → List Val → (Env → Out) → Out
  | [], [], k => k []
  | ⟨ty, x, _⟩ :: ps, v :: vs, k => coerce Γ.sc Γ.T ty v fun v => bind Γ ps vs fun ρ => k ((x, v) :: ρ)
  | ⟨ty, x, some e⟩ :: ps, [], k =>
    e.eval Γ [] fun v _ => coerce Γ.sc Γ.T ty v fun v => bind Γ ps [] fun ρ => k ((x, v) :: ρ)
  | ⟨_, _, none⟩ :: _, [], _ => .stuck
  | [], _ :: _, _ => .stuck

/-- Does a parameter of this type give something back? -/
def TyExpr.back : TyExpr → Bool
  | .ref _ => true
  | .adder _ => true
  | _ => false

/-- What the parameters give back. -/
def refs (ρ : Env) : List Param → (List (Option Val) → Out) → Out
  | [], k => k []
  | p :: ps, k =>
    bif p.ty.back then
      match ρ.find p.name with
      | some v => v.force fun v => refs ρ ps fun vs => k (some v :: vs)
      | none => .stuck
    else refs ρ ps fun vs => k (none :: vs)

/-- The member variables of an object as variables. -/
def members_ : List (Nat × Ty × Int) → Env
  | [] => []
  | (x, t, n) :: fs => (x, .int t n) :: members_ fs

/-- The member variables of a class as variables without values. -/
def blank : List (Nat × Ty) → Env
  | [] => []
  | (x, t) :: fs => (x, .uninit t) :: blank fs

/-- The initialisers of a constructor. -/
def initialise (Γ : Ctx) : List (Nat × Expr) → Env → (Env → Out) → Out
  | [], ρ, k => k ρ
  | (x, e) :: is, ρ, k =>
    (Expr.set x e).eval Γ ρ fun _ ρ => initialise Γ is ρ k

/-- The object that consists of these member variables. -/
def Env.object (ρ : Env) : List (Nat × Ty) → (List (Nat × Ty × Int) → Out) → Out
  | [], k => k []
  | (x, t) :: fs, k =>
    match ρ.find x with
    | some (.int _ n) => Env.object ρ fs fun gs => k ((x, t, n) :: gs)
    | _ => .ub

/-- The end of a function: the value; the variables of the function itself, which are like `outer`, go to `k`. -/
def finishCall (ret : TyExpr) (outer : Env) (k : Val → Env → Out) : End → Out
  | .ret v ρ => (outer.leave ρ).force fun ρ => k v ρ
  | .next ρ =>
    match ret with
    | .void => (outer.leave ρ).force fun ρ => k .void ρ
    | _ => .ub
  | .brk _ => .stuck

/-- A program: its functions, constants and arrays, and the member variables of its classes. -/
structure Program where
  funs : List Fun
  globals : Env
  classes : List (Nat × List (Nat × Ty))
  /-- the type of characters that has the size of `wchar_t` -/
  wide : Ty

/-- The member variables of a class. -/
def Program.fields (P : Program) (c : Nat) : List (Nat × Ty) :=
  match assoc P.classes c with
  | some fs => fs
  | none => []

/-- Has the class a member function of that name? -/
def Program.member (P : Program) (cls name : Nat) : Bool :=
  P.funs.any fun f => bif Nat.beq f.name name then (bif Nat.beq f.cls cls then f.hasSelf else false) else false

/-- Run a function with a body. -/
def Fun.run (P : Program) (Γ : Ctx) (f : Fun) (body : Stmt) (vs : List Val)
    (k : Val → List (Option Val) → Out) : Out :=
  bif f.hasSelf then
    match vs with
    | .obj c fs :: vs =>
      bind Γ f.params vs fun ρ => (ρ ++ (members_ fs ++ [(name% "this", Val.obj c fs)]) : Env).force fun ρ =>
        body.exec Γ f.ret ρ fun e =>
          finishCall f.ret ρ
            (fun v ρ => refs ρ f.params fun vs => ρ.fields fs fun fs => k v (some (.obj c fs) :: vs)) e
    | _ => .stuck
  else bif Nat.beq f.cls (nat_lit 0) then
    bind Γ f.params vs fun ρ => body.exec Γ f.ret ρ fun e =>
      finishCall f.ret ρ (fun v ρ => refs ρ f.params fun vs => k v vs) e
  else
    bind Γ f.params vs fun ρ => (ρ ++ blank (P.fields f.cls) : Env).force fun ρ => initialise Γ f.inits ρ fun ρ =>
      body.exec Γ .void ρ fun e =>
        finishCall .void ρ
          (fun _ ρ => ρ.object (P.fields f.cls) fun fs => k (.obj f.cls fs) []) e

/-- Functions and variables that are declared here and defined elsewhere: what a function of one argument returns,
and the value of a string. -/
structure Externals where
  fn : Nat → Ty → Int → Option Int
  str : Nat → Option (List Int)

/-- Run a function that is defined elsewhere. -/
def Fun.external (X : Externals) (sc : Bool) (f : Fun) (vs : List Val) (k : Val → List (Option Val) → Out) : Out :=
  match f.params, f.ret, vs with
  | [p], .prim r, [.int s n] =>
    match p.ty with
    | .prim t =>
      match X.fn f.name t (convert sc s t n) with
      | some m => k (.int r m) [none]
      | none => .stuck
    | _ => .stuck
  | _, _, _ => .stuck

/-- Call a function of the program, with at most `d` calls inside each other. -/
def Program.call (P : Program) (X : Externals) (sc : Bool) (rounds : Nat) : Nat → Call
  | 0, _, _, _, _ => .timeout
  | d + 1, cls, name, vs, k =>
    match resolve P.funs cls name vs with
    | none => .stuck
    | some f =>
      match f.body with
      | some body => f.run P ⟨sc, rounds, P.globals, P.call X sc rounds d, P.member,
          deduce f.params vs, P.wide⟩ body vs k
      | none => f.external X sc vs k

/-! ## Programs -/

/-- Do two functions have the same class, name and types of parameters? -/
def Fun.same (f g : Fun) : Bool :=
  bif Nat.beq f.name g.name then
    bif Nat.beq f.cls g.cls then decide (f.params.map Param.ty = g.params.map Param.ty) else false
  else false

/-- Take defaults from another declaration. -/
def defaults : List Param → List Param → List Param
  | p :: ps, q :: qs =>
    (match p.dflt with
    | some _ => p
    | none => ⟨p.ty, p.name, q.dflt⟩) :: defaults ps qs
  | ps, _ => ps

/-- Give a function the defaults of its declarations. -/
def Fun.complete : Fun → List Fun → Fun
  | f, [] => f
  | f, g :: gs =>
    bif f.same g then Fun.complete ⟨f.cls, f.name, f.ret, defaults f.params g.params, f.inits, f.body⟩ gs
    else Fun.complete f gs

/-- The functions among the items. -/
def functions : List Item → List Fun
  | [] => []
  | .func f :: is => f :: functions is
  | _ :: is => functions is

/-- The definitions among all functions, and the declarations without a definition. -/
def linked (all : List Fun) : List Fun → List Fun
  | [] => []
  | f :: fs =>
    match f.body with
    | some _ => f.complete all :: linked all fs
    | none =>
      bif all.any fun g => bif f.same g then g.body.isSome else false then linked all fs
      else f :: linked all fs

/-- The value of a constant expression. -/
def constant (sc : Bool) (globals : Env) (e : Expr) : Option Int :=
  match e.eval ⟨sc, 0, globals, fun _ _ _ _ => .stuck, fun _ _ => false, .int, .c32⟩ [] fun v _ => .done v [] with
  | .done (.int _ n) _ => some n
  | _ => none

/-- The constants of an enumeration: each is one more than the one before, `next`, unless it has a value. -/
def enumerated (sc : Bool) (name : Nat) : Int → List (Nat × Option Expr) → Env → Option Env
  | _, [], globals => some globals
  | next, (x, none) :: cs, globals =>
    enumerated sc name (next + 1) cs ((x, .int (.enum name) next) :: globals)
  | _, (x, some e) :: cs, globals =>
    match constant sc globals e with
    | some n => enumerated sc name (n + 1) cs ((x, .int (.enum name) n) :: globals)
    | none => none

/-- The values of constant expressions. -/
def constantsOf (sc : Bool) (globals : Env) : Args → Option (List Int)
  | .nil => some []
  | .cons e es =>
    match constant sc globals e with
    | some n =>
      match constantsOf sc globals es with
      | some ns => some (n :: ns)
      | none => none
    | none => none

/-- The constants and arrays among the items, the newest first. -/
def globalsOf (X : Externals) (sc : Bool) : List Item → Env → Option Env
  | [], globals => some globals
  | .enum name cs :: is, globals =>
    match enumerated sc name 0 cs globals with
    | some globals => globalsOf X sc is globals
    | none => none
  | .array (.prim t) x size as :: is, globals =>
    match constant sc globals size, constantsOf sc globals as with
    | some n, some ns =>
      -- the rest of the elements are 0
      globalsOf X sc is ((x, .arr t (ns ++ List.replicate (n.toNat - ns.length) 0)) :: globals)
    | _, _ => none
  | .extern (.str (.prim t)) x :: is, globals =>
    match X.str x with
    | some s => globalsOf X sc is ((x, .str t s) :: globals)
    | none => none
  | .func _ :: is, globals => globalsOf X sc is globals
  | .field _ _ _ :: is, globals => globalsOf X sc is globals
  | _ :: _, _ => none

/-- The member variables of the class `c`. -/
def fieldsOf (c : Nat) : List Item → List (Nat × Ty)
  | [] => []
  | .field d (.prim t) x :: is => bif Nat.beq c d then (x, t) :: fieldsOf c is else fieldsOf c is
  | _ :: is => fieldsOf c is

/-- The classes with their member variables. -/
def classesOf (all : List Item) : List Item → List (Nat × List (Nat × Ty))
  | [] => []
  | .field c _ _ :: is =>
    bif (classesOf all is).any fun d => Nat.beq d.1 c then classesOf all is else (c, fieldsOf c all) :: classesOf all is
  | _ :: is => classesOf all is

/-- The program that consists of these items, where `wchar_t` has the size of `wide`. -/
def program (X : Externals) (sc : Bool) (wide : Ty) (is : List Item) : Option Program :=
  match globalsOf X sc is [] with
  | some globals => some ⟨linked (functions is) (functions is), globals, classesOf is is, wide⟩
  | none => none

/-- The type of characters that has the size of `wchar_t`: does that have 32 bits, or 16? -/
def wideType (w32 : Bool) : Ty := bif w32 then .c32 else .c16

/-- Call a function of a program that is given as text: a member of the class `cls`, or of no class if that is 0. At
most `n` calls can be inside each other and a loop can have at most `n` rounds. -/
def callText (X : Externals) (sc : Bool) (wide : Ty) (pieces : List Cxx.Text) (n cls name : Nat) (vs : List Val) : Out :=
  match parseAll pieces with
  | some is =>
    match program X sc wide is with
    | some P => P.call X sc n n cls name vs .done
    | none => .stuck
  | none => .stuck

end Ansak.Cpp
