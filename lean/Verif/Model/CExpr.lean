/-!
# The C++ subset of the character tables

`source/bits7 .. bits16` hold, for each supported Unicode version, two files of functions of
one character `c`: `char_is_unicode.cxx` and `char_to_lower.cxx`.  They use only local
constants, `if`, `switch`, `return`, calls of one another, and expressions made of `c`,
literals, `&`, `|`, `+`, `>>`, comparisons, `&&`, `||`, `!`, `?:` and casts.  This file gives
the syntax of that subset and its meaning; the modules `Verif.Model.Unicode.Bits*` are the
translations of the twenty files (written by `tools/gen_tables.py`).

Values are natural numbers.  That is exact for this code: every operand is a non-negative
`int` or an unsigned value, `~n` only ever masks such an operand (it is written as the 32-bit
literal), and every value stored in a narrower type goes through an explicit `cast`.
-/

namespace Ansak.CExpr

/-- Integer expressions of the table functions. -/
inductive E where
  /-- the argument `c` of the function -/
  | c
  /-- an integer literal -/
  | lit (n : Nat)
  /-- `e & n` -/
  | and (e : E) (n : Nat)
  /-- `e | n` -/
  | or (e : E) (n : Nat)
  /-- `e + n` -/
  | add (e : E) (n : Nat)
  /-- `e >> n` -/
  | shr (e : E) (n : Nat)
  /-- conversion of `e` to an unsigned type of `k` bits (`static_cast`, or the implicit
  conversion of a returned value); `char` counts as its 8 bits -/
  | cast (e : E) (k : Nat)

/-- Boolean expressions, and bodies of functions that return `bool`. -/
inductive B where
  | tt
  | ff
  /-- `e == n` -/
  | eq (e : E) (n : Nat)
  /-- `e < n` -/
  | lt (e : E) (n : Nat)
  /-- `e > n` -/
  | gt (e : E) (n : Nat)
  /-- `e <= n` -/
  | le (e : E) (n : Nat)
  /-- `e >= n` -/
  | ge (e : E) (n : Nat)
  /-- `e == e'` -/
  | eqE (e e' : E)
  /-- `!b` -/
  | not (b : B)
  /-- `a && b` -/
  | and (a b : B)
  /-- `a || b` -/
  | or (a b : B)
  /-- `if (b) t else f`, `b ? t : f` -/
  | cond (b t f : B)
  /-- one group of labels of a `switch (e)`: `t` if `e` is one of the labels, otherwise what
  the rest of the `switch` does -/
  | case (e : E) (ks : List Nat) (t f : B)
  /-- `f(e)` -/
  | call (f : B) (e : E)

/-- Bodies of functions that return a character. -/
inductive V where
  /-- `return e` -/
  | ret (e : E)
  | cond (b : B) (t f : V)
  | case (e : E) (ks : List Nat) (t f : V)
  /-- `return f(e)`, the result converted to `k` bits -/
  | call (f : V) (e : E) (k : Nat)

/-- The value of an integer expression when `c` is `x`. -/
def E.eval (x : Nat) : E → Nat
  | .c => x
  | .lit n => n
  | .and e n => Nat.land (e.eval x) n
  | .or e n => Nat.lor (e.eval x) n
  | .add e n => Nat.add (e.eval x) n
  | .shr e n => Nat.shiftRight (e.eval x) n
  | .cast e k => Nat.mod (e.eval x) (Nat.pow 2 k)

/-- Is `n` one of the labels? -/
def memNat (n : Nat) : List Nat → Bool
  | [] => false
  | k :: ks => bif Nat.beq n k then true else memNat n ks

/-- The result of a `bool` function when `c` is `x`. -/
def B.eval (x : Nat) : B → Bool
  | .tt => true
  | .ff => false
  | .eq e n => Nat.beq (e.eval x) n
  | .lt e n => Nat.blt (e.eval x) n
  | .gt e n => Nat.blt n (e.eval x)
  | .le e n => Nat.ble (e.eval x) n
  | .ge e n => Nat.ble n (e.eval x)
  | .eqE e e' => Nat.beq (e.eval x) (e'.eval x)
  | .not b => !b.eval x
  | .and a b => a.eval x && b.eval x
  | .or a b => a.eval x || b.eval x
  | .cond b t f => bif b.eval x then t.eval x else f.eval x
  | .case e ks t f => bif memNat (e.eval x) ks then t.eval x else f.eval x
  | .call f e => f.eval (e.eval x)

/-- The result of a character function when `c` is `x`. -/
def V.eval (x : Nat) : V → Nat
  | .ret e => e.eval x
  | .cond b t f => bif b.eval x then t.eval x else f.eval x
  | .case e ks t f => bif memNat (e.eval x) ks then t.eval x else f.eval x
  | .call f e k => Nat.mod (f.eval (e.eval x)) (Nat.pow 2 k)

/-! Notation, so that the translated functions read like their sources. -/

@[inherit_doc E.shr] scoped notation:75 a:75 " >>: " b:76 => E.shr a b
@[inherit_doc E.add] scoped notation:65 a:65 " +: " b:66 => E.add a b
@[inherit_doc E.and] scoped notation:60 a:60 " &: " b:61 => E.and a b
@[inherit_doc E.or] scoped notation:58 a:58 " |: " b:59 => E.or a b
@[inherit_doc B.eq] scoped notation:50 a:51 " =: " b:51 => B.eq a b
@[inherit_doc B.lt] scoped notation:50 a:51 " <: " b:51 => B.lt a b
@[inherit_doc B.gt] scoped notation:50 a:51 " >: " b:51 => B.gt a b
@[inherit_doc B.le] scoped notation:50 a:51 " ≤: " b:51 => B.le a b
@[inherit_doc B.ge] scoped notation:50 a:51 " ≥: " b:51 => B.ge a b
@[inherit_doc B.not] scoped notation:40 "!: " a:40 => B.not a
@[inherit_doc B.and] scoped notation:35 a:35 " &&: " b:36 => B.and a b
@[inherit_doc B.or] scoped notation:30 a:30 " ||: " b:31 => B.or a b

end Ansak.CExpr
