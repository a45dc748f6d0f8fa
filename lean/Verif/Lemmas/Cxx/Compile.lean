import Verif.Model.Cxx.Sem
import Verif.Model.CExpr

/-!
# From source text to the translated functions

`comp` turns a function of `Verif.Model.Cxx.Parse` into a tree of `Verif.Model.CExpr`, or fails. That the tree
returns what the function returns is proved in `Verif.Lemmas.Cxx.Sound`. So the check that the
translations `Verif.Model.Unicode.Bits*` are what `comp` makes of the source text is a proof that the translations are
right, whoever wrote them.
-/

namespace Ansak.Cxx

open CExpr

/-- The width of the character types, and of `unsigned`. -/
def width : Ty → Nat
  | .bool => 100
  | .char => 8
  | .uchar => 8
  | .c16 => 16
  | .c32 => 32
  | .int => 100
  | .uint => 32

def isChar : Ty → Bool
  | .char => true
  | _ => false

def isInt : Ty → Bool
  | .int => true
  | _ => false

/-- An expression with its C++ type; its value is less than `2 ^ bits`. -/
structure CE where
  ty : Ty
  bits : Nat
  e : E

/-- A translated function. -/
inductive Tree where
  | b (t : B)
  | v (t : V)

structure CFun where
  name : Nat
  arg : Ty
  ret : Ty
  tree : Tree

/-- What the local variables stand for. -/
abbrev CEnv := List (Nat × CE)

def CEnv.find (x : Nat) : CEnv → Option CE
  | [] => none
  | (y, a) :: Γ => bif Nat.beq x y then some a else CEnv.find x Γ

def CEnv.set : CEnv → Nat → CE → CEnv
  | [], _, _ => []
  | (y, a) :: Γ, x, b => bif Nat.beq y x then (y, b) :: Γ else (y, a) :: CEnv.set Γ x b

def CEnv.leave (outer inner : CEnv) : CEnv := inner.drop (inner.length - outer.length)

/-- Conversion. -/
def conv (a : CE) : Ty → Option CE
  | .bool => none
  | .int => bif isChar a.ty then none else some ⟨.int, a.bits, a.e⟩
  | .uint => bif isChar a.ty then none else some ⟨.uint, a.bits, a.e⟩
  | ty =>
    bif Nat.ble (width a.ty) (width ty) then
      bif isChar a.ty && !Nat.beq (width ty) 8 then none
      else bif Nat.ble a.bits (width ty) || Nat.beq (width ty) 32 then some ⟨ty, a.bits, a.e⟩
      else none
    else some ⟨ty, width ty, .cast a.e (width ty)⟩

/-- Can the two be operands of an operator that is the same for the numbers? -/
def simple (a b : CE) : Bool := !isChar a.ty && !isChar b.ty && Nat.ble a.bits 32 && Nat.ble b.bits 32

def compOp (op : BinOp) (a b : CE) : Option CE :=
  match b.e with
  | .lit n =>
    match op with
    | .bitAnd => bif simple a b then some ⟨common a.ty b.ty, Nat.min a.bits b.bits, .and a.e n⟩ else none
    | .bitOr => bif simple a b then some ⟨common a.ty b.ty, Nat.max a.bits b.bits, .or a.e n⟩ else none
    | .add =>
      bif simple a b then
        bif isInt (common a.ty b.ty) && !Nat.ble (Nat.max a.bits b.bits) 30 then none
        else some ⟨common a.ty b.ty, Nat.succ (Nat.max a.bits b.bits), .add a.e n⟩
      else none
    | .shr =>
      bif simple a b && Nat.blt n 32 then
        bif isInt (promote a.ty) && !Nat.ble a.bits 31 then none
        else some ⟨promote a.ty, Nat.sub a.bits n, .shr a.e n⟩
      else none
    | _ => none
  | _ => none

def compE (Γ : CEnv) : Expr → Option CE
  | .num n => bif Nat.blt n 0x80000000 then some ⟨.int, Nat.succ (Nat.log2 n), .lit n⟩ else none
  | .var x => Γ.find x
  | .compl e =>
    match compE Γ e with
    | some a =>
      match a.e with
      | .lit n =>
        bif isChar a.ty || !Nat.ble a.bits 32 then none
        else some ⟨promote a.ty, 32, .lit (Nat.sub 0xFFFFFFFF n)⟩
      | _ => none
    | none => none
  | .bin op a b =>
    match compE Γ a with
    | some a =>
      match compE Γ b with
      | some b => compOp op a b
      | none => none
    | none => none
  | .cast ty e =>
    match compE Γ e with
    | some a => conv a ty
    | none => none
  | _ => none

def compCmp (op : BinOp) (a b : CE) : Option B :=
  bif simple a b && (!isInt (common a.ty b.ty) || (Nat.ble a.bits 31 && Nat.ble b.bits 31)) then
    match b.e with
    | .lit n =>
      match op with
      | .eq => some (.eq a.e n)
      | .ne => some (.not (.eq a.e n))
      | .lt => some (.lt a.e n)
      | .gt => some (.gt a.e n)
      | .le => some (.le a.e n)
      | .ge => some (.ge a.e n)
      | _ => none
    | e =>
      match op with
      | .eq => some (.eqE a.e e)
      | _ => none
  else none

/-- The function that is called, and its argument. -/
def compCall (fs : List CFun) (Γ : CEnv) (f : Nat) (e : Expr) : Option (CFun × E) :=
  match compE Γ e with
  | some a =>
    match resolve CFun.name CFun.arg fs f a.ty with
    | some g =>
      match conv a g.arg with
      | some b => bif Nat.ble b.bits (width g.arg) then some (g, b.e) else none
      | none => none
    | none => none
  | none => none

def compB (fs : List CFun) (Γ : CEnv) : Expr → Option B
  | .bool b => bif b then some .tt else some .ff
  | .not e =>
    match compB fs Γ e with
    | some b => some (.not b)
    | none => none
  | .cond c a b =>
    match compB fs Γ c with
    | some c =>
      match compB fs Γ a with
      | some a =>
        match compB fs Γ b with
        | some b => some (.cond c a b)
        | none => none
      | none => none
    | none => none
  | .bin op a b =>
    match op with
    | .or =>
      match compB fs Γ a with
      | some a =>
        match compB fs Γ b with
        | some b => some (.or a b)
        | none => none
      | none => none
    | .and =>
      match compB fs Γ a with
      | some a =>
        match compB fs Γ b with
        | some b => some (.and a b)
        | none => none
      | none => none
    | op =>
      match compE Γ a with
      | some a =>
        match compE Γ b with
        | some b => compCmp op a b
        | none => none
      | none => none
  | .call f e =>
    match compCall fs Γ f e with
    | some r =>
      match r.1.tree with
      | .b t => some (.call t r.2)
      | .v _ => none
    | none => none
  | _ => none

/-- A call under casts: the types, the innermost first, and the call. -/
def underCasts : Expr → List Ty → List Ty × Option (Nat × Expr)
  | .cast ty e, tys => underCasts e (ty :: tys)
  | .call f e, tys => (tys, some (f, e))
  | _, tys => (tys, none)

def convAll (a : CE) : List Ty → Option CE
  | [] => some a
  | ty :: tys =>
    match conv a ty with
    | some b => convAll b tys
    | none => none

/-- The returned expression of a function that returns a character. -/
def compRet (fs : List CFun) (ret : Ty) (Γ : CEnv) (e : Expr) : Option V :=
  match underCasts e [] with
  | (tys, some (f, e)) =>
    match compCall fs Γ f e with
    | some r =>
      match r.1.tree with
      | .v t =>
        match convAll ⟨r.1.ret, width r.1.ret, .c⟩ tys with
        | some a =>
          match conv a ret with
          | some b =>
            bif Nat.ble b.bits (width ret) then
              match b.e with
              | .c => some (.call t r.2 (width r.1.ret))
              | .cast .c k => some (.call t r.2 k)
              | _ => none
            else none
          | none => none
        | none => none
      | .b _ => none
    | none => none
  | (_, none) =>
    match compE Γ e with
    | some a =>
      bif isChar a.ty && !isChar ret then none
      else
        match a.e with
        | .c => bif Nat.ble a.bits (width ret) then some (.ret .c) else none
        | .lit n => bif Nat.ble a.bits (width ret) then some (.ret (.lit n)) else none
        | .cast e k =>
          bif Nat.ble k (width ret) then
            bif Nat.ble a.bits (width ret) then some (.ret (.cast e k)) else none
          else some (.ret (.cast (.cast e k) (width ret)))
        | e => some (.ret (.cast e (width ret)))
    | none => none

/-- How to make trees. -/
structure Out (T : Type) where
  cond : B → T → T → T
  case : E → List Nat → T → T → T
  ret : CEnv → Expr → Option T

/-- Where we are: at a statement, or in the body of a `switch` of which the tree for the labels or the tree for
`default` is wanted. -/
inductive At (T : Type) where
  | here
  /-- the value, and what to do if it is none of the labels -/
  | cases (e : E) (d : T)
  | dflt

def At.ifHere {T : Type} (t : Option T) : At T → Option T
  | .here => t
  | _ => none

/-- Only the last group of a `switch` may go on. -/
def fall {T : Type} (next : CEnv → Option T) : Stmt → CEnv → Option T
  | .skip => next
  | _ => fun _ => none

/-- Statements, given the trees for what comes after them (`next`) and after `break` (`brk`). -/
def comp {T : Type} (fs : List CFun) (o : Out T) :
    Stmt → At T → CEnv → (CEnv → Option T) → (CEnv → Option T) → Option T
  | .skip, m, Γ, next, _ =>
    match m with
    | .here => next Γ
    | .cases _ d => some d
    | .dflt => next Γ
  | .seq s t, m, Γ, next, brk => m.ifHere (comp fs o s .here Γ (fun Γ => comp fs o t .here Γ next brk) brk)
  | .ret e, m, Γ, _, _ => m.ifHere (o.ret Γ e)
  | .brk, m, Γ, _, brk => m.ifHere (brk Γ)
  | .decl ty x e, m, Γ, next, _ =>
    m.ifHere
      (match compE Γ e with
      | some a =>
        match ty with
        | none => next ((x, a) :: Γ)
        | some ty =>
          match conv a ty with
          | some b => next ((x, b) :: Γ)
          | none => none
      | none => none)
  | .andSet x e, m, Γ, next, _ =>
    m.ifHere
      (match Γ.find x with
      | some a =>
        match compE Γ e with
        | some b =>
          match compOp .bitAnd a b with
          | some r =>
            bif Nat.ble r.bits (width a.ty) && (isInt a.ty || Nat.ble (width a.ty) 32) then next (Γ.set x ⟨a.ty, r.bits, r.e⟩)
            else none
          | none => none
        | none => none
      | none => none)
  | .block s, m, Γ, next, brk =>
    m.ifHere (comp fs o s .here Γ (fun Γ' => next (Γ.leave Γ')) (fun Γ' => brk (Γ.leave Γ')))
  | .ite c t f, m, Γ, next, brk =>
    m.ifHere
      (match compB fs Γ c with
      | some b =>
        match comp fs o t .here Γ (fun Γ' => next (Γ.leave Γ')) (fun Γ' => brk (Γ.leave Γ')) with
        | some t =>
          match comp fs o f .here Γ (fun Γ' => next (Γ.leave Γ')) (fun Γ' => brk (Γ.leave Γ')) with
          | some f => some (o.cond b t f)
          | none => none
        | none => none
      | none => none)
  | .switch e g, m, Γ, next, _ =>
    m.ifHere
      (match compE Γ e with
      | some a =>
        bif isChar a.ty || !Nat.ble a.bits 32 then none
        else
          match comp fs o g .dflt Γ (fun Γ' => next (Γ.leave Γ')) (fun Γ' => next (Γ.leave Γ')) with
          | some d =>
            comp fs o g (.cases a.e d) Γ (fun Γ' => next (Γ.leave Γ')) (fun Γ' => next (Γ.leave Γ'))
          | none => none
      | none => none)
  | .group ls d body rest, m, Γ, next, brk =>
    match m with
    | .here => none
    | .cases e dt =>
      bif d then
        match ls with
        | [] => comp fs o rest (.cases e dt) Γ next brk
        | _ => none
      else
        match comp fs o body .here Γ (fall next rest) brk with
        | some t =>
          match comp fs o rest (.cases e dt) Γ next brk with
          | some r => some (o.case e ls t r)
          | none => none
        | none => none
    | .dflt =>
      bif d then comp fs o body .here Γ (fall next rest) brk
      else comp fs o rest .dflt Γ next brk

/-- A function that returns `bool`. -/
def outB (fs : List CFun) : Out B := ⟨.cond, .case, compB fs⟩

/-- A function that returns a character. -/
def outV (fs : List CFun) (ret : Ty) : Out V := ⟨.cond, .case, compRet fs ret⟩

def E.beq : E → E → Bool
  | .c, .c => true
  | .lit n, .lit m => Nat.beq n m
  | .and e n, .and f m => Nat.beq n m && E.beq e f
  | .or e n, .or f m => Nat.beq n m && E.beq e f
  | .add e n, .add f m => Nat.beq n m && E.beq e f
  | .shr e n, .shr f m => Nat.beq n m && E.beq e f
  | .cast e n, .cast f m => Nat.beq n m && E.beq e f
  | _, _ => false

def labelsBeq : List Nat → List Nat → Bool
  | [], [] => true
  | n :: ns, m :: ms => Nat.beq n m && labelsBeq ns ms
  | _, _ => false

def B.beq : B → B → Bool
  | .tt, .tt => true
  | .ff, .ff => true
  | .eq e n, .eq f m => Nat.beq n m && E.beq e f
  | .lt e n, .lt f m => Nat.beq n m && E.beq e f
  | .gt e n, .gt f m => Nat.beq n m && E.beq e f
  | .le e n, .le f m => Nat.beq n m && E.beq e f
  | .ge e n, .ge f m => Nat.beq n m && E.beq e f
  | .eqE e e', .eqE f f' => E.beq e f && E.beq e' f'
  | .not a, .not b => B.beq a b
  | .and a b, .and a' b' => B.beq a a' && B.beq b b'
  | .or a b, .or a' b' => B.beq a a' && B.beq b b'
  | .cond c a b, .cond c' a' b' => B.beq c c' && B.beq a a' && B.beq b b'
  | .case e ls a b, .case e' ls' a' b' => E.beq e e' && labelsBeq ls ls' && B.beq a a' && B.beq b b'
  | .call f e, .call f' e' => E.beq e e' && B.beq f f'
  | _, _ => false

def V.beq : V → V → Bool
  | .ret e, .ret f => E.beq e f
  | .cond c a b, .cond c' a' b' => B.beq c c' && V.beq a a' && V.beq b b'
  | .case e ls a b, .case e' ls' a' b' => E.beq e e' && labelsBeq ls ls' && V.beq a a' && V.beq b b'
  | .call f e k, .call f' e' k' => Nat.beq k k' && E.beq e e' && V.beq f f'
  | _, _ => false

/-- Does `comp` turn the function into the tree? -/
def checkFun (fs : List CFun) (f : Fun) : Tree → Bool
  | .b t =>
    match f.ret with
    | .bool =>
      Nat.ble (width f.arg) 32 &&
        match comp fs (outB fs) f.body .here [(f.param, ⟨f.arg, width f.arg, .c⟩)] (fun _ => none) (fun _ => none) with
        | some t' => B.beq t' t
        | none => false
    | _ => false
  | .v t =>
    Nat.ble (width f.arg) 32 && Nat.ble (width f.ret) 32 &&
      match comp fs (outV fs f.ret) f.body .here [(f.param, ⟨f.arg, width f.arg, .c⟩)] (fun _ => none)
        (fun _ => none) with
      | some t' => V.beq t' t
      | none => false

/-- Are the functions of a file these trees? The result is the list of all of them, the newest first. -/
def checkItems : List Item → List Tree → List CFun → Option (List CFun)
  | [], [], fs => some fs
  | .const _ _ :: is, ts, fs => checkItems is ts fs
  | .func f :: is, t :: ts, fs =>
    bif checkFun fs f t then checkItems is ts (⟨f.name, f.arg, f.ret, t⟩ :: fs) else none
  | _, _, _ => none

end Ansak.Cxx
