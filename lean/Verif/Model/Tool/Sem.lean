import Verif.Model.Tool.Parse
import Verif.Model.Base

/-!
# The C++ of the tool: meaning

A run of the program changes the files of a disk and writes to `cerr`.

* Strings are lists of bytes; a `char*` is null or points to a text that ends before its NUL.
* `std::filebuf`: [filebuf.members]. `open` gives a null pointer if it fails and does not throw. Reading a `filebuf` that
  is not open for reading finds the end of the file at once, and what is written to one that is not open for writing is
  dropped; the streams do not throw, since nobody calls `exceptions`. What is written
  is in the file at once, as far as there is room for it: a program could tell the difference only if it reads a file to which
  it is writing, or asks for the state of a stream after writing (the tool does neither, and this model knows no such question).
  An error while reading is like the end of the file: the state of the stream is not good in either case.
* Memory is not exhausted. So nothing throws, and the handler of `try` is never entered.
* `endl` is a newline.

`stuck` is the result for text outside this subset.
-/

namespace Ansak.Tool

/-- What running something leads to. -/
inductive R (α : Type) where
  | done (a : α)
  /-- undefined behaviour -/
  | ub
  /-- more rounds of a loop are needed -/
  | timeout
  /-- this model does not know -/
  | stuck

/-- Go on with the value, if there is one. -/
def R.bind {α β : Type} (r : R α) (f : α → R β) : R β :=
  match r with
  | .done a => f a
  | .ub => .ub
  | .timeout => .timeout
  | .stuck => .stuck

/-- Names of files and what is there. -/
structure Disk where
  /-- the place that a path leads to; several paths may lead to the same place -/
  place : List Byte → Nat
  /-- what is there; `none` if there is nothing -/
  content : Nat → Option (List Byte)
  /-- whether a file that is there can be opened for reading -/
  readable : Nat → Bool
  /-- whether a file can be created there, or the one that is there can be replaced -/
  writable : Nat → Bool
  /-- how many bytes can be stored there; `none` if there is no limit -/
  room : Nat → Option Nat

/-- What is stored of `s` in a place. -/
def Disk.fit (d : Disk) (p : Nat) (s : List Byte) : List Byte :=
  match d.room p with
  | none => s
  | some k => s.take k

/-- Put `s` in a place. -/
def Disk.put (d : Disk) (p : Nat) (s : List Byte) : Disk :=
  { d with content := fun q => if q = p then some s else d.content q }

/-- The state of a `std::filebuf`. -/
inductive File where
  | closed
  /-- open for reading, at this position -/
  | reading (place pos : Nat)
  | writing (place : Nat)

/-- A value. -/
inductive Val where
  | void
  | bool (b : Bool)
  | int (n : Int)
  /-- `std::size_t` -/
  | size (n : Nat)
  | char (c : Byte)
  /-- `const char*` -/
  | ptr (p : Option (List Byte))
  /-- `std::string` -/
  | str (s : List Byte)
  /-- `std::vector<std::string>` -/
  | vec (l : List (List Byte))
  /-- `char**`, to the beginning of an array -/
  | ptrs (l : List (Option (List Byte)))
  /-- `std::ios::openmode`: in, out, trunc -/
  | mode (i o t : Bool)
  /-- the `std::filebuf` with this number -/
  | file (n : Nat)
  /-- a pointer to it -/
  | fileAddr (n : Nat)
  /-- `std::istream` that reads this `filebuf`, and `good()` -/
  | istream (n : Nat) (good : Bool)
  /-- `std::ostream` that writes to this `filebuf` -/
  | ostream (n : Nat)
  | cerr
  | endl
  /-- `struct stat` -/
  | stat
  | statAddr

/-- The state: variables, the files that were made, the disk. -/
structure St where
  vars : List (Nat × Val)
  files : List File
  disk : Disk
  /-- what has been written to `cerr` -/
  err : List Byte

/-- The value of a variable. -/
def lookup (x : Nat) : List (Nat × Val) → Option Val
  | [] => none
  | (y, v) :: l => if x = y then some v else lookup x l

/-- Give a variable another value. -/
def update (x : Nat) (v : Val) : List (Nat × Val) → List (Nat × Val)
  | [] => []
  | (y, w) :: l => if x = y then (y, v) :: l else (y, w) :: update x v l

/-- The names of the libraries that are not functions. -/
def constant (x : Nat) : Option Val :=
  if x = (name% "npos") then some (.size 0xFFFFFFFFFFFFFFFF)
  else if x = (name% "cerr") then some .cerr
  else if x = (name% "endl") then some .endl
  else if x = (name% "in") then some (.mode true false false)
  else if x = (name% "out") then some (.mode false true false)
  else if x = (name% "trunc") then some (.mode false false true)
  else none

/-- The first position from `i` on at which the text `w` is found. -/
def find (w : List Byte) : List Byte → Nat → Option Nat
  | [], i => if w = [] then some i else none
  | c :: s, i => if w.isPrefixOf (c :: s) then some i else find w s (i + 1)

/-- Write to a stream. What there is no room for is lost: that sets the state of the stream, after which it takes nothing more, but
the tool does not ask for it, so it goes on as if all had been stored. -/
def write (to : Val) (s : List Byte) (σ : St) : R (Val × St) :=
  match to with
  | .cerr => .done (to, { σ with err := σ.err ++ s })
  | .ostream n =>
    match σ.files[n]? with
    | some (.writing p) => .done (to, { σ with disk := σ.disk.put p (σ.disk.fit p ((σ.disk.content p).getD [] ++ s)) })
    | some _ => .done (to, σ)
    | none => .stuck
  | _ => .stuck

/-- `to << v` -/
def put (to v : Val) (σ : St) : R (Val × St) :=
  match v with
  | .ptr (some s) => write to s σ
  | .ptr none => .ub
  | .str s => write to s σ
  | .char c => write to [c] σ
  | .endl => write to [0x0A] σ
  | _ => .stuck

/-- `open` of a `filebuf` that is not open: its state afterwards, and the disk. -/
def openFile (d : Disk) (path : List Byte) (i o t : Bool) : Option (File × Disk) :=
  let p := d.place path
  if i && !o && !t then some (if (d.content p).isSome && d.readable p then .reading p 0 else .closed, d)
  else if !i && o && t then some (if d.writable p then (.writing p, d.put p []) else (.closed, d))
  else none

/-- `getline` on this `filebuf`: the line, whether a newline ended it, and the state of the `filebuf`. -/
def readLine (d : Disk) (f : File) : List Byte × Bool × File :=
  match f with
  | .reading p pos =>
    let rest := ((d.content p).getD []).drop pos
    match rest.findIdx? (· = 0x0A) with
    | some n => (rest.take n, true, .reading p (pos + (n + 1)))
    | none => (rest, false, .reading p (pos + rest.length))
  | f => ([], false, f)

/-- Binary operators other than `&&` and `||`. -/
def binary (op : Op) (a b : Val) (σ : St) : R (Val × St) :=
  match op, a, b with
  | .bitOr, .mode i o t, .mode i' o' t' => .done (.mode (i || i') (o || o') (t || t'), σ)
  | .eq, .int m, .int n => .done (.bool (decide (m = n)), σ)
  | .ne, .int m, .int n => .done (.bool (decide (m ≠ n)), σ)
  | .ne, .size m, .size n => .done (.bool (decide (m ≠ n)), σ)
  | .ne, .size m, .int n => if n < 0 then .stuck else .done (.bool (decide (m ≠ n.toNat)), σ)
  | .gt, .size m, .int n => if n < 0 then .stuck else .done (.bool (decide (n.toNat < m)), σ)
  | .mod, .int m, .int n => if n = 0 then .ub else if n < 0 then .stuck else .done (.int (m.tmod n), σ)
  | .shl, to, v => put to v σ
  | _, _, _ => .stuck

/-- `a[i]` -/
def element (a i : Val) : R Val :=
  match a, i with
  | .vec l, .int n =>
    if n < 0 then .ub else
    match l[n.toNat]? with
    | some s => .done (.str s)
    | none => .ub
  | .ptrs l, .int n =>
    if n < 0 then .ub else
    match l[n.toNat]? with
    | some p => .done (.ptr p)
    | none => .ub
  | _, _ => .stuck

/-- A call of a member function. -/
def member (a : Val) (f : Nat) (args : List Val) (σ : St) : R (Val × St) :=
  match a, args with
  | .vec l, [] => if f = (name% "empty") then .done (.bool l.isEmpty, σ) else .stuck
  | .str s, [] => if f = (name% "size") then .done (.size s.length, σ) else .stuck
  | .str s, [.ptr (some w)] =>
    if f = (name% "find") then .done (.size ((find w s 0).getD 0xFFFFFFFFFFFFFFFF), σ) else .stuck
  | .file n, [] =>
    if f = (name% "close") then .done (.void, { σ with files := σ.files.set n .closed }) else .stuck
  | .file n, [.ptr (some path), .mode i o t] =>
    if f = (name% "open") then
      match σ.files[n]?, openFile σ.disk path i o t with
      | some .closed, some (file, disk) => .done (.void, { σ with files := σ.files.set n file, disk := disk })
      | _, _ => .stuck
    else .stuck
  | .file _, [.ptr none, .mode _ _ _] => if f = (name% "open") then .ub else .stuck
  | _, _ => .stuck

/-- What a program is run with: its functions, and `split` of the library. -/
structure Env where
  call : Nat → List Val → St → R (Val × St)
  split : List Byte → Byte → R (List (List Byte))

/-- Functions of the libraries. -/
def builtin (E : Env) (f : Nat) (args : List Val) (σ : St) : R (Val × St) :=
  if f = (name% "split") then
    match args with
    | [.str s, .char c] => (E.split s c).bind fun l => .done (.vec l, σ)
    | _ => .stuck
  else if f = (name% "stat") then
    match args with
    | [.ptr (some path), .statAddr] =>
      .done (.int (if (σ.disk.content (σ.disk.place path)).isSome then 0 else -1), σ)
    | [.ptr none, .statAddr] => .ub
    | _ => .stuck
  else E.call f args σ

/-- `getline(x, y)` -/
def getline (x y : Nat) (σ : St) : R (Val × St) :=
  match lookup x σ.vars, lookup y σ.vars with
  | some (.istream n good), some (.str _) =>
    if good then
      match σ.files[n]? with
      | some f =>
        let r := readLine σ.disk f
        .done (.void, { σ with
          vars := update y (.str r.1) (update x (.istream n r.2.1) σ.vars), files := σ.files.set n r.2.2 })
      | none => .stuck
    else .done (.void, σ)
  | _, _ => .stuck

mutual

/-- The value of an expression. -/
def eval (E : Env) : Expr → St → R (Val × St)
  | .num n, σ => .done (.int n, σ)
  | .chr n, σ => .done (.char (BitVec.ofNat 8 n), σ)
  | .lit cs, σ => .done (.ptr (some (cs.map (BitVec.ofNat 8))), σ)
  | .bool b, σ => .done (.bool b, σ)
  | .var x, σ =>
    match lookup x σ.vars with
    | some v => .done (v, σ)
    | none =>
      match constant x with
      | some v => .done (v, σ)
      | none => .stuck
  | .addr x, σ =>
    match lookup x σ.vars with
    | some (.file n) => .done (.fileAddr n, σ)
    | some .stat => .done (.statAddr, σ)
    | _ => .stuck
  | .not e, σ => (eval E e σ).bind fun (v, σ) =>
    match v with
    | .bool b => .done (.bool (!b), σ)
    | _ => .stuck
  | .incr x, σ =>
    match lookup x σ.vars with
    | some (.int n) =>
      if n < 0x7FFFFFFF then .done (.int (n + 1), { σ with vars := update x (.int (n + 1)) σ.vars }) else .ub
    | _ => .stuck
  | .bin .or a b, σ => (eval E a σ).bind fun (v, σ) =>
    match v with
    | .bool true => .done (.bool true, σ)
    | .bool false => (eval E b σ).bind fun (v, σ) =>
      match v with
      | .bool b => .done (.bool b, σ)
      | _ => .stuck
    | _ => .stuck
  | .bin .and a b, σ => (eval E a σ).bind fun (v, σ) =>
    match v with
    | .bool false => .done (.bool false, σ)
    | .bool true => (eval E b σ).bind fun (v, σ) =>
      match v with
      | .bool b => .done (.bool b, σ)
      | _ => .stuck
    | _ => .stuck
  | .bin op a b, σ => (eval E a σ).bind fun (v, σ) => (eval E b σ).bind fun (w, σ) => binary op v w σ
  | .set x e, σ => (eval E e σ).bind fun (v, σ) =>
    match lookup x σ.vars, v with
    | some (.bool _), .bool _ | some (.vec _), .vec _ => .done (v, { σ with vars := update x v σ.vars })
    | _, _ => .stuck
  | .index a i, σ => (eval E a σ).bind fun (v, σ) => (eval E i σ).bind fun (w, σ) =>
    (element v w).bind fun r => .done (r, σ)
  -- `getline` changes its arguments
  | .call f (.cons (.var x) (.cons (.var y) .nil)), σ =>
    if f = (name% "getline") then getline x y σ
    else (evalArgs E (.cons (.var x) (.cons (.var y) .nil)) σ).bind fun (vs, σ) => builtin E f vs σ
  | .call f as, σ => (evalArgs E as σ).bind fun (vs, σ) => builtin E f vs σ
  | .method e f as, σ => (eval E e σ).bind fun (v, σ) => (evalArgs E as σ).bind fun (vs, σ) => member v f vs σ

/-- The values of the arguments of a call. -/
def evalArgs (E : Env) : Args → St → R (List Val × St)
  | .nil, σ => .done ([], σ)
  | .cons e es, σ => (eval E e σ).bind fun (v, σ) => (evalArgs E es σ).bind fun (vs, σ) => .done (v :: vs, σ)

end

/-- How a statement ends. -/
inductive Flow where
  | next
  | cont
  | ret (v : Val)

/-- A variable comes into being. -/
def declare (x : Nat) (v : Val) (σ : St) : St := { σ with vars := (x, v) :: σ.vars }

/-- A value for a variable declared with this type. -/
def fits (ty : Nat) (v : Val) : Bool :=
  match v with
  | .bool _ => ty = (name% "bool") || ty = (name% "auto")
  | .int _ => ty = (name% "int") || ty = (name% "auto")
  | .size _ => ty = (name% "auto")
  | .vec _ => ty = (name% "auto")
  | _ => false

/-- `ty x(vs)`, or `ty x` -/
def create (ty x : Nat) (vs : List Val) (σ : St) : R (Flow × St) :=
  match vs with
  | [] =>
    if ty = (name% "string") then .done (.next, declare x (.str []) σ)
    else if ty = (name% "stat") then .done (.next, declare x .stat σ)
    else if ty = (name% "filebuf") then
      .done (.next, { declare x (.file σ.files.length) σ with files := σ.files ++ [.closed] })
    else .stuck
  | [.fileAddr n] =>
    if ty = (name% "istream") then .done (.next, declare x (.istream n true) σ)
    else if ty = (name% "ostream") then .done (.next, declare x (.ostream n) σ)
    else .stuck
  | _ => .stuck

/-- The end of a block, at the beginning of which there were `n` variables. -/
def leave (n : Nat) (σ : St) : St := { σ with vars := σ.vars.drop (σ.vars.length - n) }

/-- A loop: at most this many times the condition is computed. -/
def iterate (cond : St → R (Val × St)) (body : St → R (Flow × St)) : Nat → St → R (Flow × St)
  | 0, _ => .timeout
  | n + 1, σ => (cond σ).bind fun (v, σ) =>
    match v with
    | .bool false => .done (.next, σ)
    | .bool true => (body σ).bind fun (fl, σ) =>
      match fl with
      | .ret v => .done (.ret v, σ)
      | _ => iterate cond body n σ
    | _ => .stuck

/-- A statement. -/
def exec (E : Env) (n : Nat) : Stmt → St → R (Flow × St)
  | .skip, σ => .done (.next, σ)
  | .seq s t, σ => (exec E n s σ).bind fun (fl, σ) =>
    match fl with
    | .next => exec E n t σ
    | fl => .done (fl, σ)
  | .expr e, σ => (eval E e σ).bind fun (_, σ) => .done (.next, σ)
  | .decl ty x e, σ => (eval E e σ).bind fun (v, σ) =>
    if fits ty v then .done (.next, declare x v σ) else .stuck
  | .make ty x as, σ => (evalArgs E as σ).bind fun (vs, σ) => create ty x vs σ
  | .ret e, σ => (eval E e σ).bind fun (v, σ) => .done (.ret v, σ)
  | .cont, σ => .done (.cont, σ)
  | .block s, σ => (exec E n s σ).bind fun (fl, σ') => .done (fl, leave σ.vars.length σ')
  | .ite c s t, σ => (eval E c σ).bind fun (v, σ) =>
    match v with
    | .bool true => exec E n s σ
    | .bool false => exec E n t σ
    | _ => .stuck
  | .loop c s, σ => iterate (eval E c) (exec E n s) n σ
  | .tryCatch s _, σ => exec E n s σ

/-- The parameters of a function with their values. The types of references and pointers, and `int`. -/
def bindParams : List Param → List Val → Option (List (Nat × Val))
  | [], [] => some []
  | p :: ps, v :: vs =>
    match bindParams ps vs with
    | none => none
    | some l =>
      match p.how, v with
      | .ref, .file n => if p.ty = (name% "filebuf") then some ((p.name, .file n) :: l) else none
      | .value, .int n => if p.ty = (name% "int") then some ((p.name, .int n) :: l) else none
      | .pointers, .ptrs a => if p.ty = (name% "char") then some ((p.name, .ptrs a) :: l) else none
      | _, _ => none
  | _, _ => none

/-- A call of a function of the program. The local variables of the caller are not visible. -/
def callFun (E : Env) (n : Nat) (f : Fun) (vs : List Val) (σ : St) : R (Val × St) :=
  match bindParams f.params vs with
  | none => .stuck
  | some l => (exec E n f.body { σ with vars := l }).bind fun (fl, σ') =>
    let σ' := { σ' with vars := σ.vars }
    match fl with
    | .next => if f.ret = (name% "void") then .done (.void, σ') else .stuck
    | .ret (.int k) => if f.ret = (name% "int") then .done (.int k, σ') else .stuck
    | _ => .stuck

/-- The functions of a program, which call only those before them. -/
def program (split : List Byte → Byte → R (List (List Byte))) (n : Nat) :
    List Fun → Nat → List Val → St → R (Val × St)
  | [], _, _, _ => .stuck
  | f :: earlier, g, vs, σ =>
    if g = f.name then callFun ⟨program split n earlier, split⟩ n f vs σ else program split n earlier g vs σ

/-- What a run of a program leaves. -/
structure Left where
  exit : Int
  disk : Disk
  /-- what it has written to `cerr` -/
  err : List Byte

/-- Run the program `text` with these arguments, of which the first is its name. The array has a null pointer at its end. -/
def run (text : Cxx.Text) (split : List Byte → Byte → R (List (List Byte))) (n : Nat) (args : List (List Byte)) (d : Disk) :
    R Left :=
  match parse text with
  | none => .stuck
  | some fs => (program split n fs.reverse (name% "main") [.int args.length, .ptrs (args.map some ++ [none])]
      ⟨[], [], d, []⟩).bind fun (v, σ) =>
    match v with
    | .int k => .done ⟨k, σ.disk, σ.err⟩
    | _ => .stuck

end Ansak.Tool
