/-!
# C++ source text: lines and tokens

The tables of `source/bits7 .. bits16` are not only translated (`Verif.Model.Unicode.Bits*`). Their source text
is part of the model as well: `Verif.Model.Cxx.Source*` holds the twenty files, and this directory says
how such a text is read (`Lex`, `Parse`) and what it does when it runs (`Sem`), for the part of C++ that the
files use. Everything else is not read: it becomes the token `bad`, which no rule of the syntax allows.

A line is kept as a list of numbers. The base-256 digits of such a number are up to eight characters, the first
one lowest: this is what Lean's kernel computes with fastest.
-/

namespace Ansak.Cxx

/-- The number for at most eight characters. -/
def chunkNumber (s : String) : Nat := s.toUTF8.toList.foldr (fun b n => n * 256 + b.toNat) 0

/-- `line% "text"` is the list of the numbers for a line. -/
macro "line% " s:str : term => do
  let l := s.getString
  let chunks ← (List.range ((l.length + 7) / 8)).mapM fun i =>
    let n := Lean.Syntax.mkNumLit (toString (chunkNumber ((l.drop (8 * i)).take 8).toString))
    `(nat_lit $n)
  `([$chunks.toArray,*])

/-- A text is a list of lines. -/
abbrev Text := List (List Nat)

/-- `cxx% "text"` is the list of the lines of the text. -/
macro "cxx% " s:str : term => do
  let lines ← (s.getString.splitOn "\n").mapM fun l => `(line% $(Lean.quote l))
  `([$lines.toArray,*])

/-- Identifiers and strings are numbers as well, with the first character highest. -/
def nameNumber (s : String) : Nat := s.toUTF8.toList.foldl (fun n b => n * 256 + b.toNat) 0

/-- `name% "text"` is the number for an identifier or string. -/
macro "name% " s:str : term =>
  let n := Lean.Syntax.mkNumLit (toString (nameNumber s.getString))
  `(nat_lit $n)

/-- A set of characters below 128, as a number whose bits are its members. -/
def setNumber (s : String) : Nat := s.toList.foldl (fun n c => n ||| 1 <<< c.toNat) 0

/-- `chars% "text"` is the set of the characters of the text. -/
macro "chars% " s:str : term =>
  let n := Lean.Syntax.mkNumLit (toString (setNumber s.getString))
  `(nat_lit $n)

/-- Types. `uint8_t` is `unsigned char`. -/
inductive Ty where
  | bool
  | char
  | uchar
  | c16
  | c32
  | int
  | uint

/-- The binary operators. -/
inductive BinOp where
  | or | and | bitOr | bitAnd | eq | ne | lt | gt | le | ge | shr | add

/-- A token of C++. -/
inductive Tok where
  /-- an identifier -/
  | id (n : Nat)
  | num (n : Nat)
  | str (n : Nat)
  /-- a binary operator with its precedence, the loosest has 0 -/
  | op (level : Nat) (o : BinOp)
  /-- other operators and punctuation, and the words `return`, `break`, ... -/
  | key (n : Nat)
  /-- the words `bool`, `char`, `char16_t`, `char32_t`, `uint8_t`, `int`, and `unsigned` as `uint` -/
  | ty (t : Ty)
  /-- something else -/
  | bad

/-- Is `n` one of these numbers? -/
def oneOf (n : Nat) : List Nat → Bool
  | [] => false
  | k :: ks => bif Nat.beq n k then true else oneOf n ks

/-- The token for a word. -/
def word (n : Nat) : Tok :=
  bif Nat.beq n (name% "bool") then .ty .bool
  else bif Nat.beq n (name% "char") then .ty .char
  else bif Nat.beq n (name% "char16_t") then .ty .c16
  else bif Nat.beq n (name% "char32_t") then .ty .c32
  else bif Nat.beq n (name% "uint8_t") then .ty .uchar
  else bif Nat.beq n (name% "int") then .ty .int
  else bif Nat.beq n (name% "unsigned") then .ty .uint
  else bif oneOf n [name% "return", name% "break", name% "if", name% "else", name% "switch", name% "case",
    name% "default", name% "auto", name% "static_cast", name% "true", name% "false", name% "namespace",
    name% "using", name% "const"] then .key n
  else .id n

/-- The token for an operator or punctuation. -/
def symbol (n : Nat) : Tok :=
  bif Nat.beq n (name% "||") then .op 0 .or
  else bif Nat.beq n (name% "&&") then .op 1 .and
  else bif Nat.beq n (name% "|") then .op 2 .bitOr
  else bif Nat.beq n (name% "&") then .op 3 .bitAnd
  else bif Nat.beq n (name% "==") then .op 4 .eq
  else bif Nat.beq n (name% "!=") then .op 4 .ne
  else bif Nat.beq n (name% "<") then .op 5 .lt
  else bif Nat.beq n (name% ">") then .op 5 .gt
  else bif Nat.beq n (name% "<=") then .op 5 .le
  else bif Nat.beq n (name% ">=") then .op 5 .ge
  else bif Nat.beq n (name% ">>") then .op 6 .shr
  else bif Nat.beq n (name% "+") then .op 7 .add
  else bif oneOf n [name% "(", name% ")", name% "{", name% "}", name% ":", name% ";", name% "?", name% "!",
    name% "~", name% "=", name% "&="] then .key n
  else .bad

/-- Is the character in the set? -/
def within (set c : Nat) : Bool := Nat.beq (Nat.land (Nat.shiftRight set c) (nat_lit 1)) (nat_lit 1)

/-- Digits. -/
def isDigit (c : Nat) : Bool := within (chars% "0123456789") c

/-- Letters, digits and `_`. -/
def isWord (c : Nat) : Bool :=
  within (chars% "0123456789ABCDEFGHIJKLMNOPQRSTUVWXYZ_abcdefghijklmnopqrstuvwxyz") c

/-- Hexadecimal digits. -/
def isHex (c : Nat) : Bool := within (chars% "0123456789ABCDEFabcdef") c

/-- The value of a hexadecimal digit: the lower half of its code, 9 more for letters. -/
def hexDigit (c : Nat) : Nat := Nat.add (Nat.land c (nat_lit 15)) (Nat.mul (nat_lit 9) (Nat.div c (nat_lit 0x40)))

/-- The characters that may begin an operator of two characters. -/
def isDouble (c : Nat) : Bool := within (chars% "&|<>=!") c

/-- The characters that may end one. -/
def isSecond (c : Nat) : Bool := within (chars% "&|<>=") c

/-- What the lexer is in the middle of. -/
inductive Mode where
  /-- nothing -/
  | start
  /-- a word -/
  | word (n : Nat)
  /-- a number of which only the digit `0` has been seen -/
  | zero
  /-- a decimal number -/
  | dec (n : Nat)
  /-- `0x`, or a hexadecimal number -/
  | hex (digits : Bool) (n : Nat)
  /-- an operator of one character that may turn out to have two -/
  | sym (n : Nat)
  /-- `/` -/
  | slash
  /-- a string -/
  | str (n : Nat)
  /-- a comment or a preprocessor directive: the rest of the line -/
  | rest

/-- `force n k` is `k n`. In this form Lean's kernel computes `n` before it goes on. -/
def force {α : Type} (n : Nat) (k : Nat → α) : α := Nat.casesOn n (k (nat_lit 0)) fun m => k (Nat.succ m)

/-- A character that does not belong to the token before it: the tokens, given those (`k`) that follow from the
mode after it. -/
def begin_ (c : Nat) (k : Mode → List Tok) : List Tok :=
  bif Nat.beq c (name% " ") then k .start
  else bif isDigit c then (bif Nat.beq c (name% "0") then k .zero else k (.dec (hexDigit c)))
  else bif isWord c then k (.word c)
  else bif isDouble c then k (.sym c)
  else bif Nat.beq c (name% "/") then k .slash
  else bif Nat.beq c (name% "#") then k .rest
  else bif Nat.beq c (name% "\"") then k (.str (nat_lit 0))
  else symbol c :: k .start

/-- The token that is complete if the lexer is in this mode and the next character, or the end of the line, does
not belong to it; then the tokens `ts`. -/
def finish (m : Mode) (ts : List Tok) : List Tok :=
  match m with
  | .start => ts
  | .word n => Cxx.word n :: ts
  | .zero => .num (nat_lit 0) :: ts
  | .dec n => .num n :: ts
  | .hex digits n => bif digits then .num n :: ts else .bad :: ts
  | .sym n => symbol n :: ts
  | .slash => .bad :: ts
  | .str _ => .bad :: ts
  | .rest => ts

/-- One character `c` in mode `m`: the tokens, given those (`k`) that follow from the mode after it. -/
def step (c : Nat) (m : Mode) (k : Mode → List Tok) : List Tok :=
  match m with
  | .start => begin_ c k
  | .word n =>
    bif isWord c then force (Nat.add (Nat.mul n (nat_lit 256)) c) fun n => k (.word n)
    else finish (.word n) (begin_ c k)
  | .zero =>
    bif within (chars% "xX") c then k (.hex false (nat_lit 0))
    else bif isWord c then .bad :: k .start
    else finish .zero (begin_ c k)
  | .dec n =>
    bif isDigit c then force (Nat.add (Nat.mul n (nat_lit 10)) (hexDigit c)) fun n => k (.dec n)
    else bif isWord c then .bad :: k .start
    else finish (.dec n) (begin_ c k)
  | .hex digits n =>
    bif isHex c then force (Nat.add (Nat.mul n (nat_lit 16)) (hexDigit c)) fun n => k (.hex true n)
    else bif isWord c then .bad :: k .start
    else finish (.hex digits n) (begin_ c k)
  | .sym n =>
    bif isSecond c then symbol (Nat.add (Nat.mul n (nat_lit 256)) c) :: k .start
    else finish (.sym n) (begin_ c k)
  | .slash => bif Nat.beq c (name% "/") then k .rest else .bad :: k .start
  | .str n =>
    bif Nat.beq c (name% "\"") then .str n :: k .start
    else bif Nat.beq c (name% "\\") then .bad :: k .start
    else force (Nat.add (Nat.mul n (nat_lit 256)) c) fun n => k (.str n)
  | .rest => bif Nat.beq c (name% "\\") then .bad :: k .start else k .rest

/-- The tokens of at most `fuel` characters in mode `m`, given those (`k`) that follow from the mode after
them. -/
def lexChunk : Nat → Nat → Mode → (Mode → List Tok) → List Tok
  | 0, text, m, k => bif Nat.beq text (nat_lit 0) then k m else .bad :: k .start
  | fuel + 1, text, m, k =>
    bif Nat.beq text (nat_lit 0) then k m
    else force (Nat.mod text (nat_lit 256)) fun c => force (Nat.div text (nat_lit 256)) fun text =>
      step c m fun m => lexChunk fuel text m k

/-- The tokens of a line from mode `m`. -/
def lexLine : List Nat → Mode → List Tok
  | [], m => finish m []
  | c :: cs, m => lexChunk (nat_lit 8) c m (lexLine cs)

/-- The tokens of a text. -/
def lex : Text → List Tok
  | [] => []
  | l :: ls => lexLine l .start ++ lex ls

end Ansak.Cxx
