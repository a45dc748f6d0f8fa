import Verif.Model.Cxx.Lex

/-!
# The C++ of the library: tokens

The lexer for the files of the library other than the character tables. It reads the same form of text as
`Verif.Model.Cxx.Lex` and works in the same way.
-/

namespace Ansak.Cpp

open Cxx (Text within isDigit isWord isHex hexDigit force oneOf)

/-- A token of C++. -/
inductive Tok where
  /-- a word -/
  | id (n : Nat)
  /-- a number; one that needs 32 bits was hexadecimal -/
  | num (n : Nat)
  /-- a character in quotes -/
  | chr (n : Nat)
  /-- a string in quotes with its prefix (0 if there is none) and its characters -/
  | str (pre : Nat) (cs : List Nat)
  /-- operators and punctuation -/
  | sym (n : Nat)
  /-- something else -/
  | bad

/-- What the lexer is in the middle of. -/
inductive Mode where
  /-- nothing -/
  | start
  /-- a word -/
  | word (n : Nat)
  /-- a number of which only the digit `0` has been seen -/
  | zero
  /-- a decimal number -/
  | dec (n : Nat)
  /-- `0x`, or a hexadecimal number -/
  | hex (digits : Bool) (n : Nat)
  /-- an operator of one character that may turn out to have two -/
  | sym (n : Nat)
  /-- `/` -/
  | slash
  /-- a character literal, after the first quote -/
  | chr
  /-- a character literal, after the backslash -/
  | escape
  /-- a character literal that has to be closed -/
  | close (n : Nat)
  /-- a string literal with its prefix and its characters, the last one first -/
  | str (pre : Nat) (cs : List Nat)
  /-- a string literal, after a backslash -/
  | strEscape (pre : Nat) (cs : List Nat)
  /-- a string literal, in the digits of `\x` -/
  | strHex (pre : Nat) (cs : List Nat) (digits : Bool) (n : Nat)
  /-- a string literal, in the digits of `\u` or `\U`, of which `k` are missing -/
  | strCode (pre : Nat) (cs : List Nat) (k n : Nat)
  /-- a comment or a preprocessor directive: the rest of the line -/
  | rest
  /-- a comment in `/* */` -/
  | comment
  /-- such a comment, after a `*` -/
  | star

/-- The operators of two characters. -/
def isPair (n : Nat) : Bool :=
  oneOf n [name% "&&", name% "||", name% "==", name% "!=", name% "<=", name% ">=", name% "<<", name% ">>",
    name% "++", name% "--", name% "+=", name% "-=", name% "&=", name% "|=", name% "::"]

/-- A character that does not belong to the token before it: the tokens, given those (`k`) that follow from the
mode after it. -/
def begin_ (c : Nat) (k : Mode → List Tok) : List Tok :=
  bif Nat.beq c (name% " ") then k .start
  else bif isDigit c then (bif Nat.beq c (name% "0") then k .zero else k (.dec (hexDigit c)))
  else bif isWord c then k (.word c)
  else bif within (chars% "&|<>=!+-:") c then k (.sym c)
  else bif within (chars% "(){}[];,.?~*%") c then .sym c :: k .start
  else bif Nat.beq c (name% "/") then k .slash
  else bif Nat.beq c (name% "#") then k .rest
  else bif Nat.beq c (name% "'") then k .chr
  else bif Nat.beq c (name% "\"") then k (.str (nat_lit 0) [])
  else .bad :: k .start

/-- The token that is complete if the lexer is in this mode and the next character, or the end of the line, does
not belong to it; then the tokens `ts`. -/
def finish (m : Mode) (ts : List Tok) : List Tok :=
  match m with
  | .start => ts
  | .word n => .id n :: ts
  | .zero => .num (nat_lit 0) :: ts
  | .dec n => bif Nat.blt n (nat_lit 2147483648) then .num n :: ts else .bad :: ts
  | .hex digits n => bif digits then .num n :: ts else .bad :: ts
  | .sym n => .sym n :: ts
  | .rest => ts
  | _ => .bad :: ts

/-- The greatest code unit that a string literal with this prefix can have, and one more. Without a prefix only ASCII
characters are read here. -/
def unitLimit (pre : Nat) : Nat :=
  bif Nat.beq pre (nat_lit 0) then nat_lit 128
  else bif Nat.beq pre (name% "u") then nat_lit 65536
  else nat_lit 4294967296

/-- A string literal goes on after the code unit `n`. -/
def strUnit (pre : Nat) (cs : List Nat) (n : Nat) (k : Mode → List Tok) : List Tok :=
  bif Nat.blt n (unitLimit pre) then k (.str pre (n :: cs)) else .bad :: k .start

/-- One character `c` in a string literal. -/
def strChar (pre : Nat) (cs : List Nat) (c : Nat) (k : Mode → List Tok) : List Tok :=
  bif Nat.beq c (name% "\"") then .str pre cs.reverse :: k .start
  else bif Nat.beq c (name% "\\") then k (.strEscape pre cs)
  else strUnit pre cs c k

/-- One character `c` in mode `m`: the tokens, given those (`k`) that follow from the mode after it. -/
def step (c : Nat) (m : Mode) (k : Mode → List Tok) : List Tok :=
  match m with
  | .start => begin_ c k
  | .word n =>
    bif isWord c then force (Nat.add (Nat.mul n (nat_lit 256)) c) fun n => k (.word n)
    else bif Nat.beq c (name% "\"") then (bif oneOf n [name% "u", name% "U"] then k (.str n []) else .bad :: k .start)
    else finish (.word n) (begin_ c k)
  | .zero =>
    bif within (chars% "xX") c then k (.hex false (nat_lit 0))
    else bif isWord c then .bad :: k .start
    else finish .zero (begin_ c k)
  | .dec n =>
    bif isDigit c then force (Nat.add (Nat.mul n (nat_lit 10)) (hexDigit c)) fun n => k (.dec n)
    else bif isWord c then .bad :: k .start
    else finish (.dec n) (begin_ c k)
  | .hex digits n =>
    bif isHex c then force (Nat.add (Nat.mul n (nat_lit 16)) (hexDigit c)) fun n => k (.hex true n)
    else bif isWord c then .bad :: k .start
    else finish (.hex digits n) (begin_ c k)
  | .sym n =>
    force (Nat.add (Nat.mul n (nat_lit 256)) c) fun nc =>
      bif isPair nc then .sym nc :: k .start else finish (.sym n) (begin_ c k)
  | .slash =>
    bif Nat.beq c (name% "/") then k .rest
    else bif Nat.beq c (name% "*") then k .comment
    else .bad :: k .start
  | .chr =>
    bif Nat.beq c (name% "\\") then k .escape
    else bif Nat.beq c (name% "'") then .bad :: k .start
    else k (.close c)
  | .escape => bif Nat.beq c (name% "0") then k (.close (nat_lit 0)) else .bad :: k .start
  | .close n => bif Nat.beq c (name% "'") then .chr n :: k .start else .bad :: k .start
  | .str pre cs => strChar pre cs c k
  | .strEscape pre cs =>
    bif Nat.beq c (name% "x") then k (.strHex pre cs false (nat_lit 0))
    -- a character with a code above ASCII would be encoded if there is no prefix
    else bif Nat.beq c (name% "u") then k (.strCode pre cs (nat_lit 4) (nat_lit 0))
    else bif Nat.beq c (name% "U") then k (.strCode pre cs (nat_lit 8) (nat_lit 0))
    else .bad :: k .start
  | .strHex pre cs digits n =>
    bif isHex c then force (Nat.add (Nat.mul n (nat_lit 16)) (hexDigit c)) fun n => k (.strHex pre cs true n)
    else bif digits then strUnit pre cs n fun m =>
      match m with
      | .str pre cs => strChar pre cs c k
      | m => k m
    else .bad :: k .start
  | .strCode pre cs j n =>
    bif isHex c then
      force (Nat.add (Nat.mul n (nat_lit 16)) (hexDigit c)) fun n => force (Nat.sub j (nat_lit 1)) fun j =>
        bif Nat.beq j (nat_lit 0) then strUnit pre cs n k else k (.strCode pre cs j n)
    else .bad :: k .start
  | .rest => bif Nat.beq c (name% "\\") then .bad :: k .start else k .rest
  | .comment => bif Nat.beq c (name% "*") then k .star else k .comment
  | .star =>
    bif Nat.beq c (name% "/") then k .start
    else bif Nat.beq c (name% "*") then k .star
    else k .comment

/-- The tokens of at most `fuel` characters in mode `m`, given those (`k`) that follow from the mode after
them. -/
def lexChunk : Nat → Nat → Mode → (Mode → List Tok) → List Tok
  | 0, text, m, k => bif Nat.beq text (nat_lit 0) then k m else .bad :: k .start
  | fuel + 1, text, m, k =>
    bif Nat.beq text (nat_lit 0) then k m
    else force (Nat.mod text (nat_lit 256)) fun c => force (Nat.div text (nat_lit 256)) fun text =>
      step c m fun m => lexChunk fuel text m k

/-- The end of a line: only a comment in `/* */` goes on. -/
def endLine (m : Mode) (k : Mode → List Tok) : List Tok :=
  match m with
  | .comment => k .comment
  | .star => k .comment
  | m => finish m (k .start)

/-- The tokens of a line from mode `m`. -/
def lexLine : List Nat → Mode → (Mode → List Tok) → List Tok
  | [], m, k => endLine m k
  | c :: cs, m, k => lexChunk (nat_lit 8) c m fun m => lexLine cs m k

/-- The tokens of a text from mode `m`. -/
def lexFrom : Text → Mode → List Tok
  | [], m => finish m []
  | l :: ls, m => lexLine l m (lexFrom ls)

/-- The tokens of a text. -/
def lex (text : Text) : List Tok := lexFrom text .start

end Ansak.Cpp
