/-!
# Specification: UTF-8, UTF-16, ranges

Written from RFC 2279 (UTF-8 up to 31 bits), RFC 2781 (UTF-16) and the comments in
interface/string.hxx. Nothing here refers to the model of the code. Bytes and units are bit vectors,
characters are natural numbers.
-/

namespace Ansak.Spec

/-- U+D800..U+DFFF. -/
def Surrogate (v : Nat) : Prop := 0xD800 ≤ v ∧ v ≤ 0xDFFF
/-- U+D800..U+DBFF. -/
def HighSurrogate (v : Nat) : Prop := 0xD800 ≤ v ∧ v ≤ 0xDBFF
/-- U+DC00..U+DFFF. -/
def LowSurrogate (v : Nat) : Prop := 0xDC00 ≤ v ∧ v ≤ 0xDFFF

instance (v : Nat) : Decidable (Surrogate v) := by unfold Surrogate; infer_instance
instance (v : Nat) : Decidable (HighSurrogate v) := by unfold HighSurrogate; infer_instance
instance (v : Nat) : Decidable (LowSurrogate v) := by unfold LowSurrogate; infer_instance

/-- The Unicode scalar values without NUL. -/
def Scalar (v : Nat) : Prop := 1 ≤ v ∧ v ≤ 0x10FFFF ∧ ¬ Surrogate v

/-- The values that (31-bit) UTF-8 can encode inside a NUL-terminated string. -/
def Encodable (v : Nat) : Prop := 1 ≤ v ∧ v ≤ 0x7FFFFFFF ∧ ¬ Surrogate v

/-- The values UCS-2 can hold inside a NUL-terminated string. -/
def Bmp (v : Nat) : Prop := 1 ≤ v ∧ v ≤ 0xFFFF ∧ ¬ Surrogate v

instance (v : Nat) : Decidable (Scalar v) := by unfold Scalar; infer_instance
instance (v : Nat) : Decidable (Encodable v) := by unfold Encodable; infer_instance
instance (v : Nat) : Decidable (Bmp v) := by unfold Bmp; infer_instance

/-! ## UTF-8 -/

/-- RFC 2279 section 2: the shortest-form encoding of `v < 2^31`, as byte values. -/
def utf8Values (v : Nat) : List Nat :=
  if v < 0x80 then [v]
  else if v < 0x800 then [0xC0 + v / 0x40, 0x80 + v % 0x40]
  else if v < 0x10000 then [0xE0 + v / 0x1000, 0x80 + v / 0x40 % 0x40, 0x80 + v % 0x40]
  else if v < 0x200000 then
    [0xF0 + v / 0x40000, 0x80 + v / 0x1000 % 0x40, 0x80 + v / 0x40 % 0x40, 0x80 + v % 0x40]
  else if v < 0x4000000 then
    [0xF8 + v / 0x1000000, 0x80 + v / 0x40000 % 0x40, 0x80 + v / 0x1000 % 0x40,
     0x80 + v / 0x40 % 0x40, 0x80 + v % 0x40]
  else
    [0xFC + v / 0x40000000, 0x80 + v / 0x1000000 % 0x40, 0x80 + v / 0x40000 % 0x40,
     0x80 + v / 0x1000 % 0x40, 0x80 + v / 0x40 % 0x40, 0x80 + v % 0x40]

/-- The encoding of `v` as bytes. -/
def utf8 (v : Nat) : List (BitVec 8) := (utf8Values v).map (BitVec.ofNat 8)

/-- The character denoted by a surrogate pair (RFC 2781). -/
def pairValue (hi lo : Nat) : Nat := 0x10000 + (hi - 0xD800) * 0x400 + (lo - 0xDC00)

/-- `Utf8Char bs v`: the bytes `bs` are one accepted encoding of the character `v`. Either the
shortest form, or the two halves of a surrogate pair, each in its 3-byte form (the library
documents that it accepts both). -/
inductive Utf8Char : List (BitVec 8) → Nat → Prop
  | plain {v : Nat} : Encodable v → Utf8Char (utf8 v) v
  | pair {hi lo : Nat} : HighSurrogate hi → LowSurrogate lo →
      Utf8Char (utf8 hi ++ utf8 lo) (pairValue hi lo)

/-- `Utf8Text s vs`: the bytes `s` are a complete, well-formed encoding of the characters `vs`. -/
inductive Utf8Text : List (BitVec 8) → List Nat → Prop
  | nil : Utf8Text [] []
  | cons {bs s : List (BitVec 8)} {v : Nat} {vs : List Nat} :
      Utf8Char bs v → Utf8Text s vs → Utf8Text (bs ++ s) (v :: vs)

/-- The canonical encoding of a text: every character in shortest form. -/
def utf8Of (vs : List Nat) : List (BitVec 8) := vs.flatMap utf8

/-- `t` is an incomplete character: a non-empty proper prefix of an encoding whose character
satisfies `P`. -/
def Utf8Incomplete (P : Nat → Prop) (t : List (BitVec 8)) : Prop :=
  t ≠ [] ∧ ∃ bs v more, Utf8Char bs v ∧ P v ∧ more ≠ [] ∧ bs = t ++ more

/-! A wider notion of an incomplete character, which only looks at the kinds of bytes: it does not ask
whether the bytes could still be completed to the encoding of a character. -/

/-- `80..BF`. -/
def IsCont (b : BitVec 8) : Prop := 0x80 ≤ b.toNat ∧ b.toNat ≤ 0xBF

instance (b : BitVec 8) : Decidable (IsCont b) := inferInstanceAs (Decidable (_ ∧ _))

/-- The length of the sequence a first byte announces; 0 if it cannot start one of several bytes. -/
def announced (b : BitVec 8) : Nat :=
  if b.toNat < 0xC0 then 0
  else if b.toNat ≤ 0xDF then 2
  else if b.toNat ≤ 0xEF then 3
  else if b.toNat ≤ 0xF7 then 4
  else if b.toNat ≤ 0xFB then 5
  else if b.toNat ≤ 0xFD then 6
  else 0

/-- A first byte followed by fewer continuation bytes than it announces, or a high surrogate in
3-byte form followed by fewer than three bytes that do not rule out a second 3-byte form. -/
inductive Truncated : List (BitVec 8) → Prop
  | short {b : BitVec 8} {cs : List (BitVec 8)} : (∀ c ∈ cs, IsCont c) → cs.length + 1 < announced b →
      Truncated (b :: cs)
  | half0 {b c1 c2 : BitVec 8} : b.toNat = 0xED → 0xA0 ≤ c1.toNat → c1.toNat ≤ 0xAF → IsCont c2 →
      Truncated [b, c1, c2]
  | half1 {b c1 c2 c3 : BitVec 8} : b.toNat = 0xED → 0xA0 ≤ c1.toNat → c1.toNat ≤ 0xAF → IsCont c2 →
      0xE0 ≤ c3.toNat → c3.toNat ≤ 0xEF → Truncated [b, c1, c2, c3]
  | half2 {b c1 c2 c3 c4 : BitVec 8} : b.toNat = 0xED → 0xA0 ≤ c1.toNat → c1.toNat ≤ 0xAF → IsCont c2 →
      0xE0 ≤ c3.toNat → c3.toNat ≤ 0xEF → IsCont c4 → Truncated [b, c1, c2, c3, c4]

/-- `s` is well-formed text up to an optional truncated sequence at its end; the characters of the
text are `vs`, the truncated sequence (or nothing) is `t`. -/
def Utf8Reads (s : List (BitVec 8)) (vs : List Nat) (t : List (BitVec 8)) : Prop :=
  ∃ a, s = a ++ t ∧ Utf8Text a vs ∧ (t = [] ∨ Truncated t)

/-- The ways in which a byte string can be malformed at its first byte, whatever follows. -/
inductive Malformed : List (BitVec 8) → Prop
  /-- a continuation byte, FE or FF where a character should start -/
  | stray {b : BitVec 8} {s : List (BitVec 8)} :
      (IsCont b ∨ 0xFE ≤ b.toNat) → Malformed (b :: s)
  /-- a sequence broken off by something else than a continuation byte -/
  | broken {b c : BitVec 8} {cs s : List (BitVec 8)} : (∀ x ∈ cs, IsCont x) →
      cs.length + 1 < announced b → ¬ IsCont c → Malformed (b :: cs ++ c :: s)
  /-- a complete overlong sequence -/
  | overlong {b c : BitVec 8} {cs s : List (BitVec 8)} : (∀ x ∈ c :: cs, IsCont x) →
      cs.length + 2 = announced b →
      (b.toNat = 0xC0 ∨ b.toNat = 0xC1 ∨ (b.toNat = 0xE0 ∧ c.toNat < 0xA0) ∨
        (b.toNat = 0xF0 ∧ c.toNat < 0x90) ∨ (b.toNat = 0xF8 ∧ c.toNat < 0x88) ∨
        (b.toNat = 0xFC ∧ c.toNat < 0x84)) → Malformed (b :: c :: cs ++ s)
  /-- a low surrogate where a character should start -/
  | loneLow {b c1 c2 : BitVec 8} {s : List (BitVec 8)} : b.toNat = 0xED → 0xB0 ≤ c1.toNat →
      c1.toNat ≤ 0xBF → IsCont c2 → Malformed (b :: c1 :: c2 :: s)
  /-- a high surrogate followed by something that does not begin a low surrogate -/
  | loneHigh {b c1 c2 d : BitVec 8} {s : List (BitVec 8)} : b.toNat = 0xED → 0xA0 ≤ c1.toNat →
      c1.toNat ≤ 0xAF → IsCont c2 → ¬ (0xE0 ≤ d.toNat ∧ d.toNat ≤ 0xEF) →
      Malformed (b :: c1 :: c2 :: d :: s)
  /-- a high surrogate followed by a complete 3-byte sequence that is not a low surrogate -/
  | highOther {b c1 c2 d e1 e2 : BitVec 8} {s : List (BitVec 8)} : b.toNat = 0xED →
      0xA0 ≤ c1.toNat → c1.toNat ≤ 0xAF → IsCont c2 → IsCont e1 → IsCont e2 →
      ¬ (d.toNat = 0xED ∧ 0xB0 ≤ e1.toNat) →
      Malformed (b :: c1 :: c2 :: d :: e1 :: e2 :: s)
  /-- a high surrogate followed by a 3-byte sequence broken off by something else than a continuation
  byte -/
  | highBroken {b c1 c2 d e : BitVec 8} {cs s : List (BitVec 8)} : b.toNat = 0xED →
      0xA0 ≤ c1.toNat → c1.toNat ≤ 0xAF → IsCont c2 → 0xE0 ≤ d.toNat → d.toNat ≤ 0xEF →
      (∀ x ∈ cs, IsCont x) → cs.length < 2 → ¬ IsCont e →
      Malformed (b :: c1 :: c2 :: d :: cs ++ e :: s)

/-! ## UTF-16 -/

/-- RFC 2781 section 2.1: the encoding of `v ≤ 0x10FFFF`. -/
def utf16 (v : Nat) : List (BitVec 16) :=
  if v < 0x10000 then [BitVec.ofNat 16 v]
  else [BitVec.ofNat 16 (0xD800 + (v - 0x10000) / 0x400),
        BitVec.ofNat 16 (0xDC00 + (v - 0x10000) % 0x400)]

/-- The encoding of a text. -/
def utf16Of (vs : List Nat) : List (BitVec 16) := vs.flatMap utf16

/-- `t` is an incomplete UTF-16 character: one high surrogate. -/
def Utf16Incomplete (t : List (BitVec 16)) : Prop :=
  ∃ h : BitVec 16, t = [h] ∧ HighSurrogate h.toNat

/-! ## UCS-2 and UCS-4 -/

/-- The UCS-2 string with these values. -/
def ucs2Of (vs : List Nat) : List (BitVec 16) := vs.map (BitVec.ofNat 16)

/-- The UCS-4 string with these values. -/
def ucs4Of (vs : List Nat) : List (BitVec 32) := vs.map (BitVec.ofNat 32)

/-! ## Strings -/

/-- No unit of the string is NUL, so it is the text of the NUL-terminated buffer `s ++ [0]`. -/
def NulFree {w : Nat} (s : List (BitVec w)) : Prop := ∀ c ∈ s, c ≠ 0

/-- Checks the elements of the list (and not, as the default instance would, all bit vectors). -/
instance (priority := 2000) {w : Nat} (p : BitVec w → Prop) [DecidablePred p]
    (l : List (BitVec w)) : Decidable (∀ c ∈ l, p c) := List.decidableBAll p l

instance {w : Nat} (s : List (BitVec w)) : Decidable (NulFree s) := by
  unfold NulFree; infer_instance

/-- The text of a string that may contain NULs: the units before the first NUL. -/
def textOf {w : Nat} (s : List (BitVec w)) : List (BitVec w) := s.takeWhile (fun c => c != 0)

/-! ## Target ranges (interface/string.hxx:75-84) -/

/-- The six target ranges. -/
inductive Range | ascii | utf8 | ucs2 | utf16 | ucs4 | unicode
  deriving Repr, DecidableEq

/-- The values of a target range according to the comments at interface/string.hxx:76-81
(surrogates are in no range: they are not characters). -/
def Range.Has : Range → Nat → Prop
  | .ascii, v => v ≤ 0x7F
  | .utf8, v => v ≤ 0x7FFFFFFF ∧ ¬ Surrogate v
  | .ucs2, v => v ≤ 0xFFFF ∧ ¬ Surrogate v
  | .utf16, v => v ≤ 0x10FFFF ∧ ¬ Surrogate v
  | .ucs4, v => v ≤ 0xFFFFFFFF ∧ ¬ Surrogate v
  | .unicode, v => v ≤ 0x10FFFF ∧ ¬ Surrogate v

instance (r : Range) (v : Nat) : Decidable (r.Has v) := by
  cases r <;> unfold Range.Has <;> infer_instance

/-- The highest first byte in the UTF-8 encoding of a value of the range. -/
def Range.maxLead : Range → Nat
  | .ascii => 0x7F
  | .ucs2 => 0xEF
  | .utf16 => 0xF4
  | .unicode => 0xF4
  | .utf8 => 0xFD
  | .ucs4 => 0xFD

/-- The numerical value of the enumerator, interface/string.hxx:75-84. -/
def Range.code : Range → Int
  | .ascii => 0 | .utf8 => 1 | .ucs2 => 2 | .utf16 => 3 | .ucs4 => 4 | .unicode => 5

end Ansak.Spec
