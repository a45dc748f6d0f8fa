import Verif.Spec.Utf8

/-!
# Specification: what a length-terminated UTF-8 scan looks at when no character starts

These notions describe, in terms of the bytes alone, what the length-terminated functions base their
decision on; they are used to say exactly where these functions deviate from the NUL-terminated ones.
-/

namespace Ansak.Spec

/-- `ED` followed by a byte whose low six bits make it look like the start of a low surrogate in
3-byte form. (The byte is not checked to be a continuation byte.) -/
def LooksLow : List (BitVec 8) → Prop
  | b :: c :: _ => b.toNat = 0xED ∧ 0x30 ≤ c.toNat % 0x40
  | _ => False

/-- At least three bytes, `ED` followed by a byte whose low six bits make it look like the start of a
high surrogate in 3-byte form. -/
def LooksHigh : List (BitVec 8) → Prop
  | b :: c :: _ :: _ => b.toNat = 0xED ∧ 0x20 ≤ c.toNat % 0x40 ∧ c.toNat % 0x40 < 0x30
  | _ => False

instance (t : List (BitVec 8)) : Decidable (LooksLow t) := by
  unfold LooksLow; split <;> infer_instance
instance (t : List (BitVec 8)) : Decidable (LooksHigh t) := by
  unfold LooksHigh; split <;> infer_instance

/-- The number of bytes that are expected to be there: six for what looks like a high surrogate, the
announced number for other first bytes, and a huge number for bytes that cannot be first bytes. -/
def wanted : List (BitVec 8) → Nat
  | [] => 0
  | b :: t =>
    if LooksHigh (b :: t) then 6
    else if b.toNat < 0x80 then 1
    else if announced b = 0 then 0xFFFFFFFF
    else announced b

/-- No character starts here. -/
def NoChar (t : List (BitVec 8)) : Prop := ¬ ∃ bs v rest, t = bs ++ rest ∧ Utf8Char bs v

/-- The bytes break off at a NUL inside a truncated sequence. -/
def CutByNul (t : List (BitVec 8)) : Prop := ∃ u w, t = u ++ 0 :: w ∧ Truncated u

/-- The tails a length-terminated validation accepts: a first byte with fewer bytes left than wanted
(whatever these bytes are), or a sequence broken off by a NUL. -/
def TailOk (t : List (BitVec 8)) : Prop :=
  ∃ b t', t = b :: t' ∧ 0xC0 ≤ b.toNat ∧ b.toNat ≤ 0xFD ∧ ¬ LooksLow t ∧
    (t.length < wanted t ∨ CutByNul t)

/-- What a length-terminated count makes of the `n` characters it has found and of the rest `t`, at which no character
starts: `n` if nothing is left or the rest is too short for its first byte (whatever the bytes are), one less if the rest is
broken off by a NUL, and 0 in the other cases. -/
def CountWithRest (n : Nat) (t : List (BitVec 8)) (r : BitVec 32) : Prop :=
  (t = [] → r = BitVec.ofNat 32 n) ∧
  (t.head? = some 0 ∨ LooksLow t → r = 0) ∧
  (t ≠ [] → t.head? ≠ some 0 → ¬ LooksLow t → t.length < wanted t → r = BitVec.ofNat 32 n) ∧
  (t ≠ [] → t.head? ≠ some 0 → ¬ LooksLow t → ¬ t.length < wanted t → CutByNul t → r = BitVec.ofNat 32 n - 1) ∧
  (t ≠ [] → t.head? ≠ some 0 → ¬ LooksLow t → ¬ t.length < wanted t → ¬ CutByNul t → r = 0)

/-- No character of UTF-16 starts here. -/
def NoChar16 (t : List (BitVec 16)) : Prop := ¬ ∃ v rest, Scalar v ∧ t = utf16 v ++ rest

/-- The same for UTF-16: a high surrogate at the end is ignored, one before a NUL takes one off the count, and everything else
makes it 0. -/
def CountWithRest16 (n : Nat) (t : List (BitVec 16)) (r : BitVec 32) : Prop :=
  (t = [] ∨ Utf16Incomplete t → r = BitVec.ofNat 32 n) ∧
  (∀ h w, HighSurrogate h.toNat → t = h :: 0 :: w → r = BitVec.ofNat 32 n - 1) ∧
  (t ≠ [] → ¬ Utf16Incomplete t → (¬ ∃ h w, HighSurrogate h.toNat ∧ t = h :: 0 :: w) → r = 0)

/-- `p` ends with a byte `E0..EF` and one more byte: the start of a three-byte character. -/
def EndsInThree (p : List (BitVec 8)) : Prop :=
  ∃ pre b c, p = pre ++ [b, c] ∧ 0xE0 ≤ b.toNat ∧ b.toNat ≤ 0xEF

/-- `p` ends with a unit that is not half of a surrogate pair. -/
def EndsInUnit (p : List (BitVec 16)) : Prop := ∃ pre c, p = pre ++ [c] ∧ ¬ Surrogate c.toNat

end Ansak.Spec
