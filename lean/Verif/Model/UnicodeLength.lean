import Verif.Model.StringIs

/-!
# Model of `unicodeLength` in source/string.cxx

The counter `r` and the lengths are `unsigned int`. The counter is carried as a natural number and
reduced modulo 2^32 where it is returned, which is what wrapping increments give.
-/

namespace Ansak

/-- The `unsigned int` with the value of the counter. -/
def uintOf (r : Nat) : U32 := BitVec.ofNat 32 r

/-- `a - b` on `unsigned int`. -/
def usub (a b : Nat) : Nat := (a + 4294967296 - b) % 4294967296

/-- source/string.cxx:765-835, the loop of `unicodeLength(const char*, unsigned int)`.
`pLast` is represented as in `isUtf8Loop`. -/
def unicodeLength8Loop (lengthTerminated : Bool) (p : List Byte) (lengthLeft pLast r : Nat) :
    Res U32 :=
  match p with
  | [] => .ub
  | b :: t =>
    if b = 0 then .ok (if lengthTerminated then 0 else uintOf r)
    else
      match seqCheckIf lengthTerminated (b :: t) lengthLeft with
      | .ub => .ub
      | .ok .outOfOrder => .ok 0
      | .ok .outOfSpace => .ok (uintOf r)
      | .ok (.go _) =>
        match _h : decodeUtf8 (b :: t) with
        | .ub => .ub
        | .ok (_, none) => .ok 0
        | .ok (c, some q) =>
          if kUnicodeFlag &&& getCharEncodableRangeFlags c.toNat = 0 then .ok 0
          else if c = 0 then
            (readAt q 0).bind fun b' => .ok (if b' = 0 then uintOf r - 1 else 0)
          else if lengthTerminated then
            let usedThisTime := (pLast - q.length) % 4294967296
            if lengthLeft = usedThisTime then .ok (uintOf (r + 1))
            else unicodeLength8Loop lengthTerminated q.tail (usub lengthLeft usedThisTime)
              q.length (r + 1)
          else unicodeLength8Loop lengthTerminated q.tail lengthLeft pLast (r + 1)
termination_by p.length
decreasing_by all_goals exact decodeUtf8_tail_lt _h

/-- source/string.cxx:749-836 `unicodeLength(const char*, unsigned int)`. -/
def unicodeLength8 (src : Ptr Byte) (testLength : U32) : Res U32 :=
  match src with
  | none => .ok 0
  | some p =>
    (readAt p 0).bind fun b =>
    if b = 0 then .ok 0
    else unicodeLength8Loop (testLength != 0) p testLength.toNat (p.length + 1) 0

/-- source/string.cxx:744-747 `unicodeLength(const std::string&)`. -/
def unicodeLength8S (src : List Byte) : Res U32 := unicodeLength8 (cStr src) 0

/-- source/string.cxx:897-911, the end of the loop body of `unicodeLength(const char16_t*, ...)`:
`pLast` is always the unit before the current character, so `usedThisTime` is 2 for a pair and 1
otherwise. `next` is the next iteration, run on the new value of `lengthLeft`. -/
def unicodeLength16Advance (lengthTerminated : Bool) (lengthLeft usedThisTime r : Nat)
    (next : Nat → Res U32) : Res U32 :=
  if lengthTerminated then
    if lengthLeft = usedThisTime then .ok (uintOf (r + 1)) else next (usub lengthLeft usedThisTime)
  else next lengthLeft

/-- source/string.cxx:857-914, the loop of `unicodeLength(const char16_t*, unsigned int)`.
`p[1]` is read unconditionally (line 877), so it is undefined behaviour if there is no further unit,
whatever `c` is. -/
def unicodeLength16Loop (lengthTerminated : Bool) : List U16 → Nat → Nat → Res U32
  | [], _, _ => .ub
  | c :: t, lengthLeft, r =>
    if c = 0 then .ok (if lengthTerminated then 0 else uintOf r)
    else if isSecondHalfUtf16 c.toNat then .ok 0
    else
      let isFirstHalf := isFirstHalfUtf16 c.toNat
      let wordsNeeded := if isFirstHalf then 2 else 1
      if lengthTerminated ∧ wordsNeeded > lengthLeft then .ok (uintOf r)
      else
        match t with
        | [] => .ub
        | c1 :: t' =>
          if isFirstHalf then
            if c1 = 0 then .ok (uintOf r - 1)
            else if isSecondHalfUtf16 c1.toNat then
              unicodeLength16Advance lengthTerminated lengthLeft 2 r fun left =>
                unicodeLength16Loop lengthTerminated t' left (r + 1)
            else .ok 0
          else
            unicodeLength16Advance lengthTerminated lengthLeft 1 r fun left =>
              unicodeLength16Loop lengthTerminated (c1 :: t') left (r + 1)

/-- source/string.cxx:847-915 `unicodeLength(const char16_t*, unsigned int)`. There is no check for
a null pointer: `*p` dereferences it. -/
def unicodeLength16 (src : Ptr U16) (testLength : U32) : Res U32 :=
  match src with
  | none => .ub
  | some p => unicodeLength16Loop (testLength != 0) p testLength.toNat 0

/-- source/string.cxx:842-845 `unicodeLength(const utf16String&)`. -/
def unicodeLength16S (src : List U16) : Res U32 := unicodeLength16 (cStr src) 0

/-- source/string.cxx:932-945, the loop of `unicodeLength(const char32_t*, unsigned int)`. `r` is also
`p - src`, so `p + 1 == src + testLength` is `r + 1 = testLength`. -/
def unicodeLength32Loop (lengthTerminated : Bool) (testLength : Nat) : List U32 → Nat → Res U32
  | [], _ => .ub
  | c :: p, r =>
    if c = 0 then .ok (if lengthTerminated then 0 else uintOf r)
    else if isFirstHalfUtf16 c.toNat ∨ isSecondHalfUtf16 c.toNat then .ok 0
    else if lengthTerminated ∧ r + 1 = testLength then .ok (uintOf (r + 1))
    else unicodeLength32Loop lengthTerminated testLength p (r + 1)

/-- source/string.cxx:926-946 `unicodeLength(const char32_t*, unsigned int)`. There is no check for
a null pointer: `*p` dereferences it. -/
def unicodeLength32 (src : Ptr U32) (testLength : U32) : Res U32 :=
  match src with
  | none => .ub
  | some p => unicodeLength32Loop (testLength != 0) testLength.toNat p 0

/-- source/string.cxx:921-924 `unicodeLength(const ucs4String&)`. -/
def unicodeLength32S (src : List U32) : Res U32 := unicodeLength32 (cStr src) 0

end Ansak
