import Verif.Model.DecodeUtf8

/-!
# Model of the conversions in source/string.cxx

Each loop carries `result`, the string built so far; `push_back` appends at the end. Returning a
freshly constructed string is returning `[]`.
-/

namespace Ansak

/-- source/string.cxx:74-85 `isUtf16Encodable` for `char32_t`. -/
def isUtf16Encodable (c : Nat) : Bool :=
  decide (c ≤ 0x10ffff) && decide (c &&& 0xffe00000 = 0)

/-- `if (src && *src) loop(src)`, otherwise the empty result: the frame of every conversion. -/
def ifNonEmpty {w : Nat} {β : Type} (src : Ptr (BitVec w))
    (loop : List (BitVec w) → Res (List β)) : Res (List β) :=
  match src with
  | none => .ok []
  | some p => (readAt p 0).bind fun b => if b = 0 then .ok [] else loop p

/-! ## To UTF-8 -/

/-- source/string.cxx:493-510, the loop of `toUtf8(const char16_t*)`. -/
def toUtf8From16Loop : List U16 → List Byte → Res (List Byte)
  | [], _ => .ub
  | c :: p, result =>
    if c = 0 then .ok result
    else if isFirstHalfUtf16 c.toNat then
      match p with
      | [] => .ub
      | c1 :: p' =>
        if c1 = 0 then .ok result
        else if ¬ isSecondHalfUtf16 c1.toNat then .ok []
        else toUtf8From16Loop p' (result ++ encodeUtf8 (rawDecodeUtf16 c c1).toNat)
    else toUtf8From16Loop p (result ++ encodeUtf8 c.toNat)

/-- source/string.cxx:487-514 `toUtf8(const char16_t*)`. -/
def toUtf8From16 (src : Ptr U16) : Res (List Byte) :=
  ifNonEmpty src fun p => toUtf8From16Loop p []

/-- source/string.cxx:516-519 `toUtf8(const utf16String&)`. -/
def toUtf8From16S (src : List U16) : Res (List Byte) := toUtf8From16 (cStr src)

/-- source/string.cxx:529-540, the loop of `toUtf8(const char32_t*)`. -/
def toUtf8From32Loop : List U32 → List Byte → Res (List Byte)
  | [], _ => .ub
  | c :: p, result =>
    if c = 0 then .ok result
    else if c.toNat &&& 0x80000000 = 0 ∧ ¬ isFirstHalfUtf16 c.toNat ∧ ¬ isSecondHalfUtf16 c.toNat then
      toUtf8From32Loop p (result ++ encodeUtf8 c.toNat)
    else .ok []

/-- source/string.cxx:523-544 `toUtf8(const char32_t*)`. -/
def toUtf8From32 (src : Ptr U32) : Res (List Byte) :=
  ifNonEmpty src fun p => toUtf8From32Loop p []

/-- source/string.cxx:546-549 `toUtf8(const ucs4String&)`. -/
def toUtf8From32S (src : List U32) : Res (List Byte) := toUtf8From32 (cStr src)

/-! ## To UCS-2 -/

/-- source/string.cxx:560-572, the loop of `toUcs2(const char*)`. -/
def toUcs2From8Loop (p : List Byte) (result : List U16) : Res (List U16) :=
  match p with
  | [] => .ub
  | b :: t =>
    if b = 0 then .ok result
    else
      match _h : decodeUtf8 (b :: t) with
      | .ub => .ub
      | .ok (_, none) => .ok []
      | .ok (c, some q) =>
        if c.toNat > 0xffff then .ok []
        else if c = 0 then .ok result
        else toUcs2From8Loop q.tail (result ++ [BitVec.ofNat 16 c.toNat])
termination_by p.length
decreasing_by exact decodeUtf8_tail_lt _h

/-- source/string.cxx:555-576 `toUcs2(const char*)`. -/
def toUcs2From8 (src : Ptr Byte) : Res (List U16) :=
  ifNonEmpty src fun p => toUcs2From8Loop p []

/-- source/string.cxx:578-581 `toUcs2(const string&)`. -/
def toUcs2From8S (src : List Byte) : Res (List U16) := toUcs2From8 (cStr src)

/-- source/string.cxx:590-597, the loop of `toUcs2(const char32_t*)`. -/
def toUcs2From32Loop : List U32 → List U16 → Res (List U16)
  | [], _ => .ub
  | c :: p, result =>
    if c = 0 then .ok result
    else if isFirstHalfUtf16 c.toNat ∨ isSecondHalfUtf16 c.toNat ∨ c.toNat ≥ 0x10000 then .ok []
    else toUcs2From32Loop p (result ++ [BitVec.ofNat 16 c.toNat])

/-- source/string.cxx:585-601 `toUcs2(const char32_t*)`. -/
def toUcs2From32 (src : Ptr U32) : Res (List U16) :=
  ifNonEmpty src fun p => toUcs2From32Loop p []

/-- source/string.cxx:603-606 `toUcs2(const ucs4String&)`. -/
def toUcs2From32S (src : List U32) : Res (List U16) := toUcs2From32 (cStr src)

/-! ## To UTF-16 -/

/-- source/string.cxx:618-630, the loop of `toUtf16(const char*)`. -/
def toUtf16From8Loop (p : List Byte) (result : List U16) : Res (List U16) :=
  match p with
  | [] => .ub
  | b :: t =>
    if b = 0 then .ok result
    else
      match _h : decodeUtf8 (b :: t) with
      | .ub => .ub
      | .ok (_, none) => .ok []
      | .ok (c, some q) =>
        if ¬ isUtf16Encodable c.toNat then .ok []
        else if c = 0 then .ok result
        else toUtf16From8Loop q.tail (result ++ rawEncodeUtf16 c.toNat)
termination_by p.length
decreasing_by exact decodeUtf8_tail_lt _h

/-- source/string.cxx:612-634 `toUtf16(const char*)`. -/
def toUtf16From8 (src : Ptr Byte) : Res (List U16) :=
  ifNonEmpty src fun p => toUtf16From8Loop p []

/-- source/string.cxx:636-639 `toUtf16(const string&)`. -/
def toUtf16From8S (src : List Byte) : Res (List U16) := toUtf16From8 (cStr src)

/-- source/string.cxx:649-658, the loop of `toUtf16(const char32_t*)`. -/
def toUtf16From32Loop : List U32 → List U16 → Res (List U16)
  | [], _ => .ub
  | c :: p, result =>
    if c = 0 then .ok result
    else if ¬ isUtf16Encodable c.toNat ∨ isFirstHalfUtf16 c.toNat ∨ isSecondHalfUtf16 c.toNat then
      .ok []
    else toUtf16From32Loop p (result ++ rawEncodeUtf16 c.toNat)

/-- source/string.cxx:643-662 `toUtf16(const char32_t*)`. -/
def toUtf16From32 (src : Ptr U32) : Res (List U16) :=
  ifNonEmpty src fun p => toUtf16From32Loop p []

/-- source/string.cxx:664-667 `toUtf16(const ucs4String&)`. -/
def toUtf16From32S (src : List U32) : Res (List U16) := toUtf16From32 (cStr src)

/-! ## To UCS-4 -/

/-- source/string.cxx:678-690, the loop of `toUcs4(const char*)`. -/
def toUcs4From8Loop (p : List Byte) (result : List U32) : Res (List U32) :=
  match p with
  | [] => .ub
  | b :: t =>
    if b = 0 then .ok result
    else
      match _h : decodeUtf8 (b :: t) with
      | .ub => .ub
      | .ok (_, none) => .ok []
      | .ok (c, some q) =>
        if c = 0 then .ok result
        else toUcs4From8Loop q.tail (result ++ [c])
termination_by p.length
decreasing_by exact decodeUtf8_tail_lt _h

/-- source/string.cxx:673-694 `toUcs4(const char*)`. -/
def toUcs4From8 (src : Ptr Byte) : Res (List U32) :=
  ifNonEmpty src fun p => toUcs4From8Loop p []

/-- source/string.cxx:696-699 `toUcs4(const string&)`. -/
def toUcs4From8S (src : List Byte) : Res (List U32) := toUcs4From8 (cStr src)

/-- source/string.cxx:708-729, the loop of `toUcs4(const char16_t*)`. -/
def toUcs4From16Loop : List U16 → List U32 → Res (List U32)
  | [], _ => .ub
  | c :: p, result =>
    if c = 0 then .ok result
    else if isFirstHalfUtf16 c.toNat then
      match p with
      | [] => .ub
      | c1 :: p' =>
        if c1 = 0 then .ok result
        else if ¬ isSecondHalfUtf16 c1.toNat then .ok []
        else toUcs4From16Loop p' (result ++ [rawDecodeUtf16 c c1])
    else if isSecondHalfUtf16 c.toNat then .ok []
    else toUcs4From16Loop p (result ++ [BitVec.ofNat 32 c.toNat])

/-- source/string.cxx:703-733 `toUcs4(const char16_t*)`. -/
def toUcs4From16 (src : Ptr U16) : Res (List U32) :=
  ifNonEmpty src fun p => toUcs4From16Loop p []

/-- source/string.cxx:735-738 `toUcs4(const utf16String&)`. -/
def toUcs4From16S (src : List U16) : Res (List U32) := toUcs4From16 (cStr src)

end Ansak
