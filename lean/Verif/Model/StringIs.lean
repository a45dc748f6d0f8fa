import Verif.Model.DecodeUtf8
import Verif.Model.Predicate

/-!
# Model of the validators in source/string.cxx
-/

namespace Ansak

/-- interface/string.hxx:75-84 `enum RangeType : int`. Any `int` can be cast to it, hence `Int`. -/
abbrev RangeType := Int
/-- interface/string.hxx:76. -/
def kAscii : RangeType := 0
/-- interface/string.hxx:77. -/
def kUtf8 : RangeType := 1
/-- interface/string.hxx:78. -/
def kUcs2 : RangeType := 2
/-- interface/string.hxx:79. -/
def kUtf16 : RangeType := 3
/-- interface/string.hxx:80. -/
def kUcs4 : RangeType := 4
/-- interface/string.hxx:81. -/
def kUnicode : RangeType := 5
/-- interface/string.hxx:83. -/
def kFirstInvalidRange : RangeType := 6

/-- source/string.cxx:63-64 `rangeTypeToRangeFlag[]`; only indexed with `kAscii..kUnicode`. -/
def rangeTypeToRangeFlag (t : RangeType) : Nat :=
  if t = 0 then kAsciiFlag
  else if t = 1 then kUtf8Flag
  else if t = 2 then kUcs2Flag
  else if t = 3 then kUtf16Flag
  else if t = 4 then kUcs4Flag
  else kUnicodeFlag

/-- source/string.cxx:93-99 `isUtf16EscapedRange`. -/
def isUtf16EscapedRange (c : Nat) : Bool := isFirstHalfUtf16 c || isSecondHalfUtf16 c

/-- source/string.cxx:112-158 `sequenceSizeCharStarts` for a non-null pointer. -/
def sequenceSizeCharStarts (p : List Byte) : Res Int :=
  match p with
  | [] => .ub
  | uc :: _ =>
    .ok (if uc.toNat = 0 then 0
      else if uc.toNat ≤ 0x7f then 1
      else if uc.toNat ≤ 0xbf then -1
      else if uc.toNat ≤ 0xdf then 2
      else if uc.toNat ≤ 0xef then 3
      else if uc.toNat ≤ 0xf7 then 4
      else if uc.toNat ≤ 0xfb then 5
      else if uc.toNat ≤ 0xfd then 6
      else -1)

/-- source/string.cxx:169-178 `isFirstHalfUtf16AsUtf8`: reads `p[0]`, `p[1]` and `p[2]`. -/
def isFirstHalfUtf16AsUtf8 (p : List Byte) : Res Bool :=
  (readAt p 0).bind fun c0 => (readAt p 1).bind fun c1 => (readAt p 2).bind fun c2 =>
  .ok (isFirstHalfUtf16 (rawDecodeUtf8_3 c0 c1 c2).toNat)

/-- source/string.cxx:189-198 `isSecondHalfUtf16AsUtf8`: reads `p[0]`, `p[1]` and `p[2]`. -/
def isSecondHalfUtf16AsUtf8 (p : List Byte) : Res Bool :=
  (readAt p 0).bind fun c0 => (readAt p 1).bind fun c1 => (readAt p 2).bind fun c2 =>
  .ok (isSecondHalfUtf16 (rawDecodeUtf8_3 c0 c1 c2).toNat)

/-- Conversion of an `int` to `unsigned int`. -/
def toUnsigned (i : Int) : Nat := (i % 4294967296).toNat

/-- Outcome of the look-ahead of a length-terminated scan. -/
inductive SeqCheck where
  /-- the sequence is out of order (second half of a surrogate pair) -/
  | outOfOrder
  /-- fewer bytes are left than the sequence needs -/
  | outOfSpace
  /-- go on to decode; the value of `seqStarts` -/
  | go (seqStarts : Nat)
  deriving Repr, DecidableEq

/-- source/string.cxx:248-270 and, identically, :769-792: the look-ahead of a length-terminated scan.
`unsigned int seqStarts = sequenceSizeCharStarts(p)` turns `-1` into `0xffffffff`. -/
def seqCheck (p : List Byte) (lengthLeft : Nat) : Res SeqCheck :=
  (sequenceSizeCharStarts p).bind fun n =>
  let seqStarts := toUnsigned n
  if seqStarts = 3 then
    (if lengthLeft > 1 then isSecondHalfUtf16AsUtf8 p else .ok false).bind fun second =>
    if second then .ok .outOfOrder
    else
      (if lengthLeft ≥ 3 then isFirstHalfUtf16AsUtf8 p else .ok false).bind fun first =>
      let seqStarts := if first then 6 else seqStarts
      if seqStarts > lengthLeft then .ok .outOfSpace else .ok (.go seqStarts)
  else if seqStarts > lengthLeft then .ok .outOfSpace
  else .ok (.go seqStarts)

/-- The look-ahead, only done if the scan is length-terminated (source/string.cxx:249, 769). For a
null-terminated scan the value of `seqStarts` is never used. -/
def seqCheckIf (lengthTerminated : Bool) (p : List Byte) (lengthLeft : Nat) : Res SeqCheck :=
  if lengthTerminated then seqCheck p lengthLeft else .ok (.go 0)

/-- source/string.cxx:238-317, the `for` loop of the internal `isUtf8`.
`pLast` is represented by the number of units from `pLast` to the end of the buffer, so
`p - pLast` is `pLast - p.length`. `pred` is only called if it is not the null predicate. -/
def isUtf8Loop (U : CharClass) (lengthTerminated : Bool) (restrictToThis : Nat) (pred : Pred)
    (p : List Byte) (lengthLeft pLast : Nat) : Res Bool :=
  match p with
  | [] => .ub
  | b :: t =>
    if b = 0 then .ok (!lengthTerminated)
    else if getRangeFlag8 b.toNat &&& restrictToThis = 0 then .ok false
    else
      match seqCheckIf lengthTerminated (b :: t) lengthLeft with
      | .ub => .ub
      | .ok .outOfOrder => .ok false
      | .ok .outOfSpace => .ok true
      | .ok (.go seqStarts) =>
        match _h : decodeUtf8 (b :: t) with
        | .ub => .ub
        | .ok (_, none) => .ok false
        | .ok (c, some q) =>
          if c = 0 then (readAt q 0).bind fun b' => .ok (b' == 0)
          else
            let usedThisTime := (pLast - q.length) % 4294967296
            if lengthTerminated ∧ seqStarts ≠ usedThisTime then .ok false
            else if getCharEncodableRangeFlags c.toNat &&& restrictToThis = 0 ∨
                (¬ pred.eq Pred.none ∧ ¬ pred.call32 U c.toNat) then .ok false
            else if lengthTerminated then
              if lengthLeft ≤ usedThisTime then .ok true
              else isUtf8Loop U lengthTerminated restrictToThis pred q.tail
                (lengthLeft - usedThisTime) q.length
            else isUtf8Loop U lengthTerminated restrictToThis pred q.tail lengthLeft pLast
termination_by p.length
decreasing_by all_goals exact decodeUtf8_tail_lt _h

/-- source/string.cxx:210-318, the internal `isUtf8`. -/
def isUtf8Internal (U : CharClass) (test : Ptr Byte) (testLength : U32) (targetRange : RangeType)
    (pred : Pred) : Res Bool :=
  let lengthTerminated := testLength != 0
  if targetRange < kAscii ∨ targetRange > kUnicode then .ok false
  else
    match test with
    | none => .ok true
    | some p =>
      (readAt p 0).bind fun b =>
      if b = 0 then .ok true
      else isUtf8Loop U lengthTerminated (rangeTypeToRangeFlag targetRange) pred p
        testLength.toNat (p.length + 1)

/-- source/string.cxx:343-346 `isUtf8(const char*, RangeType, pred)`. -/
def isUtf8 (U : CharClass) (test : Ptr Byte) (targetRange : RangeType) (pred : Pred) : Res Bool :=
  isUtf8Internal U test 0 targetRange pred

/-- source/string.cxx:338-341 `isUtf8(const std::string&, RangeType, pred)`. -/
def isUtf8S (U : CharClass) (test : List Byte) (targetRange : RangeType) (pred : Pred) : Res Bool :=
  isUtf8Internal U (cStr test) 0 targetRange pred

/-- source/string.cxx:348-351 `isUtf8(const char*, unsigned int, pred)`. -/
def isUtf8Len (U : CharClass) (test : Ptr Byte) (testLength : U32) (pred : Pred) : Res Bool :=
  isUtf8Internal U test testLength kUtf8 pred

/-- source/string.cxx:374-407, the `for` loop of `isUtf16`. -/
def isUtf16Loop (U : CharClass) (restrictToThis : Nat) (pred : Pred) : List U16 → Res Bool
  | [] => .ub
  | c :: p =>
    if c = 0 then .ok true
    else if getRangeFlag16 c.toNat &&& restrictToThis = 0 then .ok false
    else if isFirstHalfUtf16 c.toNat then
      match p with
      | [] => .ub
      | c1 :: p' =>
        if c1 = 0 then .ok true
        else if ¬ isSecondHalfUtf16 c1.toNat then .ok false
        else if k21BitUnicodeFlags &&& restrictToThis = 0 ∨
            (¬ pred.eq Pred.none ∧ ¬ pred.call16 U c.toNat) then .ok false
        else isUtf16Loop U restrictToThis pred p'
    else if getCharEncodableRangeFlags c.toNat &&& restrictToThis = 0 ∨
        (¬ pred.eq Pred.none ∧ ¬ pred.call16 U c.toNat) then .ok false
    else isUtf16Loop U restrictToThis pred p

/-- source/string.cxx:360-410 `isUtf16(const char16_t*, RangeType, pred)`. -/
def isUtf16 (U : CharClass) (test : Ptr U16) (targetRange : RangeType) (pred : Pred) : Res Bool :=
  if targetRange < kAscii ∨ targetRange > kUnicode then .ok false
  else
    match test with
    | none => .ok true
    | some p =>
      (readAt p 0).bind fun b =>
      if b = 0 then .ok true
      else isUtf16Loop U (rangeTypeToRangeFlag targetRange) pred p

/-- source/string.cxx:355-358 `isUtf16(const utf16String&, RangeType, pred)`. -/
def isUtf16S (U : CharClass) (test : List U16) (targetRange : RangeType) (pred : Pred) : Res Bool :=
  isUtf16 U (cStr test) targetRange pred

/-- source/string.cxx:433-445, the `for` loop of `isUcs2`. -/
def isUcs2Loop (U : CharClass) (restrictToThis : Nat) (pred : Pred) : List U16 → Res Bool
  | [] => .ub
  | c :: p =>
    if c = 0 then .ok true
    else if isUtf16EscapedRange c.toNat then .ok false
    else if getCharEncodableRangeFlags c.toNat &&& restrictToThis = 0 ∨
        (¬ pred.eq Pred.none ∧ ¬ pred.call16 U c.toNat) then .ok false
    else isUcs2Loop U restrictToThis pred p

/-- source/string.cxx:419-448 `isUcs2(const char16_t*, RangeType, pred)`. -/
def isUcs2 (U : CharClass) (test : Ptr U16) (targetRange : RangeType) (pred : Pred) : Res Bool :=
  if targetRange < kAscii ∨ targetRange > kUnicode then .ok false
  else
    match test with
    | none => .ok true
    | some p =>
      (readAt p 0).bind fun b =>
      if b = 0 then .ok true
      else isUcs2Loop U (rangeTypeToRangeFlag targetRange) pred p

/-- source/string.cxx:414-417 `isUcs2(const ucs2String&, RangeType, pred)`. -/
def isUcs2S (U : CharClass) (test : List U16) (targetRange : RangeType) (pred : Pred) : Res Bool :=
  isUcs2 U (cStr test) targetRange pred

/-- source/string.cxx:471-478, the `for` loop of `isUcs4`. -/
def isUcs4Loop (U : CharClass) (restrictToThis : Nat) (pred : Pred) : List U32 → Res Bool
  | [] => .ub
  | c :: p =>
    if c = 0 then .ok true
    else if getCharEncodableRangeFlags c.toNat &&& restrictToThis = 0 ∨
        (¬ pred.eq Pred.none ∧ ¬ pred.call32 U c.toNat) then .ok false
    else isUcs4Loop U restrictToThis pred p

/-- source/string.cxx:457-481 `isUcs4(const char32_t*, RangeType, pred)`. -/
def isUcs4 (U : CharClass) (test : Ptr U32) (targetRange : RangeType) (pred : Pred) : Res Bool :=
  if targetRange < kAscii ∨ targetRange > kUnicode then .ok false
  else
    match test with
    | none => .ok true
    | some p =>
      (readAt p 0).bind fun b =>
      if b = 0 then .ok true
      else isUcs4Loop U (rangeTypeToRangeFlag targetRange) pred p

/-- source/string.cxx:452-455 `isUcs4(const ucs4String&, RangeType, pred)`. -/
def isUcs4S (U : CharClass) (test : List U32) (targetRange : RangeType) (pred : Pred) : Res Bool :=
  isUcs4 U (cStr test) targetRange pred

end Ansak
