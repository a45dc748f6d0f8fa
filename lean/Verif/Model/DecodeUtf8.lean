import Verif.Model.Internal

/-!
# Model of source/string_decode_utf8.cxx
-/

namespace Ansak

/-- What `decodeUtf8(const char*& p)` leaves behind: the returned value and the new value of `p`. -/
abbrev Decoded := U32 × Ptr Byte

/-- `p = nullptr; return 0;` (source/string_decode_utf8.cxx:92 and many more). -/
def decodeFail : Res Decoded := .ok (0, none)

/-- One step of the decoder, repeated for each further byte of a sequence
(source/string_decode_utf8.cxx:97-98, 109-112, 117-122, 146-151, 162-169, 180-189):
`auto ucN = *++p; if (ucN == 0) { return 0; } if (ucN < lo || ucN > hi) { p = nullptr; return 0; }`
The argument `p` is the old value of `p`; `k` is the rest of the function, run on the byte that was
read and the new value of `p`. -/
def nextByte (lo hi : Nat) (p : List Byte) (k : Byte → List Byte → Res Decoded) : Res Decoded :=
  match p.tail with
  | [] => .ub
  | uc :: q =>
    if uc = 0 then .ok (0, some (uc :: q))
    else if uc.toNat < lo ∨ uc.toNat > hi then decodeFail
    else k uc (uc :: q)

/-- source/string_decode_utf8.cxx:78-201 `decodeUtf8`. -/
def decodeUtf8 (p : List Byte) : Res Decoded :=
  match p with
  | [] => .ub
  | uc :: _ =>
    if uc.toNat ≤ 0x7f then .ok (BitVec.ofNat 32 uc.toNat, some p)
    else if uc.toNat ≤ 0xbf then decodeFail
    else if uc.toNat ≤ 0xdf then
      nextByte 0x80 0xbf p fun uc1 p =>
      let r := rawDecodeUtf8_2 uc uc1
      if r.toNat < 0x80 then decodeFail
      else .ok (BitVec.ofNat 32 r.toNat, some p)
    else if uc.toNat ≤ 0xef then
      nextByte 0x80 0xbf p fun uc1 p =>
      nextByte 0x80 0xbf p fun uc2 p =>
      let w := (rawDecodeUtf8_3 uc uc1 uc2).toNat
      if isFirstHalfUtf16 w then
        nextByte 0xe0 0xef p fun uc3 p =>
        nextByte 0x80 0xbf p fun uc4 p =>
        nextByte 0x80 0xbf p fun uc5 p =>
        let w2 := (rawDecodeUtf8_3 uc3 uc4 uc5).toNat
        if isSecondHalfUtf16 w2 then
          .ok (BitVec.ofNat 32 (0x10000 + ((w &&& 0x3ff) <<< 10) + (w2 &&& 0x3ff)), some p)
        else decodeFail
      else if w < 0x800 || isSecondHalfUtf16 w then decodeFail
      else .ok (BitVec.ofNat 32 w, some p)
    else if uc.toNat ≤ 0xf7 then
      nextByte 0x80 0xbf p fun uc1 p =>
      nextByte 0x80 0xbf p fun uc2 p =>
      nextByte 0x80 0xbf p fun uc3 p =>
      let r := rawDecodeUtf8_4 uc uc1 uc2 uc3
      if r.toNat < 0x10000 then decodeFail else .ok (r, some p)
    else if uc.toNat ≤ 0xfb then
      nextByte 0x80 0xbf p fun uc1 p =>
      nextByte 0x80 0xbf p fun uc2 p =>
      nextByte 0x80 0xbf p fun uc3 p =>
      nextByte 0x80 0xbf p fun uc4 p =>
      let r := rawDecodeUtf8_5 uc uc1 uc2 uc3 uc4
      if r.toNat < 0x200000 then decodeFail else .ok (r, some p)
    else if uc.toNat ≤ 0xfd then
      nextByte 0x80 0xbf p fun uc1 p =>
      nextByte 0x80 0xbf p fun uc2 p =>
      nextByte 0x80 0xbf p fun uc3 p =>
      nextByte 0x80 0xbf p fun uc4 p =>
      nextByte 0x80 0xbf p fun uc5 p =>
      let r := rawDecodeUtf8_6 uc uc1 uc2 uc3 uc4 uc5
      if r.toNat < 0x4000000 then decodeFail else .ok (r, some p)
    else decodeFail

/-! ## The new `p` never moves backwards (needed for termination of the callers' loops) -/

/-- If a new `p` is left behind, at least as many bytes as `N` units before the end remain. -/
def LeftWithin (N : Nat) (r : Res Decoded) : Prop :=
  ∀ c q, r = .ok (c, some q) → q.length ≤ N

theorem LeftWithin.fail {N : Nat} : LeftWithin N decodeFail := by
  intro c q h; simp [decodeFail] at h

theorem LeftWithin.ok {N : Nat} {v : U32} {p : List Byte} (hp : p.length ≤ N) :
    LeftWithin N (.ok (v, some p)) := by
  intro c q h
  simp only [Res.ok.injEq, Prod.mk.injEq, Option.some.injEq] at h
  rw [← h.2]; exact hp

theorem LeftWithin.ite {N : Nat} {P : Prop} [Decidable P] {a b : Res Decoded}
    (ha : LeftWithin N a) (hb : LeftWithin N b) : LeftWithin N (if P then a else b) := by
  by_cases h : P
  · rw [if_pos h]; exact ha
  · rw [if_neg h]; exact hb

theorem LeftWithin.next {N lo hi : Nat} {p : List Byte} {k : Byte → List Byte → Res Decoded}
    (hp : p.length ≤ N) (hk : ∀ uc q, q.length ≤ N → LeftWithin N (k uc q)) :
    LeftWithin N (nextByte lo hi p k) := by
  unfold nextByte
  cases ht : p.tail with
  | nil => intro c q h; simp at h
  | cons uc q =>
    have hlen : (uc :: q).length ≤ N := by
      rw [← ht]; simp only [List.length_tail]; omega
    exact .ite (.ok hlen) (.ite .fail (hk _ _ hlen))

theorem decodeUtf8_leftWithin (p : List Byte) : LeftWithin p.length (decodeUtf8 p) := by
  unfold decodeUtf8
  cases p with
  | nil => intro c q h; simp at h
  | cons uc t =>
    have h0 := Nat.le_refl (uc :: t).length
    refine .ite (.ok h0) (.ite .fail (.ite ?_ (.ite ?_ (.ite ?_ (.ite ?_ (.ite ?_ .fail))))))
    · exact .next h0 fun _ _ h1 => .ite .fail (.ok h1)
    · exact .next h0 fun _ _ h1 => .next h1 fun _ _ h2 =>
        .ite (.next h2 fun _ _ h3 => .next h3 fun _ _ h4 => .next h4 fun _ _ h5 =>
          .ite (.ok h5) .fail) (.ite .fail (.ok h2))
    · exact .next h0 fun _ _ h1 => .next h1 fun _ _ h2 => .next h2 fun _ _ h3 =>
        .ite .fail (.ok h3)
    · exact .next h0 fun _ _ h1 => .next h1 fun _ _ h2 => .next h2 fun _ _ h3 =>
        .next h3 fun _ _ h4 => .ite .fail (.ok h4)
    · exact .next h0 fun _ _ h1 => .next h1 fun _ _ h2 => .next h2 fun _ _ h3 =>
        .next h3 fun _ _ h4 => .next h4 fun _ _ h5 => .ite .fail (.ok h5)

theorem decodeUtf8_length {p : List Byte} {c : U32} {q : List Byte}
    (h : decodeUtf8 p = .ok (c, some q)) : q.length ≤ p.length :=
  decodeUtf8_leftWithin p c q h

/-- The next loop iteration of a caller, at `q + 1`, is nearer to the end of the buffer. -/
theorem decodeUtf8_tail_lt {p : List Byte} {c : U32} {q : List Byte}
    (h : decodeUtf8 p = .ok (c, some q)) : q.tail.length < p.length := by
  have h1 := decodeUtf8_length h
  have h2 : 0 < p.length := by
    cases p with
    | nil => simp [decodeUtf8] at h
    | cons a t => simp
  simp only [List.length_tail]
  omega

end Ansak
