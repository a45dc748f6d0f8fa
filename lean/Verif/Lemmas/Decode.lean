import Verif.Lemmas.Bits

/-!
# What `decodeUtf8` does

On the text `s` of a NUL-terminated buffer one of three things happens: the text starts with an
accepted encoding, it is a truncated sequence, or decoding fails.
-/

namespace Ansak

export Spec (IsCont announced Truncated)

open Spec (NulFree Utf8Char Utf8Text Encodable HighSurrogate LowSurrogate Surrogate)

/-! ## Bytes -/

theorem toNat_byte {n : Nat} (h : n < 256) : (BitVec.ofNat 8 n).toNat = n := by
  rw [BitVec.toNat_ofNat]; omega

theorem byte_eq {b : Byte} {n : Nat} (h : b.toNat = n) : BitVec.ofNat 8 n = b := by
  rw [← h]; exact BitVec.ofNat_toNat .. |>.trans (BitVec.setWidth_eq b)

theorem u32_eq {b : U32} {n : Nat} (h : b.toNat = n) : BitVec.ofNat 32 n = b := by
  rw [← h]; exact BitVec.ofNat_toNat .. |>.trans (BitVec.setWidth_eq b)

theorem bv_ne_zero {w : Nat} {b : BitVec w} (h : b.toNat ≠ 0) : b ≠ 0 := by
  intro hb; apply h; rw [hb]; simp

theorem toNat_ne_zero {w : Nat} {b : BitVec w} (h : b ≠ 0) : b.toNat ≠ 0 := by
  intro hb; apply h; exact BitVec.eq_of_toNat_eq (by simpa using hb)

/-! ## One more byte -/

theorem nextByte_go {lo hi : Nat} {a uc : Byte} {t : List Byte} {k : Byte → List Byte → Res Decoded}
    (hlo : 0 < lo) (h1 : lo ≤ uc.toNat) (h2 : uc.toNat ≤ hi) :
    nextByte lo hi (a :: uc :: t) k = k uc (uc :: t) := by
  have h0 : uc ≠ 0 := bv_ne_zero (by omega)
  unfold nextByte
  simp only [List.tail_cons]
  rw [if_neg h0, if_neg (by omega)]

theorem nextByte_stop {lo hi : Nat} {a : Byte} {t : List Byte} {k : Byte → List Byte → Res Decoded} :
    nextByte lo hi (a :: 0 :: t) k = .ok (0, some (0 :: t)) := by
  unfold nextByte; simp

theorem NulFree.cons {w : Nat} {a : BitVec w} {s : List (BitVec w)} :
    NulFree (a :: s) ↔ a ≠ 0 ∧ NulFree s := by
  unfold NulFree; simp

theorem NulFree.nil {w : Nat} : NulFree ([] : List (BitVec w)) := by
  unfold NulFree; simp

theorem NulFree.append {w : Nat} {a b : List (BitVec w)} :
    NulFree (a ++ b) ↔ NulFree a ∧ NulFree b := by
  unfold NulFree
  simp only [List.mem_append]
  constructor
  · intro h; exact ⟨fun c hc => h c (.inl hc), fun c hc => h c (.inr hc)⟩
  · rintro ⟨h1, h2⟩ c (hc | hc)
    · exact h1 c hc
    · exact h2 c hc

theorem nextByte_inv {lo hi : Nat} {a : Byte} {s post : List Byte}
    {k : Byte → List Byte → Res Decoded} {c : U32} {q : List Byte} (hs : NulFree s)
    (h : nextByte lo hi (a :: (s ++ 0 :: post)) k = .ok (c, some q)) :
    s = [] ∨ ∃ uc s', s = uc :: s' ∧ lo ≤ uc.toNat ∧ uc.toNat ≤ hi ∧ NulFree s' ∧
      k uc (uc :: (s' ++ 0 :: post)) = .ok (c, some q) := by
  cases s with
  | nil => exact .inl rfl
  | cons uc s' =>
    right
    have ⟨h0, hs'⟩ := NulFree.cons.1 hs
    refine ⟨uc, s', rfl, ?_⟩
    unfold nextByte at h
    simp only [List.tail_cons, List.cons_append] at h
    rw [if_neg h0] at h
    by_cases hr : uc.toNat < lo ∨ uc.toNat > hi
    · rw [if_pos hr] at h; simp [decodeFail] at h
    · rw [if_neg hr] at h
      exact ⟨by omega, by omega, hs', h⟩

/-- A value the decoder gives back, `p` being left at the last byte of the encoding. -/
def DecodesTo (bs : List Byte) (v : Nat) : Prop :=
  ∀ rest, ∃ b, decodeUtf8 (bs ++ rest) = .ok (BitVec.ofNat 32 v, some (b :: rest))

/-! ## Three-byte forms of any 16-bit value, surrogates included -/

theorem utf8_three {v : Nat} (h1 : 0x800 ≤ v) (h2 : v < 0x10000) :
    Spec.utf8 v = [BitVec.ofNat 8 (0xE0 + v / 0x1000), BitVec.ofNat 8 (0x80 + v / 0x40 % 0x40),
      BitVec.ofNat 8 (0x80 + v % 0x40)] := by
  unfold Spec.utf8 Spec.utf8Values
  rw [if_neg (by omega), if_neg (by omega), if_pos h2]
  rfl

theorem decode_plain {v : Nat} (hv : Encodable v) : DecodesTo (Spec.utf8 v) v := by
  obtain ⟨hv1, hv2, hs⟩ := hv
  intro rest
  unfold Surrogate at hs
  unfold Spec.utf8 Spec.utf8Values
  by_cases h1 : v < 0x80
  · rw [if_pos h1]
    refine ⟨BitVec.ofNat 8 v, ?_⟩
    simp only [List.map_cons, List.map_nil, List.cons_append, List.nil_append, decodeUtf8]
    rw [toNat_byte (by omega), if_pos (by omega)]
  by_cases h2 : v < 0x800
  · rw [if_neg h1, if_pos h2]
    simp only [List.map_cons, List.map_nil, List.cons_append, List.nil_append, decodeUtf8]
    rw [toNat_byte (n := 0xC0 + v / 64) (by omega)]
    rw [if_neg (by omega), if_neg (by omega), if_pos (by omega)]
    rw [nextByte_go (by decide) (by rw [toNat_byte] <;> omega) (by rw [toNat_byte] <;> omega)]
    simp only [rawDecodeUtf8_2_toNat]
    rw [toNat_byte (by omega), toNat_byte (by omega)]
    have : (192 + v / 64) % 32 * 64 + (128 + v % 64) % 64 = v := by omega
    rw [this, if_neg (by omega)]
    exact ⟨_, rfl⟩
  by_cases h3 : v < 0x10000
  · rw [if_neg h1, if_neg h2, if_pos h3]
    simp only [List.map_cons, List.map_nil, List.cons_append, List.nil_append, decodeUtf8]
    rw [toNat_byte (n := 0xE0 + v / 0x1000) (by omega)]
    rw [if_neg (by omega), if_neg (by omega), if_neg (by omega), if_pos (by omega)]
    rw [nextByte_go (by decide) (by rw [toNat_byte] <;> omega) (by rw [toNat_byte] <;> omega)]
    rw [nextByte_go (by decide) (by rw [toNat_byte] <;> omega) (by rw [toNat_byte] <;> omega)]
    simp only [rawDecodeUtf8_3_toNat]
    rw [toNat_byte (by omega), toNat_byte (by omega), toNat_byte (by omega)]
    have : (224 + v / 4096) % 16 * 4096 + (128 + v / 64 % 64) % 64 * 64 + (128 + v % 64) % 64 = v := by
      omega
    rw [this]
    have hf : isFirstHalfUtf16 v = false := by
      rw [isFirstHalf_false]; unfold HighSurrogate; omega
    have hse : isSecondHalfUtf16 v = false := by
      rw [isSecondHalf_false]; unfold LowSurrogate; omega
    rw [hf, hse]
    simp only [Bool.false_eq_true, if_false, Bool.or_false, decide_eq_true_eq]
    rw [if_neg (by omega)]
    exact ⟨_, rfl⟩
  by_cases h4 : v < 0x200000
  · rw [if_neg h1, if_neg h2, if_neg h3, if_pos h4]
    simp only [List.map_cons, List.map_nil, List.cons_append, List.nil_append, decodeUtf8]
    rw [toNat_byte (n := 0xF0 + v / 0x40000) (by omega)]
    rw [if_neg (by omega), if_neg (by omega), if_neg (by omega), if_neg (by omega), if_pos (by omega)]
    rw [nextByte_go (by decide) (by rw [toNat_byte] <;> omega) (by rw [toNat_byte] <;> omega)]
    rw [nextByte_go (by decide) (by rw [toNat_byte] <;> omega) (by rw [toNat_byte] <;> omega)]
    rw [nextByte_go (by decide) (by rw [toNat_byte] <;> omega) (by rw [toNat_byte] <;> omega)]
    have : (rawDecodeUtf8_4 (BitVec.ofNat 8 (0xF0 + v / 0x40000)) (BitVec.ofNat 8 (0x80 + v / 0x1000 % 0x40))
        (BitVec.ofNat 8 (0x80 + v / 0x40 % 0x40)) (BitVec.ofNat 8 (0x80 + v % 0x40))).toNat = v := by
      rw [rawDecodeUtf8_4_toNat, toNat_byte, toNat_byte, toNat_byte, toNat_byte] <;> omega
    simp only [this]
    rw [if_neg (by omega)]
    exact ⟨_, by rw [← u32_eq this]⟩
  by_cases h5 : v < 0x4000000
  · rw [if_neg h1, if_neg h2, if_neg h3, if_neg h4, if_pos h5]
    simp only [List.map_cons, List.map_nil, List.cons_append, List.nil_append, decodeUtf8]
    rw [toNat_byte (n := 0xF8 + v / 0x1000000) (by omega)]
    rw [if_neg (by omega), if_neg (by omega), if_neg (by omega), if_neg (by omega), if_neg (by omega),
      if_pos (by omega)]
    rw [nextByte_go (by decide) (by rw [toNat_byte] <;> omega) (by rw [toNat_byte] <;> omega)]
    rw [nextByte_go (by decide) (by rw [toNat_byte] <;> omega) (by rw [toNat_byte] <;> omega)]
    rw [nextByte_go (by decide) (by rw [toNat_byte] <;> omega) (by rw [toNat_byte] <;> omega)]
    rw [nextByte_go (by decide) (by rw [toNat_byte] <;> omega) (by rw [toNat_byte] <;> omega)]
    have : (rawDecodeUtf8_5 (BitVec.ofNat 8 (0xF8 + v / 0x1000000)) (BitVec.ofNat 8 (0x80 + v / 0x40000 % 0x40))
        (BitVec.ofNat 8 (0x80 + v / 0x1000 % 0x40))
        (BitVec.ofNat 8 (0x80 + v / 0x40 % 0x40)) (BitVec.ofNat 8 (0x80 + v % 0x40))).toNat = v := by
      rw [rawDecodeUtf8_5_toNat, toNat_byte, toNat_byte, toNat_byte, toNat_byte, toNat_byte] <;> omega
    simp only [this]
    rw [if_neg (by omega)]
    exact ⟨_, by rw [← u32_eq this]⟩
  · rw [if_neg h1, if_neg h2, if_neg h3, if_neg h4, if_neg h5]
    simp only [List.map_cons, List.map_nil, List.cons_append, List.nil_append, decodeUtf8]
    rw [toNat_byte (n := 0xFC + v / 0x40000000) (by omega)]
    rw [if_neg (by omega), if_neg (by omega), if_neg (by omega), if_neg (by omega), if_neg (by omega),
      if_neg (by omega), if_pos (by omega)]
    rw [nextByte_go (by decide) (by rw [toNat_byte] <;> omega) (by rw [toNat_byte] <;> omega)]
    rw [nextByte_go (by decide) (by rw [toNat_byte] <;> omega) (by rw [toNat_byte] <;> omega)]
    rw [nextByte_go (by decide) (by rw [toNat_byte] <;> omega) (by rw [toNat_byte] <;> omega)]
    rw [nextByte_go (by decide) (by rw [toNat_byte] <;> omega) (by rw [toNat_byte] <;> omega)]
    rw [nextByte_go (by decide) (by rw [toNat_byte] <;> omega) (by rw [toNat_byte] <;> omega)]
    have : (rawDecodeUtf8_6 (BitVec.ofNat 8 (0xFC + v / 0x40000000))
        (BitVec.ofNat 8 (0x80 + v / 0x1000000 % 0x40)) (BitVec.ofNat 8 (0x80 + v / 0x40000 % 0x40))
        (BitVec.ofNat 8 (0x80 + v / 0x1000 % 0x40))
        (BitVec.ofNat 8 (0x80 + v / 0x40 % 0x40)) (BitVec.ofNat 8 (0x80 + v % 0x40))).toNat = v := by
      rw [rawDecodeUtf8_6_toNat, toNat_byte, toNat_byte, toNat_byte, toNat_byte, toNat_byte,
        toNat_byte] <;> omega
    simp only [this]
    rw [if_neg (by omega)]
    exact ⟨_, by rw [← u32_eq this]⟩

theorem decode_pair {hi lo : Nat} (hh : HighSurrogate hi) (hl : LowSurrogate lo) :
    DecodesTo (Spec.utf8 hi ++ Spec.utf8 lo) (Spec.pairValue hi lo) := by
  obtain ⟨hh1, hh2⟩ := hh
  obtain ⟨hl1, hl2⟩ := hl
  intro rest
  rw [utf8_three (v := hi) (by omega) (by omega), utf8_three (v := lo) (by omega) (by omega)]
  simp only [List.cons_append, List.nil_append, decodeUtf8]
  rw [toNat_byte (n := 0xE0 + hi / 0x1000) (by omega)]
  rw [if_neg (by omega), if_neg (by omega), if_neg (by omega), if_pos (by omega)]
  rw [nextByte_go (by decide) (by rw [toNat_byte] <;> omega) (by rw [toNat_byte] <;> omega)]
  rw [nextByte_go (by decide) (by rw [toNat_byte] <;> omega) (by rw [toNat_byte] <;> omega)]
  have e1 : (rawDecodeUtf8_3 (BitVec.ofNat 8 (224 + hi / 4096)) (BitVec.ofNat 8 (128 + hi / 64 % 64))
      (BitVec.ofNat 8 (128 + hi % 64))).toNat = hi := by
    rw [rawDecodeUtf8_3_toNat, toNat_byte, toNat_byte, toNat_byte] <;> omega
  have e2 : (rawDecodeUtf8_3 (BitVec.ofNat 8 (224 + lo / 4096)) (BitVec.ofNat 8 (128 + lo / 64 % 64))
      (BitVec.ofNat 8 (128 + lo % 64))).toNat = lo := by
    rw [rawDecodeUtf8_3_toNat, toNat_byte, toNat_byte, toNat_byte] <;> omega
  simp only [e1]
  rw [if_pos ((isFirstHalf_iff hi).2 ⟨hh1, hh2⟩)]
  rw [nextByte_go (by decide) (by rw [toNat_byte] <;> omega) (by rw [toNat_byte] <;> omega)]
  rw [nextByte_go (by decide) (by rw [toNat_byte] <;> omega) (by rw [toNat_byte] <;> omega)]
  rw [nextByte_go (by decide) (by rw [toNat_byte] <;> omega) (by rw [toNat_byte] <;> omega)]
  simp only [e2]
  rw [if_pos ((isSecondHalf_iff lo).2 ⟨hl1, hl2⟩)]
  simp only [and_3ff, Nat.shiftLeft_eq]
  have : 65536 + hi % 1024 * 2 ^ 10 + lo % 1024 = Spec.pairValue hi lo := by
    unfold Spec.pairValue; omega
  rw [this]
  exact ⟨_, rfl⟩

theorem decode_char {bs : List Byte} {v : Nat} (h : Utf8Char bs v) : DecodesTo bs v := by
  cases h with
  | plain hv => exact decode_plain hv
  | pair hh hl => exact decode_pair hh hl

/-! ## Truncated sequences as the code sees them -/

/-- What the decoder does on a truncated sequence at the end of the text. -/
def StopsAtNul (s : List Byte) : Prop :=
  ∀ post, decodeUtf8 (s ++ 0 :: post) = .ok (0, some (0 :: post))

theorem nextByte_cont {a : Byte} {s post : List Byte} {k : Byte → List Byte → Res Decoded}
    (hs : ∀ c ∈ s, IsCont c)
    (hk : ∀ uc s', s = uc :: s' → k uc (uc :: (s' ++ 0 :: post)) = .ok (0, some (0 :: post))) :
    nextByte 0x80 0xbf (a :: (s ++ 0 :: post)) k = .ok (0, some (0 :: post)) := by
  cases s with
  | nil => exact nextByte_stop
  | cons uc s' =>
    have ⟨h1, h2⟩ := hs uc (by simp)
    rw [List.cons_append, nextByte_go (by decide) h1 h2]
    exact hk uc s' rfl

theorem stops_short {b : Byte} {cs : List Byte} (hc : ∀ c ∈ cs, IsCont c)
    (hl : cs.length + 1 < announced b) : StopsAtNul (b :: cs) := by
  intro post
  unfold announced at hl
  simp only [List.cons_append, decodeUtf8]
  have tl : ∀ {x : Byte} {y : List Byte}, (∀ c ∈ x :: y, IsCont c) → ∀ c ∈ y, IsCont c :=
    fun h c hc => h c (List.mem_cons_of_mem _ hc)
  by_cases h1 : b.toNat < 0xC0
  · rw [if_pos h1] at hl; omega
  rw [if_neg h1] at hl
  rw [if_neg (by omega), if_neg (by omega)]
  by_cases h2 : b.toNat ≤ 0xDF
  · rw [if_pos h2] at hl
    rw [if_pos h2]
    refine nextByte_cont hc fun uc s' e => ?_
    subst e; simp only [List.length_cons] at hl; omega
  rw [if_neg h2] at hl
  rw [if_neg h2]
  by_cases h3 : b.toNat ≤ 0xEF
  · rw [if_pos h3] at hl
    rw [if_pos h3]
    refine nextByte_cont hc fun uc s' e => ?_
    subst e
    refine nextByte_cont (tl hc) fun uc' s'' e => ?_
    subst e; simp only [List.length_cons] at hl; omega
  rw [if_neg h3] at hl
  rw [if_neg h3]
  by_cases h4 : b.toNat ≤ 0xF7
  · rw [if_pos h4] at hl
    rw [if_pos h4]
    refine nextByte_cont hc fun uc s' e => ?_
    subst e
    refine nextByte_cont (tl hc) fun uc' s'' e => ?_
    subst e
    refine nextByte_cont (tl (tl hc)) fun uc3 s3 e => ?_
    subst e; simp only [List.length_cons] at hl; omega
  rw [if_neg h4] at hl
  rw [if_neg h4]
  by_cases h5 : b.toNat ≤ 0xFB
  · rw [if_pos h5] at hl
    rw [if_pos h5]
    refine nextByte_cont hc fun uc s' e => ?_
    subst e
    refine nextByte_cont (tl hc) fun uc' s'' e => ?_
    subst e
    refine nextByte_cont (tl (tl hc)) fun uc3 s3 e => ?_
    subst e
    refine nextByte_cont (tl (tl (tl hc))) fun uc4 s4 e => ?_
    subst e; simp only [List.length_cons] at hl; omega
  rw [if_neg h5] at hl
  rw [if_neg h5]
  by_cases h6 : b.toNat ≤ 0xFD
  · rw [if_pos h6] at hl
    rw [if_pos h6]
    refine nextByte_cont hc fun uc s' e => ?_
    subst e
    refine nextByte_cont (tl hc) fun uc' s'' e => ?_
    subst e
    refine nextByte_cont (tl (tl hc)) fun uc3 s3 e => ?_
    subst e
    refine nextByte_cont (tl (tl (tl hc))) fun uc4 s4 e => ?_
    subst e
    refine nextByte_cont (tl (tl (tl (tl hc)))) fun uc5 s5 e => ?_
    subst e; simp only [List.length_cons] at hl; omega
  · rw [if_neg h6] at hl; omega

theorem first_half_bytes {b c1 c2 : Byte} (hb : b.toNat = 0xED) (h1 : 0xA0 ≤ c1.toNat)
    (h2 : c1.toNat ≤ 0xAF) : isFirstHalfUtf16 (rawDecodeUtf8_3 b c1 c2).toNat = true := by
  rw [isFirstHalf_iff, rawDecodeUtf8_3_toNat]
  unfold HighSurrogate
  omega

/-- The decoder after a high surrogate in 3-byte form. -/
theorem decode_half {b c1 c2 : Byte} {t : List Byte} (hb : b.toNat = 0xED) (h1 : 0xA0 ≤ c1.toNat)
    (h2 : c1.toNat ≤ 0xAF) (h3 : IsCont c2) :
    decodeUtf8 (b :: c1 :: c2 :: t) =
      nextByte 0xe0 0xef (c2 :: t) fun uc3 p =>
      nextByte 0x80 0xbf p fun uc4 p =>
      nextByte 0x80 0xbf p fun uc5 p =>
      let w2 := (rawDecodeUtf8_3 uc3 uc4 uc5).toNat
      if isSecondHalfUtf16 w2 then
        .ok (BitVec.ofNat 32 (0x10000 + (((rawDecodeUtf8_3 b c1 c2).toNat &&& 0x3ff) <<< 10) +
          (w2 &&& 0x3ff)), some p)
      else decodeFail := by
  simp only [decodeUtf8]
  rw [if_neg (by omega), if_neg (by omega), if_neg (by omega), if_pos (by omega)]
  rw [nextByte_go (by decide) (by omega) (by omega), nextByte_go (by decide) h3.1 h3.2]
  simp only [first_half_bytes hb h1 h2, if_true]

theorem stops_truncated {s : List Byte} (h : Truncated s) : StopsAtNul s := by
  intro post
  cases h with
  | short hc hl => exact stops_short hc hl post
  | half0 hb h1 h2 h3 =>
    simp only [List.cons_append, List.nil_append]
    rw [decode_half hb h1 h2 h3, nextByte_stop]
  | half1 hb h1 h2 h3 h4 h5 =>
    simp only [List.cons_append, List.nil_append]
    rw [decode_half hb h1 h2 h3, nextByte_go (by decide) h4 h5, nextByte_stop]
  | half2 hb h1 h2 h3 h4 h5 h6 =>
    simp only [List.cons_append, List.nil_append]
    rw [decode_half hb h1 h2 h3, nextByte_go (by decide) h4 h5, nextByte_go (by decide) h6.1 h6.2,
      nextByte_stop]

/-! ## Inversion -/

theorem ok_some_inj {v c : U32} {p q : List Byte}
    (h : (Res.ok (v, some p) : Res Decoded) = .ok (c, some q)) : c = v ∧ q = p := by
  simp only [Res.ok.injEq, Prod.mk.injEq, Option.some.injEq] at h
  exact ⟨h.1.symm, h.2.symm⟩

theorem fail_ne {c : U32} {q : List Byte} (h : decodeFail = .ok (c, some q)) : False := by
  simp [decodeFail] at h

/-- The text starts with an accepted encoding. -/
def StartsChar (s : List Byte) : Prop := ∃ bs v rest, s = bs ++ rest ∧ Utf8Char bs v

theorem plain_starts {v : Nat} {bs rest : List Byte} (hv : Encodable v) (h : Spec.utf8 v = bs) :
    StartsChar (bs ++ rest) :=
  ⟨bs, v, rest, rfl, h ▸ .plain hv⟩

theorem announced_two {b : Byte} (h1 : ¬ b.toNat ≤ 0xbf) (h2 : b.toNat ≤ 0xdf) : announced b = 2 := by
  unfold announced; rw [if_neg (by omega), if_pos h2]
theorem announced_three {b : Byte} (h1 : ¬ b.toNat ≤ 0xdf) (h2 : b.toNat ≤ 0xef) : announced b = 3 := by
  unfold announced; rw [if_neg (by omega), if_neg h1, if_pos h2]
theorem announced_four {b : Byte} (h1 : ¬ b.toNat ≤ 0xef) (h2 : b.toNat ≤ 0xf7) : announced b = 4 := by
  unfold announced; rw [if_neg (by omega), if_neg (by omega), if_neg h1, if_pos h2]
theorem announced_five {b : Byte} (h1 : ¬ b.toNat ≤ 0xf7) (h2 : b.toNat ≤ 0xfb) : announced b = 5 := by
  unfold announced; rw [if_neg (by omega), if_neg (by omega), if_neg (by omega), if_neg h1, if_pos h2]
theorem announced_six {b : Byte} (h1 : ¬ b.toNat ≤ 0xfb) (h2 : b.toNat ≤ 0xfd) : announced b = 6 := by
  unfold announced
  rw [if_neg (by omega), if_neg (by omega), if_neg (by omega), if_neg (by omega), if_neg h1, if_pos h2]

theorem conts_cons {a : Byte} {s : List Byte} (h1 : 0x80 ≤ a.toNat) (h2 : a.toNat ≤ 0xbf)
    (h : ∀ c ∈ s, IsCont c) : ∀ c ∈ a :: s, IsCont c := by
  intro c hc
  rcases List.mem_cons.1 hc with rfl | hc
  · exact ⟨h1, h2⟩
  · exact h c hc

theorem conts_nil : ∀ c ∈ ([] : List Byte), IsCont c := by intro c hc; simp at hc

theorem decode_inv {s post : List Byte} {c : U32} {q : List Byte} (hs : NulFree s) (hne : s ≠ [])
    (h : decodeUtf8 (s ++ 0 :: post) = .ok (c, some q)) : StartsChar s ∨ Truncated s := by
  cases s with
  | nil => exact absurd rfl hne
  | cons uc s =>
  have ⟨h0, hs⟩ := NulFree.cons.1 hs
  have h0' := toNat_ne_zero h0
  have hlt := uc.isLt
  simp only [List.cons_append, decodeUtf8] at h
  by_cases h1 : uc.toNat ≤ 0x7f
  · left
    refine plain_starts (v := uc.toNat) (bs := [uc]) ⟨by omega, by omega, by unfold Surrogate; omega⟩ ?_
    unfold Spec.utf8 Spec.utf8Values
    rw [if_pos (by omega)]
    simp only [List.map_cons, List.map_nil, byte_eq rfl]
  rw [if_neg h1] at h
  by_cases h2 : uc.toNat ≤ 0xbf
  · rw [if_pos h2] at h; exact (fail_ne h).elim
  rw [if_neg h2] at h
  by_cases h3 : uc.toNat ≤ 0xdf
  · rw [if_pos h3] at h
    have ha := announced_two h2 h3
    rcases nextByte_inv hs h with rfl | ⟨u1, s1, rfl, a1, b1, hs1, h⟩
    · exact .inr (.short conts_nil (by rw [ha]; simp))
    left
    simp only [rawDecodeUtf8_2_toNat] at h
    by_cases hr : uc.toNat % 32 * 64 + u1.toNat % 64 < 0x80
    · rw [if_pos hr] at h; exact (fail_ne h).elim
    refine plain_starts (v := uc.toNat % 32 * 64 + u1.toNat % 64) (bs := [uc, u1])
      ⟨by omega, by omega, by unfold Surrogate; omega⟩ ?_
    unfold Spec.utf8 Spec.utf8Values
    rw [if_neg (by omega), if_pos (by omega)]
    simp only [List.map_cons, List.map_nil]
    rw [byte_eq (b := uc) (by omega), byte_eq (b := u1) (by omega)]
  rw [if_neg h3] at h
  by_cases h4 : uc.toNat ≤ 0xef
  · rw [if_pos h4] at h
    have ha := announced_three h3 h4
    rcases nextByte_inv hs h with rfl | ⟨u1, s1, rfl, a1, b1, hs1, h⟩
    · exact .inr (.short conts_nil (by rw [ha]; simp))
    rcases nextByte_inv hs1 h with rfl | ⟨u2, s2, rfl, a2, b2, hs2, h⟩
    · exact .inr (.short (conts_cons a1 b1 conts_nil) (by rw [ha]; simp))
    simp only [rawDecodeUtf8_3_toNat] at h
    generalize hw : uc.toNat % 16 * 4096 + u1.toNat % 64 * 64 + u2.toNat % 64 = w at h
    by_cases hf : isFirstHalfUtf16 w = true
    · rw [if_pos hf] at h
      obtain ⟨hf1, hf2⟩ := (isFirstHalf_iff w).1 hf
      have hED : uc.toNat = 0xED := by omega
      have hc1 : 0xA0 ≤ u1.toNat := by omega
      have hc2 : u1.toNat ≤ 0xAF := by omega
      rcases nextByte_inv hs2 h with rfl | ⟨u3, s3, rfl, a3, b3, hs3, h⟩
      · exact .inr (.half0 hED hc1 hc2 ⟨a2, b2⟩)
      rcases nextByte_inv hs3 h with rfl | ⟨u4, s4, rfl, a4, b4, hs4, h⟩
      · exact .inr (.half1 hED hc1 hc2 ⟨a2, b2⟩ a3 b3)
      rcases nextByte_inv hs4 h with rfl | ⟨u5, s5, rfl, a5, b5, hs5, h⟩
      · exact .inr (.half2 hED hc1 hc2 ⟨a2, b2⟩ a3 b3 ⟨a4, b4⟩)
      left
      generalize hw2 : u3.toNat % 16 * 4096 + u4.toNat % 64 * 64 + u5.toNat % 64 = w2 at h
      by_cases hse : isSecondHalfUtf16 w2 = true
      · obtain ⟨hs1, hs2⟩ := (isSecondHalf_iff w2).1 hse
        refine ⟨[uc, u1, u2] ++ [u3, u4, u5], Spec.pairValue w w2, s5, rfl, ?_⟩
        have e1 : Spec.utf8 w = [uc, u1, u2] := by
          rw [utf8_three (by omega) (by omega), byte_eq (b := uc) (by omega),
            byte_eq (b := u1) (by omega), byte_eq (b := u2) (by omega)]
        have e2 : Spec.utf8 w2 = [u3, u4, u5] := by
          rw [utf8_three (by omega) (by omega), byte_eq (b := u3) (by omega),
            byte_eq (b := u4) (by omega), byte_eq (b := u5) (by omega)]
        rw [← e1, ← e2]
        exact .pair ⟨hf1, hf2⟩ ⟨hs1, hs2⟩
      · rw [if_neg hse] at h; exact (fail_ne h).elim
    · rw [if_neg hf] at h
      left
      by_cases hbad : (decide (w < 2048) || isSecondHalfUtf16 w) = true
      · rw [if_pos hbad] at h; exact (fail_ne h).elim
      rw [Bool.or_eq_true, not_or, decide_eq_true_eq, isSecondHalf_iff] at hbad
      rw [isFirstHalf_iff] at hf
      have hns : ¬ Surrogate w := by
        rw [surrogate_iff]; exact fun h => h.elim hf hbad.2
      refine plain_starts (v := w) (bs := [uc, u1, u2]) ⟨by omega, by omega, hns⟩ ?_
      rw [utf8_three (by omega) (by omega), byte_eq (b := uc) (by omega),
        byte_eq (b := u1) (by omega), byte_eq (b := u2) (by omega)]
  rw [if_neg h4] at h
  by_cases h5 : uc.toNat ≤ 0xf7
  · rw [if_pos h5] at h
    have ha := announced_four h4 h5
    rcases nextByte_inv hs h with rfl | ⟨u1, s1, rfl, a1, b1, hs1, h⟩
    · exact .inr (.short conts_nil (by rw [ha]; simp))
    rcases nextByte_inv hs1 h with rfl | ⟨u2, s2, rfl, a2, b2, hs2, h⟩
    · exact .inr (.short (conts_cons a1 b1 conts_nil) (by rw [ha]; simp))
    rcases nextByte_inv hs2 h with rfl | ⟨u3, s3, rfl, a3, b3, hs3, h⟩
    · exact .inr (.short (conts_cons a1 b1 (conts_cons a2 b2 conts_nil)) (by rw [ha]; simp))
    left
    simp only [rawDecodeUtf8_4_toNat] at h
    generalize hw : uc.toNat % 8 * 262144 + u1.toNat % 64 * 4096 + u2.toNat % 64 * 64 +
      u3.toNat % 64 = w at h
    by_cases hr : w < 0x10000
    · rw [if_pos hr] at h; exact (fail_ne h).elim
    refine plain_starts (v := w) (bs := [uc, u1, u2, u3])
      ⟨by omega, by omega, by unfold Surrogate; omega⟩ ?_
    unfold Spec.utf8 Spec.utf8Values
    rw [if_neg (by omega), if_neg (by omega), if_neg (by omega), if_pos (by omega)]
    simp only [List.map_cons, List.map_nil]
    rw [byte_eq (b := uc) (by omega), byte_eq (b := u1) (by omega), byte_eq (b := u2) (by omega),
      byte_eq (b := u3) (by omega)]
  rw [if_neg h5] at h
  by_cases h6 : uc.toNat ≤ 0xfb
  · rw [if_pos h6] at h
    have ha := announced_five h5 h6
    rcases nextByte_inv hs h with rfl | ⟨u1, s1, rfl, a1, b1, hs1, h⟩
    · exact .inr (.short conts_nil (by rw [ha]; simp))
    rcases nextByte_inv hs1 h with rfl | ⟨u2, s2, rfl, a2, b2, hs2, h⟩
    · exact .inr (.short (conts_cons a1 b1 conts_nil) (by rw [ha]; simp))
    rcases nextByte_inv hs2 h with rfl | ⟨u3, s3, rfl, a3, b3, hs3, h⟩
    · exact .inr (.short (conts_cons a1 b1 (conts_cons a2 b2 conts_nil)) (by rw [ha]; simp))
    rcases nextByte_inv hs3 h with rfl | ⟨u4, s4, rfl, a4, b4, hs4, h⟩
    · exact .inr (.short (conts_cons a1 b1 (conts_cons a2 b2 (conts_cons a3 b3 conts_nil)))
        (by rw [ha]; simp))
    left
    simp only [rawDecodeUtf8_5_toNat] at h
    generalize hw : uc.toNat % 4 * 16777216 + u1.toNat % 64 * 262144 + u2.toNat % 64 * 4096 +
      u3.toNat % 64 * 64 + u4.toNat % 64 = w at h
    by_cases hr : w < 0x200000
    · rw [if_pos hr] at h; exact (fail_ne h).elim
    refine plain_starts (v := w) (bs := [uc, u1, u2, u3, u4])
      ⟨by omega, by omega, by unfold Surrogate; omega⟩ ?_
    unfold Spec.utf8 Spec.utf8Values
    rw [if_neg (by omega), if_neg (by omega), if_neg (by omega), if_neg (by omega), if_pos (by omega)]
    simp only [List.map_cons, List.map_nil]
    rw [byte_eq (b := uc) (by omega), byte_eq (b := u1) (by omega), byte_eq (b := u2) (by omega),
      byte_eq (b := u3) (by omega), byte_eq (b := u4) (by omega)]
  rw [if_neg h6] at h
  by_cases h7 : uc.toNat ≤ 0xfd
  · rw [if_pos h7] at h
    have ha := announced_six h6 h7
    rcases nextByte_inv hs h with rfl | ⟨u1, s1, rfl, a1, b1, hs1, h⟩
    · exact .inr (.short conts_nil (by rw [ha]; simp))
    rcases nextByte_inv hs1 h with rfl | ⟨u2, s2, rfl, a2, b2, hs2, h⟩
    · exact .inr (.short (conts_cons a1 b1 conts_nil) (by rw [ha]; simp))
    rcases nextByte_inv hs2 h with rfl | ⟨u3, s3, rfl, a3, b3, hs3, h⟩
    · exact .inr (.short (conts_cons a1 b1 (conts_cons a2 b2 conts_nil)) (by rw [ha]; simp))
    rcases nextByte_inv hs3 h with rfl | ⟨u4, s4, rfl, a4, b4, hs4, h⟩
    · exact .inr (.short (conts_cons a1 b1 (conts_cons a2 b2 (conts_cons a3 b3 conts_nil)))
        (by rw [ha]; simp))
    rcases nextByte_inv hs4 h with rfl | ⟨u5, s5, rfl, a5, b5, hs5, h⟩
    · exact .inr (.short (conts_cons a1 b1 (conts_cons a2 b2 (conts_cons a3 b3
        (conts_cons a4 b4 conts_nil)))) (by rw [ha]; simp))
    left
    simp only [rawDecodeUtf8_6_toNat] at h
    generalize hw : uc.toNat % 2 * 1073741824 + u1.toNat % 64 * 16777216 + u2.toNat % 64 * 262144 +
      u3.toNat % 64 * 4096 + u4.toNat % 64 * 64 + u5.toNat % 64 = w at h
    by_cases hr : w < 0x4000000
    · rw [if_pos hr] at h; exact (fail_ne h).elim
    refine plain_starts (v := w) (bs := [uc, u1, u2, u3, u4, u5])
      ⟨by omega, by omega, by unfold Surrogate; omega⟩ ?_
    unfold Spec.utf8 Spec.utf8Values
    rw [if_neg (by omega), if_neg (by omega), if_neg (by omega), if_neg (by omega), if_neg (by omega)]
    simp only [List.map_cons, List.map_nil]
    rw [byte_eq (b := uc) (by omega), byte_eq (b := u1) (by omega), byte_eq (b := u2) (by omega),
      byte_eq (b := u3) (by omega), byte_eq (b := u4) (by omega), byte_eq (b := u5) (by omega)]
  · rw [if_neg h7] at h; exact (fail_ne h).elim

/-! ## No undefined behaviour in front of a NUL -/

theorem nextByte_safe {lo hi : Nat} {a : Byte} {s post : List Byte}
    {k : Byte → List Byte → Res Decoded} (hs : NulFree s)
    (hk : ∀ uc s', NulFree s' → k uc (uc :: (s' ++ 0 :: post)) ≠ .ub) :
    nextByte lo hi (a :: (s ++ 0 :: post)) k ≠ .ub := by
  cases s with
  | nil => rw [List.nil_append, nextByte_stop]; simp
  | cons uc s' =>
    have ⟨h0, hs'⟩ := NulFree.cons.1 hs
    unfold nextByte
    simp only [List.tail_cons, List.cons_append]
    rw [if_neg h0]
    by_cases hr : uc.toNat < lo ∨ uc.toNat > hi
    · rw [if_pos hr]; simp [decodeFail]
    · rw [if_neg hr]; exact hk uc s' hs'

theorem ite_safe {P : Prop} [Decidable P] {a b : Res Decoded} (ha : a ≠ .ub) (hb : b ≠ .ub) :
    (if P then a else b) ≠ .ub := by
  by_cases h : P
  · rw [if_pos h]; exact ha
  · rw [if_neg h]; exact hb

theorem fail_safe : decodeFail ≠ .ub := by simp [decodeFail]
theorem ok_safe {d : Decoded} : (Res.ok d) ≠ .ub := by simp

theorem decode_safe {s post : List Byte} (hs : NulFree s) : decodeUtf8 (s ++ 0 :: post) ≠ .ub := by
  cases s with
  | nil => simp [decodeUtf8]
  | cons uc s =>
  have ⟨_, hs⟩ := NulFree.cons.1 hs
  simp only [List.cons_append, decodeUtf8]
  refine ite_safe ok_safe (ite_safe fail_safe (ite_safe ?_ (ite_safe ?_ (ite_safe ?_ (ite_safe ?_
    (ite_safe ?_ fail_safe))))))
  · exact nextByte_safe hs fun _ _ _ => ite_safe fail_safe ok_safe
  · refine nextByte_safe hs fun _ _ h1 => nextByte_safe h1 fun _ _ h2 => ite_safe ?_
      (ite_safe fail_safe ok_safe)
    exact nextByte_safe h2 fun _ _ h3 => nextByte_safe h3 fun _ _ h4 => nextByte_safe h4
      fun _ _ _ => ite_safe ok_safe fail_safe
  · exact nextByte_safe hs fun _ _ h1 => nextByte_safe h1 fun _ _ h2 => nextByte_safe h2
      fun _ _ _ => ite_safe fail_safe ok_safe
  · exact nextByte_safe hs fun _ _ h1 => nextByte_safe h1 fun _ _ h2 => nextByte_safe h2
      fun _ _ h3 => nextByte_safe h3 fun _ _ _ => ite_safe fail_safe ok_safe
  · exact nextByte_safe hs fun _ _ h1 => nextByte_safe h1 fun _ _ h2 => nextByte_safe h2
      fun _ _ h3 => nextByte_safe h3 fun _ _ h4 => nextByte_safe h4 fun _ _ _ =>
      ite_safe fail_safe ok_safe

/-! ## The three cases -/

/-- Decoding fails at the start of the text. -/
def Fails (s : List Byte) : Prop := ∀ post, ∃ c, decodeUtf8 (s ++ 0 :: post) = .ok (c, none)

theorem decode_cases {s : List Byte} (hs : NulFree s) (hne : s ≠ []) :
    StartsChar s ∨ Truncated s ∨ Fails s := by
  by_cases hst : StartsChar s
  · exact .inl hst
  by_cases ht : Truncated s
  · exact .inr (.inl ht)
  right; right
  intro post
  cases hd : decodeUtf8 (s ++ 0 :: post) with
  | ub => exact absurd hd (decode_safe hs)
  | ok d =>
    obtain ⟨c, q⟩ := d
    cases q with
    | none => exact ⟨c, rfl⟩
    | some q => exact ((decode_inv hs hne hd).elim hst ht).elim

end Ansak
