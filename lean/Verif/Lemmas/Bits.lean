import Verif.Model.StringTo
import Verif.Model.StringIs
import Verif.Spec.Utf8

/-!
# Bit arithmetic of the model in terms of division and remainder
-/

namespace Ansak

theorem and_mask (x k : Nat) : x &&& (2 ^ k - 1) = x % 2 ^ k := Nat.and_two_pow_sub_one_eq_mod x k

theorem and_1f (x : Nat) : x &&& 0x1f = x % 32 := and_mask x 5
theorem and_3f (x : Nat) : x &&& 0x3f = x % 64 := and_mask x 6
theorem and_0f (x : Nat) : x &&& 0x0f = x % 16 := and_mask x 4
theorem and_07 (x : Nat) : x &&& 0x07 = x % 8 := and_mask x 3
theorem and_03 (x : Nat) : x &&& 0x03 = x % 4 := and_mask x 2
theorem and_01 (x : Nat) : x &&& 0x01 = x % 2 := and_mask x 1
theorem and_3ff (x : Nat) : x &&& 0x3ff = x % 1024 := and_mask x 10

theorem or_high (i a b : Nat) (h : b < 2 ^ i) : b ||| 2 ^ i * a = 2 ^ i * a + b := by
  rw [Nat.or_comm, Nat.two_pow_add_eq_or_of_lt h]

theorem or_c0 (b : Nat) (h : b < 32) : b ||| 0xc0 = 0xc0 + b := or_high 5 6 b h
theorem or_80 (b : Nat) (h : b < 64) : b ||| 0x80 = 0x80 + b := or_high 6 2 b h
theorem or_e0 (b : Nat) (h : b < 16) : b ||| 0xe0 = 0xe0 + b := or_high 4 14 b h
theorem or_f0 (b : Nat) (h : b < 8) : b ||| 0xf0 = 0xf0 + b := or_high 3 30 b h
theorem or_f8 (b : Nat) (h : b < 4) : b ||| 0xf8 = 0xf8 + b := or_high 2 62 b h
theorem or_fc (b : Nat) (h : b < 2) : b ||| 0xfc = 0xfc + b := or_high 1 126 b h

/-- Masking out the low `k` bits of a number below `2^m` gives zero exactly for small numbers. -/
theorem and_high_eq_zero {x k m : Nat} (hkm : k ≤ m) (hx : x < 2 ^ m) :
    x &&& (2 ^ m - 2 ^ k) = 0 ↔ x < 2 ^ k := by
  constructor
  · intro h
    by_cases hlt : x < 2 ^ k
    · exact hlt
    · exfalso
      obtain ⟨i, hi, hbit⟩ := Nat.exists_ge_and_testBit_of_ge_two_pow (Nat.not_lt.mp hlt)
      have him : i < m := by
        apply Decidable.byContradiction
        intro hge
        have h1 : 2 ^ m ≤ 2 ^ i := Nat.pow_le_pow_right (by decide) (Nat.not_lt.mp hge)
        have := Nat.testBit_lt_two_pow (Nat.lt_of_lt_of_le hx h1)
        simp [this] at hbit
      have hz : (x &&& (2 ^ m - 2 ^ k)).testBit i = true := by
        rw [Nat.testBit_and, hbit]
        have : 2 ^ m - 2 ^ k = 2 ^ k * (2 ^ (m - k) - 1) := by
          rw [Nat.mul_sub, ← Nat.pow_add]
          simp [Nat.add_sub_cancel' hkm]
        rw [this, Nat.testBit_two_pow_mul]
        simp only [hi, decide_true, Bool.true_and, Nat.testBit_two_pow_sub_one, decide_eq_true_eq]
        omega
      rw [h] at hz
      simp at hz
  · intro h
    have : 2 ^ m - 2 ^ k = 2 ^ k * (2 ^ (m - k) - 1) := by
      rw [Nat.mul_sub, ← Nat.pow_add]
      simp [Nat.add_sub_cancel' hkm]
    rw [this]
    apply Nat.eq_of_testBit_eq
    intro i
    rw [Nat.testBit_and, Nat.testBit_two_pow_mul]
    by_cases hik : k ≤ i
    · have h1 : 2 ^ k ≤ 2 ^ i := Nat.pow_le_pow_right (by decide) hik
      simp [Nat.testBit_lt_two_pow (Nat.lt_of_lt_of_le h h1)]
    · simp [hik]

theorem and_80000000 {x : Nat} (h : x < 2 ^ 32) : x &&& 0x80000000 = 0 ↔ x < 0x80000000 :=
  and_high_eq_zero (k := 31) (m := 32) (by decide) h

theorem and_ffffff80 {x : Nat} (h : x < 2 ^ 32) : x &&& 0xffffff80 = 0 ↔ x < 0x80 :=
  and_high_eq_zero (k := 7) (m := 32) (by decide) h

theorem and_ffe00000 {x : Nat} (h : x < 2 ^ 32) : x &&& 0xffe00000 = 0 ↔ x < 0x200000 :=
  and_high_eq_zero (k := 21) (m := 32) (by decide) h

/-! ## The encoders agree with the specification -/

theorem encodeUtf8_eq {v : Nat} (hv : v ≤ 0x7fffffff) : encodeUtf8 v = Spec.utf8 v := by
  have h32 : v < 2 ^ 32 := by omega
  unfold encodeUtf8 Spec.utf8 Spec.utf8Values
  simp only [and_ffffff80 h32, and_1f, and_3f, and_0f, and_07, and_03, and_01, Nat.shiftRight_eq_div_pow]
  by_cases h1 : v < 0x80
  · simp [h1]
  by_cases h2 : v ≤ 0x7ff
  · have h2' : v < 0x800 := by omega
    rw [if_neg h1, if_neg h1, if_pos h2, if_pos h2']
    rw [or_c0 _ (by omega), or_80 _ (by omega)]
    simp only [List.map_cons, List.map_nil]
    have : v / 2 ^ 6 % 32 = v / 0x40 := by omega
    rw [this]
  have h2' : ¬ v < 0x800 := by omega
  by_cases h3 : v ≤ 0xffff
  · have h3' : v < 0x10000 := by omega
    rw [if_neg h1, if_neg h1, if_neg h2, if_neg h2', if_pos h3, if_pos h3']
    rw [or_e0 _ (by omega), or_80 _ (by omega), or_80 _ (by omega)]
    simp only [List.map_cons, List.map_nil]
    have : v / 2 ^ 12 % 16 = v / 0x1000 := by omega
    rw [this]
  have h3' : ¬ v < 0x10000 := by omega
  by_cases h4 : v ≤ 0x1fffff
  · have h4' : v < 0x200000 := by omega
    rw [if_neg h1, if_neg h1, if_neg h2, if_neg h2', if_neg h3, if_neg h3', if_pos h4, if_pos h4']
    rw [or_f0 _ (by omega), or_80 _ (by omega), or_80 _ (by omega), or_80 _ (by omega)]
    simp only [List.map_cons, List.map_nil]
    have : v / 2 ^ 18 % 8 = v / 0x40000 := by omega
    rw [this]
  have h4' : ¬ v < 0x200000 := by omega
  by_cases h5 : v ≤ 0x3ffffff
  · have h5' : v < 0x4000000 := by omega
    rw [if_neg h1, if_neg h1, if_neg h2, if_neg h2', if_neg h3, if_neg h3', if_neg h4, if_neg h4',
      if_pos h5, if_pos h5']
    rw [or_f8 _ (by omega), or_80 _ (by omega), or_80 _ (by omega), or_80 _ (by omega),
      or_80 _ (by omega)]
    simp only [List.map_cons, List.map_nil]
    have : v / 2 ^ 24 % 4 = v / 0x1000000 := by omega
    rw [this]
  have h5' : ¬ v < 0x4000000 := by omega
  rw [if_neg h1, if_neg h1, if_neg h2, if_neg h2', if_neg h3, if_neg h3', if_neg h4, if_neg h4',
    if_neg h5, if_neg h5', if_pos hv]
  rw [or_fc _ (by omega), or_80 _ (by omega), or_80 _ (by omega), or_80 _ (by omega),
    or_80 _ (by omega), or_80 _ (by omega)]
  simp only [List.map_cons, List.map_nil]
  have : v / 2 ^ 30 % 2 = v / 0x40000000 := by omega
  rw [this]

theorem rawEncodeUtf16_eq {v : Nat} (hv : v ≤ 0x10ffff) : rawEncodeUtf16 v = Spec.utf16 v := by
  unfold rawEncodeUtf16 Spec.utf16
  simp only [and_3ff, Nat.shiftRight_eq_div_pow]
  split
  · rfl
  · have : (v - 0x10000) / 2 ^ 10 % 1024 = (v - 0x10000) / 0x400 := by omega
    rw [this]

/-! ## Tests on surrogates -/

theorem isFirstHalf_iff (c : Nat) : isFirstHalfUtf16 c = true ↔ Spec.HighSurrogate c := by
  simp [isFirstHalfUtf16, Spec.HighSurrogate]

theorem isSecondHalf_iff (c : Nat) : isSecondHalfUtf16 c = true ↔ Spec.LowSurrogate c := by
  simp [isSecondHalfUtf16, Spec.LowSurrogate]

theorem isFirstHalf_false (c : Nat) : isFirstHalfUtf16 c = false ↔ ¬ Spec.HighSurrogate c := by
  rw [← isFirstHalf_iff]; simp

theorem isSecondHalf_false (c : Nat) : isSecondHalfUtf16 c = false ↔ ¬ Spec.LowSurrogate c := by
  rw [← isSecondHalf_iff]; simp

theorem surrogate_iff (c : Nat) : Spec.Surrogate c ↔ Spec.HighSurrogate c ∨ Spec.LowSurrogate c := by
  unfold Spec.Surrogate Spec.HighSurrogate Spec.LowSurrogate; omega

theorem isUtf16Encodable_iff (c : Nat) : isUtf16Encodable c = true ↔ c ≤ 0x10ffff := by
  unfold isUtf16Encodable
  simp only [Bool.and_eq_true, decide_eq_true_eq]
  constructor
  · exact fun h => h.1
  · intro h
    exact ⟨h, (and_ffe00000 (by omega)).2 (by omega)⟩

/-! ## Raw decoding -/

theorem rawDecodeUtf8_2_toNat (a b : Byte) :
    (rawDecodeUtf8_2 a b).toNat = a.toNat % 32 * 64 + b.toNat % 64 := by
  unfold rawDecodeUtf8_2
  simp only [and_1f, and_3f, Nat.shiftLeft_eq, BitVec.toNat_ofNat]
  omega

theorem rawDecodeUtf8_3_toNat (a b c : Byte) :
    (rawDecodeUtf8_3 a b c).toNat = a.toNat % 16 * 4096 + b.toNat % 64 * 64 + c.toNat % 64 := by
  unfold rawDecodeUtf8_3
  simp only [and_0f, and_3f, Nat.shiftLeft_eq, BitVec.toNat_ofNat]
  omega

theorem rawDecodeUtf8_4_toNat (a b c d : Byte) :
    (rawDecodeUtf8_4 a b c d).toNat =
      a.toNat % 8 * 262144 + b.toNat % 64 * 4096 + c.toNat % 64 * 64 + d.toNat % 64 := by
  unfold rawDecodeUtf8_4
  simp only [and_07, and_3f, Nat.shiftLeft_eq, BitVec.toNat_ofNat]
  omega

theorem rawDecodeUtf8_5_toNat (a b c d e : Byte) :
    (rawDecodeUtf8_5 a b c d e).toNat =
      a.toNat % 4 * 16777216 + b.toNat % 64 * 262144 + c.toNat % 64 * 4096 + d.toNat % 64 * 64 +
        e.toNat % 64 := by
  unfold rawDecodeUtf8_5
  simp only [and_03, and_3f, Nat.shiftLeft_eq, BitVec.toNat_ofNat]
  omega

theorem rawDecodeUtf8_6_toNat (a b c d e f : Byte) :
    (rawDecodeUtf8_6 a b c d e f).toNat =
      a.toNat % 2 * 1073741824 + b.toNat % 64 * 16777216 + c.toNat % 64 * 262144 +
        d.toNat % 64 * 4096 + e.toNat % 64 * 64 + f.toNat % 64 := by
  unfold rawDecodeUtf8_6
  simp only [and_01, and_3f, Nat.shiftLeft_eq, BitVec.toNat_ofNat]
  omega

theorem rawDecodeUtf16_toNat (a b : U16) :
    (rawDecodeUtf16 a b).toNat = 0x10000 + a.toNat % 1024 * 1024 + b.toNat % 1024 := by
  unfold rawDecodeUtf16
  simp only [and_3ff, Nat.shiftLeft_eq, BitVec.toNat_ofNat]
  omega

end Ansak
