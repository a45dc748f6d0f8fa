import Verif.Props.Validate
import Verif.Lemmas.Unicode.Compare
import Verif.Lemmas.Unicode.Stable

/-!
# C25, C26, C27, C37: the character tables of the ten Unicode versions
-/

namespace Ansak.Props

open Spec (textOf InRanges Assigned lowerOf PrivateUse Control WhiteSpace lowerDeviations)
open Unicode (charClass toLowerChar)

/-! ## C25: assigned characters follow UnicodeData -/

theorem test_assigned : ∀ a b c d : Bool,
    (Pred.validIf kIsAssigned).test (encodingTypeMask a b c d) = a := by decide

theorem test_private : ∀ a b c d : Bool,
    (Pred.validIf kIsPrivate).test (encodingTypeMask a b c d) = b := by decide

theorem test_control : ∀ a b c d : Bool,
    (Pred.validIf kIsControl).test (encodingTypeMask a b c d) = c := by decide

theorem test_white : ∀ a b c d : Bool,
    (Pred.validIf kIsWhitespace).test (encodingTypeMask a b c d) = d := by decide

theorem u32_le (c : U32) : c.toNat ≤ 0xFFFFFFFF := by have := c.isLt; omega
theorem u16_le (c : U16) : c.toNat ≤ 0xFFFF := by have := c.isLt; omega
theorem u8_le (c : Byte) : c.toNat ≤ 0xFF := by have := c.isLt; omega

theorem C25_char32 (v : Version) (c : U32) :
    (Pred.validIf kIsAssigned).call32 (charClass v) c.toNat = true ↔ Assigned v c.toNat := by
  unfold Pred.call32 charToEncodingTypeMask32
  rw [test_assigned]
  exact Unicode.assigned_iff v c.toNat (u32_le c)

theorem C25_char16 (v : Version) (c : U16) :
    (Pred.validIf kIsAssigned).call16 (charClass v) c.toNat = true ↔ Assigned v c.toNat := by
  unfold Pred.call16 charToEncodingTypeMask16
  rw [test_assigned]
  have h := u16_le c
  show (Unicode.isUnicodeAssigned16 v).eval c.toNat = true ↔ _
  rw [Unicode.assigned16_eq v _ h]
  exact Unicode.assigned_iff v c.toNat (by omega)

/-- For whole strings: the predicate lets a UCS-4 string through exactly if the string is acceptable
without it and each of its characters is in UnicodeData.txt. -/
theorem C25_isUcs4 (v : Version) (r : Spec.Range) (s : List U32) :
    isUcs4S (charClass v) s r.code (Pred.validIf kIsAssigned) = .ok true ↔
      isUcs4S (charClass v) s r.code Pred.none = .ok true ∧
        ∀ c ∈ textOf s, Assigned v c.toNat := by
  rw [C23_isUcs4]
  exact and_congr_right fun _ => forall_congr' fun c => imp_congr_right fun _ => C25_char32 v c

/-- The same for UTF-8 and the characters it encodes. -/
theorem C25_isUtf8 (v : Version) (r : Spec.Range) (s : List Byte) :
    isUtf8S (charClass v) s r.code (Pred.validIf kIsAssigned) = .ok true ↔
      isUtf8S (charClass v) s r.code Pred.none = .ok true ∧
        ∀ vs t, Spec.Utf8Reads (textOf s) vs t → ∀ x ∈ vs, Assigned v x := by
  rw [C23_isUtf8]
  refine and_congr_right fun _ => forall_congr' fun vs => forall_congr' fun t =>
    forall_congr' fun hr => forall_congr' fun x => forall_congr' fun hx => ?_
  have h := C25_char32 v (BitVec.ofNat 32 x)
  have hlt : x < 2 ^ 32 := by
    have := reads_encodable hr x hx
    unfold Spec.Encodable at this
    omega
  rw [BitVec.toNat_ofNat, Nat.mod_eq_of_lt hlt] at h
  exact h

/-- U+1F600 and U+E01EF are assigned in every version; U+0378, the surrogates and values beyond
U+10FFFF are not; U+20BF (bitcoin sign) came with version 10. -/
example : (∀ v, Assigned v 0x1F600 ∧ Assigned v 0xE01EF ∧ ¬ Assigned v 0x378 ∧
    ¬ Assigned v 0xD800 ∧ ¬ Assigned v 0x110041) ∧
    ¬ Assigned .v9 0x20BF ∧ Assigned .v10 0x20BF := by
  have key : ∀ v x, x ≤ 0xFFFFFFFF →
      (Assigned v x ↔ (Unicode.isUnicodeAssigned32 v).eval x = true) :=
    fun v x hx => (Unicode.assigned_iff v x hx).symm
  refine ⟨fun v => ?_, ?_, ?_⟩
  · rw [key _ _ (by decide), key _ _ (by decide), key _ _ (by decide), key _ _ (by decide),
      key _ _ (by decide)]
    cases v <;> decide +kernel
  · rw [key _ _ (by decide)]; decide +kernel
  · rw [key _ _ (by decide)]; decide +kernel

/-- Hence the violation of C23 by UTF-16 strings occurs in all ten versions. -/
theorem C23_isUtf16_violated_all (v : Version) :
    toUcs4From16S [0xD83D, 0xDE00] = .ok [0x1F600] ∧
    isUtf16S (charClass v) [0xD83D, 0xDE00] kUtf16 Pred.none = .ok true ∧
    (Pred.validIf kIsAssigned).call32 (charClass v) 0x1F600 = true ∧
    isUtf16S (charClass v) [0xD83D, 0xDE00] kUtf16 (Pred.validIf kIsAssigned) = .ok false :=
  C23_isUtf16_violated (charClass v) (by cases v <;> decide +kernel)
    (by cases v <;> decide +kernel)

/-! ## C26: private use, control and white space -/

theorem inRanges_nil {x : Nat} : InRanges [] x ↔ False :=
  ⟨fun ⟨_, h, _⟩ => (by cases h), False.elim⟩

theorem inRanges_cons {r : Nat × Nat} {rs : List (Nat × Nat)} {x : Nat} :
    InRanges (r :: rs) x ↔ (r.1 ≤ x ∧ x ≤ r.2) ∨ InRanges rs x := by
  unfold InRanges
  constructor
  · rintro ⟨q, hq, h⟩
    rcases List.mem_cons.1 hq with rfl | hq
    · exact Or.inl h
    · exact Or.inr ⟨q, hq, h⟩
  · rintro (h | ⟨q, hq, h⟩)
    · exact ⟨r, List.mem_cons_self .., h⟩
    · exact ⟨q, List.mem_cons_of_mem _ hq, h⟩

theorem C26_private32 (v : Version) (c : U32) :
    (Pred.validIf kIsPrivate).call32 (charClass v) c.toNat = true ↔ PrivateUse c.toNat := by
  unfold Pred.call32 charToEncodingTypeMask32 PrivateUse
  rw [test_private]
  refine (Unicode.private32_ranges v c.toNat (u32_le c)).trans ?_
  rw [inRanges_cons, inRanges_cons, inRanges_cons, inRanges_nil, or_false]

theorem C26_private16 (v : Version) (c : U16) :
    (Pred.validIf kIsPrivate).call16 (charClass v) c.toNat = true ↔ PrivateUse c.toNat := by
  unfold Pred.call16 charToEncodingTypeMask16 PrivateUse
  rw [test_private]
  have h := u16_le c
  refine (Unicode.private16_ranges v c.toNat h).trans ?_
  rw [inRanges_cons, inRanges_nil, or_false]
  dsimp only
  omega

theorem C26_control32 (v : Version) (c : U32) :
    (Pred.validIf kIsControl).call32 (charClass v) c.toNat = true ↔ Control c.toNat := by
  unfold Pred.call32 charToEncodingTypeMask32 Control
  rw [test_control]
  refine (Unicode.control32_ranges v c.toNat (u32_le c)).trans ?_
  rw [inRanges_cons, inRanges_cons, inRanges_nil, or_false]
  dsimp only
  omega

theorem C26_control16 (v : Version) (c : U16) :
    (Pred.validIf kIsControl).call16 (charClass v) c.toNat = true ↔ Control c.toNat := by
  unfold Pred.call16 charToEncodingTypeMask16 Control
  rw [test_control]
  refine (Unicode.control16_ranges v c.toNat (u16_le c)).trans ?_
  rw [inRanges_cons, inRanges_cons, inRanges_nil, or_false]
  dsimp only
  omega

theorem C26_control8 (v : Version) (c : Byte) :
    (Pred.validIf kIsControl).call8 (charClass v) c.toNat = true ↔ Control c.toNat := by
  unfold Pred.call8 charToEncodingTypeMask8 Control
  rw [test_control]
  refine (Unicode.control8_ranges v c.toNat (u8_le c)).trans ?_
  rw [inRanges_cons, inRanges_cons, inRanges_nil, or_false]
  dsimp only
  omega

theorem whiteSpace_iff (x : Nat) :
    InRanges [(0x9, 0xD), (0x20, 0x20), (0x85, 0x85), (0xA0, 0xA0), (0x1680, 0x1680),
      (0x2000, 0x200A), (0x2028, 0x2029), (0x202F, 0x202F), (0x205F, 0x205F),
      (0x3000, 0x3000)] x ↔ WhiteSpace x := by
  unfold WhiteSpace
  simp only [inRanges_cons, inRanges_nil, or_false, List.mem_cons, List.not_mem_nil]
  omega

theorem C26_white32 (v : Version) (c : U32) :
    (Pred.validIf kIsWhitespace).call32 (charClass v) c.toNat = true ↔ WhiteSpace c.toNat := by
  unfold Pred.call32 charToEncodingTypeMask32
  rw [test_white]
  exact (Unicode.white32_ranges v c.toNat (u32_le c)).trans (whiteSpace_iff _)

theorem C26_white16 (v : Version) (c : U16) :
    (Pred.validIf kIsWhitespace).call16 (charClass v) c.toNat = true ↔ WhiteSpace c.toNat := by
  unfold Pred.call16 charToEncodingTypeMask16
  rw [test_white]
  exact (Unicode.white16_ranges v c.toNat (u16_le c)).trans (whiteSpace_iff _)

theorem C26_white8 (v : Version) (c : Byte) :
    (Pred.validIf kIsWhitespace).call8 (charClass v) c.toNat = true ↔ WhiteSpace c.toNat := by
  unfold Pred.call8 charToEncodingTypeMask8
  rw [test_white]
  refine (Unicode.white8_ranges v c.toNat (u8_le c)).trans ?_
  rw [← whiteSpace_iff]
  have h := u8_le c
  simp only [inRanges_cons, inRanges_nil, or_false]
  omega

/-- The overloads agree: every predicate says the same of a BMP character as `char16_t` and as
`char32_t`. -/
theorem C26_overloads_agree (v : Version) (pred : Pred) (c : U16) :
    pred.call16 (charClass v) c.toNat = pred.call32 (charClass v) c.toNat := by
  have hc : (BitVec.ofNat 32 c.toNat).toNat = c.toNat := by
    have := u16_le c
    rw [BitVec.toNat_ofNat]
    exact Nat.mod_eq_of_lt (by omega)
  have agree : ∀ t : EncodingType, ∀ P : Nat → Prop,
      ((Pred.validIf t).call16 (charClass v) c.toNat = true ↔ P c.toNat) →
      ((Pred.validIf t).call32 (charClass v) (BitVec.ofNat 32 c.toNat).toNat = true ↔
        P (BitVec.ofNat 32 c.toNat).toNat) →
      (Pred.validIf t).call16 (charClass v) c.toNat =
        (Pred.validIf t).call32 (charClass v) c.toNat := by
    intro t P h1 h2
    rw [hc] at h2
    exact Bool.eq_iff_iff.2 (h1.trans h2.symm)
  have h1 := agree _ _ (C25_char16 v c) (C25_char32 v _)
  have h2 := agree _ _ (C26_private16 v c) (C26_private32 v _)
  have h3 := agree _ _ (C26_control16 v c) (C26_control32 v _)
  have h4 := agree _ _ (C26_white16 v c) (C26_white32 v _)
  unfold Pred.call16 Pred.call32 charToEncodingTypeMask16 charToEncodingTypeMask32 at h1 h2 h3 h4 ⊢
  rw [test_assigned, test_assigned] at h1
  rw [test_private, test_private] at h2
  rw [test_control, test_control] at h3
  rw [test_white, test_white] at h4
  rw [h1, h2, h3, h4]

example : PrivateUse 0xE000 ∧ PrivateUse 0x10FFFD ∧ ¬ PrivateUse 0x10FFFE ∧ Control 0x7F ∧
    ¬ Control 0x20 ∧ WhiteSpace 0x3000 ∧ ¬ WhiteSpace 0x200B := by
  unfold PrivateUse Control WhiteSpace
  decide

/-! ## C27: lower-casing follows UnicodeData -/

/-- Outside a short list of code points (`Verif/Spec/LowerDeviations.lean`) `toLower` agrees with
UnicodeData.txt. Missing from the full property: the listed code points, where it is false. -/
theorem C27_toLower_partial (v : Version) (c : U32) (h : ¬ InRanges (lowerDeviations v) c.toNat) :
    (toLowerChar v c).toNat = lowerOf v c.toNat := by
  rw [Unicode.toLowerChar_toNat, Unicode.toLower_eq v _ (u32_le c)]
  exact Unicode.mapOf_same_outside (Unicode.same_outside v) h

/-- Violation of C27: at each code point of the list `toLower` differs from UnicodeData.txt. -/
theorem C27_toLower_violated (v : Version) (c : U32) (h : InRanges (lowerDeviations v) c.toNat) :
    (toLowerChar v c).toNat ≠ lowerOf v c.toNat := by
  rw [Unicode.toLowerChar_toNat, Unicode.toLower_eq v _ (u32_le c)]
  exact Unicode.mapOf_differ_inside (Unicode.differ_inside v) h

/-- In particular the multiplication sign becomes the division sign, in every version. -/
theorem C27_multiplication_sign_violated (v : Version) :
    toLowerChar v 0xD7 = 0xF7 ∧ lowerOf v 0xD7 = 0xD7 := by
  constructor
  · cases v <;> decide +kernel
  · cases v <;> decide +kernel

example : (∀ v, ¬ InRanges (lowerDeviations v) 0x41 ∧ lowerOf v 0x41 = 0x61 ∧
    lowerOf v 0x1E9E = 0xDF ∧ lowerOf v 0x10FFFF = 0x10FFFF) ∧
    InRanges (lowerDeviations .v16) 0x1C90 ∧ lowerOf .v16 0x1C90 = 0x10D0 := by
  refine ⟨fun v => ⟨?_, ?_⟩, ⟨(0x1C90, 0x1CBA), by decide, by decide⟩, by decide +kernel⟩
  · rw [← Unicode.inR_iff]
    cases v <;> decide
  · cases v <;> decide +kernel

/-! ## C37: stability across versions -/

theorem C37_assigned {v w : Version} (hvw : Spec.Version.LE v w) (c : U32)
    (h : (Pred.validIf kIsAssigned).call32 (charClass v) c.toNat = true) :
    (Pred.validIf kIsAssigned).call32 (charClass w) c.toNat = true :=
  (C25_char32 w c).2 (Unicode.assigned_stable hvw ((C25_char32 v c).1 h))

theorem C37_toLower {v w : Version} (hvw : Spec.Version.LE v w) (c : U32)
    (h : toLowerChar v c ≠ c) : toLowerChar w c = toLowerChar v c := by
  apply BitVec.eq_of_toNat_eq
  rw [Unicode.toLowerChar_toNat, Unicode.toLowerChar_toNat]
  refine Unicode.toLower_stable hvw (u32_le c) fun e => h (BitVec.eq_of_toNat_eq ?_)
  rw [Unicode.toLowerChar_toNat, e]

/-- U+13A0 (Cherokee) is lower-cased from version 8 on, so it is not true that a character keeps
its image when it is not lower-cased. -/
example : Spec.Version.LE .v7 .v8 ∧ toLowerChar .v7 0x13A0 = 0x13A0 ∧
    toLowerChar .v8 0x13A0 = 0xAB70 ∧ toLowerChar .v16 0x13A0 = 0xAB70 := by
  refine ⟨by unfold Spec.Version.LE; decide, ?_, ?_, ?_⟩ <;> decide +kernel

end Ansak.Props
