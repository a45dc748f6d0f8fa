import Verif.Props.LowerText
import Verif.Lemmas.Cxx.All

/-!
# C25, C26, C27, C42, C66: the character tables as they are written

The theorems of `Verif.Props.Unicode` speak of a translation of the twenty files `source/bits*/char_is_unicode.cxx`
and `source/bits*/char_to_lower.cxx`. Those here speak of the text of these files. It is read and run by the
definitions of `Verif.Model.Cxx`.
-/

namespace Ansak.Props

open Spec (InRanges Assigned lowerOf PrivateUse Control WhiteSpace lowerDeviations)
open Unicode (toLowerChar turkicToLowerChar)
open Cxx (call8 call16 call32 isUnicodeSource toLowerSource Word)

/-- A call returned `true` if `P` holds and `false` if not. `none` would be undefined behaviour. -/
def Answers (r : Option Word) (P : Prop) : Prop := (P → r = some 1) ∧ (¬ P → r = some 0)

theorem answers_of {b : Bool} {P : Prop} (h : b = true ↔ P) : Answers (some (if b = true then 1 else 0)) P :=
  ⟨fun hp => by rw [if_pos (h.2 hp)], fun hp => by rw [if_neg fun hb => hp (h.1 hb)]⟩

/-! ## C25, C26: classification -/

/-- `isUnicodeAssigned(char32_t)`. -/
theorem C25_source32 (v : Version) (sc : Bool) (c : U32) :
    Answers (call32 sc (isUnicodeSource v) (name% "isUnicodeAssigned") c) (Assigned v c.toNat) := by
  rw [Cxx.isUnicodeAssigned32_source]
  exact answers_of (Unicode.assigned_iff v c.toNat (u32_le c))

/-- `isUnicodeAssigned(char16_t)`. -/
theorem C25_source16 (v : Version) (sc : Bool) (c : U16) :
    Answers (call16 sc (isUnicodeSource v) (name% "isUnicodeAssigned") c) (Assigned v c.toNat) := by
  rw [Cxx.isUnicodeAssigned16_source, Unicode.assigned16_eq v _ (u16_le c)]
  exact answers_of (Unicode.assigned_iff v c.toNat (by have := u16_le c; omega))

/-- `isUnicodePrivate(char32_t)`. -/
theorem C26_source_private32 (v : Version) (sc : Bool) (c : U32) :
    Answers (call32 sc (isUnicodeSource v) (name% "isUnicodePrivate") c) (PrivateUse c.toNat) := by
  rw [Cxx.isUnicodePrivate32_source]
  have h := C26_private32 v c
  unfold Pred.call32 charToEncodingTypeMask32 at h
  rw [test_private] at h
  exact answers_of h

/-- `isUnicodePrivate(char16_t)`. -/
theorem C26_source_private16 (v : Version) (sc : Bool) (c : U16) :
    Answers (call16 sc (isUnicodeSource v) (name% "isUnicodePrivate") c) (PrivateUse c.toNat) := by
  rw [Cxx.isUnicodePrivate16_source]
  have h := C26_private16 v c
  unfold Pred.call16 charToEncodingTypeMask16 at h
  rw [test_private] at h
  exact answers_of h

/-- `isControlChar(char32_t)`. -/
theorem C26_source_control32 (v : Version) (sc : Bool) (c : U32) :
    Answers (call32 sc (isUnicodeSource v) (name% "isControlChar") c) (Control c.toNat) := by
  rw [Cxx.isControlChar32_source]
  have h := C26_control32 v c
  unfold Pred.call32 charToEncodingTypeMask32 at h
  rw [test_control] at h
  exact answers_of h

/-- `isControlChar(char16_t)`. -/
theorem C26_source_control16 (v : Version) (sc : Bool) (c : U16) :
    Answers (call16 sc (isUnicodeSource v) (name% "isControlChar") c) (Control c.toNat) := by
  rw [Cxx.isControlChar16_source]
  have h := C26_control16 v c
  unfold Pred.call16 charToEncodingTypeMask16 at h
  rw [test_control] at h
  exact answers_of h

/-- `isControlChar(char)`, the bits of the argument being those of the character in ISO 8859-1. -/
theorem C26_source_control8 (v : Version) (sc : Bool) (c : Byte) :
    Answers (call8 sc (isUnicodeSource v) (name% "isControlChar") c) (Control c.toNat) := by
  rw [Cxx.isControlChar8_source]
  have h := C26_control8 v c
  unfold Pred.call8 charToEncodingTypeMask8 at h
  rw [test_control] at h
  exact answers_of h

/-- `isWhitespaceChar(char32_t)`. -/
theorem C26_source_white32 (v : Version) (sc : Bool) (c : U32) :
    Answers (call32 sc (isUnicodeSource v) (name% "isWhitespaceChar") c) (WhiteSpace c.toNat) := by
  rw [Cxx.isWhitespaceChar32_source]
  have h := C26_white32 v c
  unfold Pred.call32 charToEncodingTypeMask32 at h
  rw [test_white] at h
  exact answers_of h

/-- `isWhitespaceChar(char16_t)`. -/
theorem C26_source_white16 (v : Version) (sc : Bool) (c : U16) :
    Answers (call16 sc (isUnicodeSource v) (name% "isWhitespaceChar") c) (WhiteSpace c.toNat) := by
  rw [Cxx.isWhitespaceChar16_source]
  have h := C26_white16 v c
  unfold Pred.call16 charToEncodingTypeMask16 at h
  rw [test_white] at h
  exact answers_of h

/-- `isWhitespaceChar(char)`, the bits of the argument being those of the character in ISO 8859-1. -/
theorem C26_source_white8 (v : Version) (sc : Bool) (c : Byte) :
    Answers (call8 sc (isUnicodeSource v) (name% "isWhitespaceChar") c) (WhiteSpace c.toNat) := by
  rw [Cxx.isWhitespaceChar8_source]
  have h := C26_white8 v c
  unfold Pred.call8 charToEncodingTypeMask8 at h
  rw [test_white] at h
  exact answers_of h

/-- The text is there: U+00A0 is negative as a signed `char`, and white space nevertheless. -/
example : call8 true (isUnicodeSource .v16) (name% "isWhitespaceChar") 0xA0 = some 1 ∧
    call8 true (isUnicodeSource .v16) (name% "isControlChar") 0xA0 = some 0 ∧
    call8 true (isUnicodeSource .v16) (name% "isControlChar") 0x9F = some 1 :=
  ⟨(C26_source_white8 .v16 true 0xA0).1 (by unfold WhiteSpace; decide),
    (C26_source_control8 .v16 true 0xA0).2 (by unfold Control; decide),
    (C26_source_control8 .v16 true 0x9F).1 (by unfold Control; decide)⟩

/-! ## C27: lower-casing -/

/-- `toLower(char32_t)` outside the list of deviations. Missing from the full property: the listed code points,
where it is false. -/
theorem C27_source_partial (v : Version) (sc : Bool) (c : U32) (h : ¬ InRanges (lowerDeviations v) c.toNat) :
    call32 sc (toLowerSource v) (name% "toLower") c = some (BitVec.ofNat 32 (lowerOf v c.toNat)) := by
  rw [Cxx.toLower_source, ← C27_toLower_partial v c h, BitVec.ofNat_toNat, BitVec.setWidth_eq]

/-- At the listed code points it returns something else. -/
theorem C27_source_violated (v : Version) (sc : Bool) (c : U32) (h : InRanges (lowerDeviations v) c.toNat) :
    ∃ d, call32 sc (toLowerSource v) (name% "toLower") c = some d ∧ d.toNat ≠ lowerOf v c.toNat :=
  ⟨_, Cxx.toLower_source v sc c, C27_toLower_violated v c h⟩

/-- The functions of the model are those of the text. -/
theorem C27_source_model (v : Version) (sc : Bool) (c : U32) :
    call32 sc (toLowerSource v) (name% "toLower") c = some (toLowerChar v c) ∧
    call32 sc (toLowerSource v) (name% "turkicToLower") c = some (turkicToLowerChar v c) :=
  ⟨Cxx.toLower_source v sc c, Cxx.turkicToLower_source v sc c⟩

example : (∀ v sc, call32 sc (toLowerSource v) (name% "toLower") 0x41 = some 0x61) ∧
    (∀ v sc, call32 sc (toLowerSource v) (name% "turkicToLower") 0x49 = some 0x131) := by
  refine ⟨fun v sc => ?_, fun v sc => ?_⟩
  · rw [(C27_source_model v sc _).1]
    cases v <;> decide +kernel
  · rw [(C27_source_model v sc _).2]
    cases v <;> decide +kernel

/-! ## C42: the version -/

/-- The string constant in the text is what `getUnicodeVersionSupported` returns. -/
theorem C42_source (v : Version) :
    Cxx.constant (isUnicodeSource v) (name% "supportedUnicodeVersion") =
      some (Cxx.nameNumber (Unicode.getUnicodeVersionSupported v)) :=
  Cxx.version_source v

example : Cxx.constant (isUnicodeSource .v15) (name% "supportedUnicodeVersion") = some (name% "15.0.0") := by
  rw [C42_source]
  decide +kernel

/-! ## C66: the tables are defined everywhere, on every platform -/

/-- Each function of the tables that takes a `char32_t` returns, whatever the argument; and the same whether `char`
is signed or not. -/
theorem C66_char32 (v : Version) (c : U32) :
    (∀ f ∈ [name% "isUnicodeAssigned", name% "isUnicodePrivate", name% "isControlChar", name% "isWhitespaceChar"],
      ∃ b : Bool, ∀ sc, call32 sc (isUnicodeSource v) f c = some (if b = true then 1 else 0)) ∧
    (∀ f ∈ [name% "toLower", name% "turkicToLower"], ∃ d, ∀ sc, call32 sc (toLowerSource v) f c = some d) := by
  constructor
  · intro f hf
    simp only [List.mem_cons, List.not_mem_nil, or_false] at hf
    rcases hf with rfl | rfl | rfl | rfl
    · exact ⟨_, fun sc => Cxx.isUnicodeAssigned32_source v sc c⟩
    · exact ⟨_, fun sc => Cxx.isUnicodePrivate32_source v sc c⟩
    · exact ⟨_, fun sc => Cxx.isControlChar32_source v sc c⟩
    · exact ⟨_, fun sc => Cxx.isWhitespaceChar32_source v sc c⟩
  · intro f hf
    simp only [List.mem_cons, List.not_mem_nil, or_false] at hf
    rcases hf with rfl | rfl
    · exact ⟨_, fun sc => Cxx.toLower_source v sc c⟩
    · exact ⟨_, fun sc => Cxx.turkicToLower_source v sc c⟩

/-- The same for `char16_t`. -/
theorem C66_char16 (v : Version) (c : U16) :
    ∀ f ∈ [name% "isUnicodeAssigned", name% "isUnicodePrivate", name% "isControlChar", name% "isWhitespaceChar"],
      ∃ b : Bool, ∀ sc, call16 sc (isUnicodeSource v) f c = some (if b = true then 1 else 0) := by
  intro f hf
  simp only [List.mem_cons, List.not_mem_nil, or_false] at hf
  rcases hf with rfl | rfl | rfl | rfl
  · exact ⟨_, fun sc => Cxx.isUnicodeAssigned16_source v sc c⟩
  · exact ⟨_, fun sc => Cxx.isUnicodePrivate16_source v sc c⟩
  · exact ⟨_, fun sc => Cxx.isControlChar16_source v sc c⟩
  · exact ⟨_, fun sc => Cxx.isWhitespaceChar16_source v sc c⟩

/-- The same for `char`. -/
theorem C66_char8 (v : Version) (c : Byte) :
    ∀ f ∈ [name% "isControlChar", name% "isWhitespaceChar"],
      ∃ b : Bool, ∀ sc, call8 sc (isUnicodeSource v) f c = some (if b = true then 1 else 0) := by
  intro f hf
  simp only [List.mem_cons, List.not_mem_nil, or_false] at hf
  rcases hf with rfl | rfl
  · exact ⟨_, fun sc => Cxx.isControlChar8_source v sc c⟩
  · exact ⟨_, fun sc => Cxx.isWhitespaceChar8_source v sc c⟩

/-- The meaning does know about `char`: a function that compares a `char` with 0x9F gives different answers for
0xA0. And it does know undefined behaviour. -/
example :
    Cxx.call8 true [cxx% r#"bool f(char c) { return c > 0x9f; }"#] (name% "f") 0xA0 = some 0 ∧
    Cxx.call8 false [cxx% r#"bool f(char c) { return c > 0x9f; }"#] (name% "f") 0xA0 = some 1 ∧
    Cxx.call32 true [cxx% r#"bool f(char32_t c) { if (c > 5) { return true; } }"#] (name% "f") 7 = some 1 ∧
    Cxx.call32 true [cxx% r#"bool f(char32_t c) { if (c > 5) { return true; } }"#] (name% "f") 5 = none := by
  refine ⟨?_, ?_, ?_, ?_⟩ <;> decide +kernel

end Ansak.Props
