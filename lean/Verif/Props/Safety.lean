import Verif.Lemmas.Bounds

/-!
# C10, C12, C13, C14: bounds, NULs, null pointers, illegal ranges
-/

namespace Ansak.Props

open Spec (NulFree textOf Surrogate StaysInBounds OnlyText)

/-! ## C14: illegal target ranges are rejected -/

theorem C14_illegal_range (U : CharClass) (pred : Pred) {t : RangeType}
    (h : t < kAscii ∨ t > kUnicode) :
    (∀ p, isUtf8 U p t pred = .ok false) ∧ (∀ p, isUtf16 U p t pred = .ok false) ∧
    (∀ p, isUcs2 U p t pred = .ok false) ∧ (∀ p, isUcs4 U p t pred = .ok false) := by
  refine ⟨fun p => ?_, fun p => ?_, fun p => ?_, fun p => ?_⟩
  · unfold isUtf8 isUtf8Internal; simp only [if_pos h]
  · unfold isUtf16; rw [if_pos h]
  · unfold isUcs2; rw [if_pos h]
  · unfold isUcs4; rw [if_pos h]

example : (6 : RangeType) < kAscii ∨ (6 : RangeType) > kUnicode := by decide
example : (-1 : RangeType) < kAscii ∨ (-1 : RangeType) > kUnicode := by decide

/-- And the numbers inside are the six documented ranges. -/
theorem C14_legal_range (t : RangeType) :
    ¬ (t < kAscii ∨ t > kUnicode) ↔ ∃ r : Spec.Range, t = r.code := by
  constructor
  · exact fun h => (range_cases t).resolve_left h
  · rintro ⟨r, rfl⟩; exact code_legal r

/-! ## C10: null-terminated functions stay in bounds -/

theorem C10_isUtf8 (U : CharClass) (t : RangeType) (pred : Pred) :
    StaysInBounds (fun p => isUtf8 U p t pred) := by
  rcases range_cases t with h | ⟨r, rfl⟩
  · exact fun s _ => ⟨false, (C14_illegal_range U pred h).1 _, fun _ => (C14_illegal_range U pred h).1 _⟩
  · refine inBounds_of fun s hs => ?_
    obtain ⟨vs, e, hsc⟩ := scan_exists hs
    have := Classical.propDecidable ((∀ v ∈ vs, Acc8 r v ∧ pred.call32 U v = true) ∧ EndOk r e)
    exact ok_of_iff (f := fun p => isUtf8 U p r.code pred) (isUtf8_text U r pred hs hsc)

theorem C10_isUtf16 (U : CharClass) (t : RangeType) (pred : Pred) :
    StaysInBounds (fun p => isUtf16 U p t pred) := by
  rcases range_cases t with h | ⟨r, rfl⟩
  · exact fun s _ => ⟨false, (C14_illegal_range U pred h).2.1 _,
      fun _ => (C14_illegal_range U pred h).2.1 _⟩
  · refine inBounds_of fun s hs => ?_
    obtain ⟨vs, e, hsc⟩ := scan16_exists false hs
    have := Classical.propDecidable
      ((∀ v ∈ vs, AccFlags r v ∧ pred.call16 U (predUnit v) = true) ∧ EndOk16 r e)
    exact ok_of_iff (f := fun p => isUtf16 U p r.code pred) (isUtf16_text U r pred hs hsc)

theorem C10_isUcs2 (U : CharClass) (t : RangeType) (pred : Pred) :
    StaysInBounds (fun p => isUcs2 U p t pred) := by
  rcases range_cases t with h | ⟨r, rfl⟩
  · exact fun s _ => ⟨false, (C14_illegal_range U pred h).2.2.1 _,
      fun _ => (C14_illegal_range U pred h).2.2.1 _⟩
  · refine inBounds_of fun s hs => ?_
    exact ok_of_iff (f := fun p => isUcs2 U p r.code pred) (isUcs2_buf U r pred hs)

theorem C10_isUcs4 (U : CharClass) (t : RangeType) (pred : Pred) :
    StaysInBounds (fun p => isUcs4 U p t pred) := by
  rcases range_cases t with h | ⟨r, rfl⟩
  · exact fun s _ => ⟨false, (C14_illegal_range U pred h).2.2.2 _,
      fun _ => (C14_illegal_range U pred h).2.2.2 _⟩
  · refine inBounds_of fun s hs => ?_
    exact ok_of_iff (f := fun p => isUcs4 U p r.code pred) (isUcs4_buf U r pred hs)

theorem C10_from_utf8 :
    StaysInBounds toUcs4From8 ∧ StaysInBounds toUtf16From8 ∧ StaysInBounds toUcs2From8 := by
  refine ⟨inBounds_of fun s hs => ?_, inBounds_of fun s hs => ?_, inBounds_of fun s hs => ?_⟩ <;>
    obtain ⟨vs, e, hsc⟩ := scan_exists hs
  · exact ⟨_, toUcs4From8_text hs hsc⟩
  · exact ⟨_, toUtf16From8_text hs hsc⟩
  · exact ⟨_, toUcs2From8_text hs hsc⟩

theorem C10_from_utf16 : StaysInBounds toUcs4From16 ∧ StaysInBounds toUtf8From16 := by
  refine ⟨inBounds_of fun s hs => ?_, inBounds_of fun s hs => ?_⟩
  · obtain ⟨vs, e, hsc⟩ := scan16_exists false hs
    exact ⟨_, toUcs4From16_text hs hsc⟩
  · obtain ⟨vs, e, hsc⟩ := scan16_exists true hs
    exact ⟨_, toUtf8From16_text hs hsc⟩

theorem C10_from_ucs4 :
    StaysInBounds toUtf8From32 ∧ StaysInBounds toUtf16From32 ∧ StaysInBounds toUcs2From32 :=
  ⟨inBounds_of fun _ hs => ⟨_, toUtf8From32_buf hs⟩, inBounds_of fun _ hs => ⟨_, toUtf16From32_buf hs⟩,
    inBounds_of fun _ hs => ⟨_, toUcs2From32_buf hs⟩⟩

/-- `unicodeLength` with the length argument 0, which stands for "NUL-terminated". -/
theorem C10_unicodeLength :
    StaysInBounds (fun p => unicodeLength8 p 0) ∧ StaysInBounds (fun p => unicodeLength16 p 0) ∧
    StaysInBounds (fun p => unicodeLength32 p 0) := by
  refine ⟨inBounds_of fun s hs => ?_, inBounds_of fun s hs => ?_, inBounds_of fun s hs => ?_⟩
  · obtain ⟨vs, e, hsc⟩ := scan_exists hs
    exact ⟨_, unicodeLength8_text hs hsc⟩
  · obtain ⟨vs, e, hsc⟩ := scan16_exists false hs
    exact ⟨_, unicodeLength16_text hsc⟩
  · exact ⟨_, unicodeLength32_buf hs⟩

example : NulFree (w := 8) [0xF0, 0x9F, 0xFF, 0x41] ∧ NulFree (w := 16) [0xD83D, 0x41] := by decide

/-! ## C12: only the text before the first NUL matters

For pointers this is the second half of `StaysInBounds`. For `basic_string` arguments: -/

theorem C12_validators (U : CharClass) (t : RangeType) (pred : Pred) :
    OnlyText (isUtf8S U · t pred) ∧ OnlyText (isUtf16S U · t pred) ∧
    OnlyText (isUcs2S U · t pred) ∧ OnlyText (isUcs4S U · t pred) :=
  ⟨onlyText_of (C10_isUtf8 U t pred), onlyText_of (C10_isUtf16 U t pred),
    onlyText_of (C10_isUcs2 U t pred), onlyText_of (C10_isUcs4 U t pred)⟩

theorem C12_conversions :
    OnlyText toUcs4From8S ∧ OnlyText toUtf16From8S ∧ OnlyText toUcs2From8S ∧
    OnlyText toUcs4From16S ∧ OnlyText toUtf8From16S ∧
    OnlyText toUtf8From32S ∧ OnlyText toUtf16From32S ∧ OnlyText toUcs2From32S :=
  ⟨onlyText_of C10_from_utf8.1, onlyText_of C10_from_utf8.2.1, onlyText_of C10_from_utf8.2.2,
    onlyText_of C10_from_utf16.1, onlyText_of C10_from_utf16.2,
    onlyText_of C10_from_ucs4.1, onlyText_of C10_from_ucs4.2.1, onlyText_of C10_from_ucs4.2.2⟩

theorem C12_unicodeLength :
    OnlyText unicodeLength8S ∧ OnlyText unicodeLength16S ∧ OnlyText unicodeLength32S :=
  ⟨onlyText_of C10_unicodeLength.1, onlyText_of C10_unicodeLength.2.1,
    onlyText_of C10_unicodeLength.2.2⟩

example : textOf ([0x41, 0x42, 0, 0xFF] : List Byte) = [0x41, 0x42] := by decide

/-! ## C13: null pointers and empty strings -/

theorem C13_validators (U : CharClass) (r : Spec.Range) (pred : Pred) :
    (isUtf8 U none r.code pred = .ok true ∧ isUtf8S U [] r.code pred = .ok true) ∧
    (isUtf16 U none r.code pred = .ok true ∧ isUtf16S U [] r.code pred = .ok true) ∧
    (isUcs2 U none r.code pred = .ok true ∧ isUcs2S U [] r.code pred = .ok true) ∧
    (isUcs4 U none r.code pred = .ok true ∧ isUcs4S U [] r.code pred = .ok true) := by
  cases r <;> exact ⟨⟨rfl, rfl⟩, ⟨rfl, rfl⟩, ⟨rfl, rfl⟩, ⟨rfl, rfl⟩⟩

theorem C13_conversions :
    (toUcs4From8 none = .ok [] ∧ toUcs4From8S [] = .ok []) ∧
    (toUtf16From8 none = .ok [] ∧ toUtf16From8S [] = .ok []) ∧
    (toUcs2From8 none = .ok [] ∧ toUcs2From8S [] = .ok []) ∧
    (toUcs4From16 none = .ok [] ∧ toUcs4From16S [] = .ok []) ∧
    (toUtf8From16 none = .ok [] ∧ toUtf8From16S [] = .ok []) ∧
    (toUtf8From32 none = .ok [] ∧ toUtf8From32S [] = .ok []) ∧
    (toUtf16From32 none = .ok [] ∧ toUtf16From32S [] = .ok []) ∧
    (toUcs2From32 none = .ok [] ∧ toUcs2From32S [] = .ok []) := by
  exact ⟨⟨rfl, rfl⟩, ⟨rfl, rfl⟩, ⟨rfl, rfl⟩, ⟨rfl, rfl⟩, ⟨rfl, rfl⟩, ⟨rfl, rfl⟩, ⟨rfl, rfl⟩, ⟨rfl, rfl⟩⟩

/-- Missing from the full property: null pointers to UTF-16 and UCS-4 text
(see `C13_unicodeLength_violated`). -/
theorem C13_unicodeLength_partial :
    (∀ n, unicodeLength8 none n = .ok 0) ∧ (∀ n post, unicodeLength8 (some (0 :: post)) n = .ok 0) ∧
    unicodeLength8S [] = .ok 0 ∧ unicodeLength16S [] = .ok 0 ∧ unicodeLength32S [] = .ok 0 :=
  ⟨fun _ => rfl, fun _ _ => rfl, rfl, rfl, rfl⟩

/-- Violation of C13: `unicodeLength(const char16_t*)` and `unicodeLength(const char32_t*)`
dereference a null pointer. -/
theorem C13_unicodeLength_violated :
    (∀ n, unicodeLength16 none n = .ub) ∧ (∀ n, unicodeLength32 none n = .ub) :=
  ⟨fun _ => rfl, fun _ => rfl⟩

end Ansak.Props
