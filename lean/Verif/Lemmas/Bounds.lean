import Verif.Lemmas.Compose
import Verif.Spec.Bounds

/-!
# Staying within a NUL-terminated buffer
-/

namespace Ansak

open Spec (NulFree textOf StaysInBounds OnlyText)

theorem inBounds_of {w : Nat} {β : Type} {f : Ptr (BitVec w) → Res β}
    (h : ∀ s, NulFree s → ∃ r, ∀ post, f (some (s ++ 0 :: post)) = .ok r) : StaysInBounds f := by
  intro s hs
  obtain ⟨r, hr⟩ := h s hs
  exact ⟨r, hr [], hr⟩

theorem onlyText_of {w : Nat} {β : Type} {f : Ptr (BitVec w) → Res β} (h : StaysInBounds f) :
    OnlyText fun s => f (cStr s) := by
  intro s
  obtain ⟨post, hp⟩ := cStr_text s
  obtain ⟨r, _, h2⟩ := h (textOf s) (textOf_nulFree s)
  show f (cStr s) = f (cStr (textOf s))
  rw [hp, cStr_nulFree (textOf_nulFree s), h2, h2]

theorem ok_of_iff {f : Ptr (BitVec w) → Res Bool} {s : List (BitVec w)} {P : Prop} [Decidable P]
    (h : ∀ post, ∃ b, f (some (s ++ 0 :: post)) = .ok b ∧ (b = true ↔ P)) :
    ∃ r, ∀ post, f (some (s ++ 0 :: post)) = .ok r := by
  refine ⟨decide P, fun post => ?_⟩
  obtain ⟨b, h1, h2⟩ := h post
  rw [h1]
  congr 1
  rw [Bool.eq_iff_iff, h2, decide_eq_true_iff]

/-- A target range is one of the six, or illegal. -/
theorem range_cases (t : RangeType) : (t < kAscii ∨ t > kUnicode) ∨ ∃ r : Spec.Range, t = r.code := by
  by_cases h : t < kAscii ∨ t > kUnicode
  · exact .inl h
  · right
    revert h
    show ¬ (@LT.lt Int _ t 0 ∨ @LT.lt Int _ 5 t) → _
    intro h
    have : @Eq Int t 0 ∨ @Eq Int t 1 ∨ @Eq Int t 2 ∨ @Eq Int t 3 ∨ @Eq Int t 4 ∨ @Eq Int t 5 := by omega
    rcases this with rfl | rfl | rfl | rfl | rfl | rfl
    · exact ⟨.ascii, rfl⟩
    · exact ⟨.utf8, rfl⟩
    · exact ⟨.ucs2, rfl⟩
    · exact ⟨.utf16, rfl⟩
    · exact ⟨.ucs4, rfl⟩
    · exact ⟨.unicode, rfl⟩

end Ansak
