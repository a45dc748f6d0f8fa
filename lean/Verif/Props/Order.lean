import Verif.Lemmas.Order

/-!
# C51: conversions and the order of strings
-/

namespace Ansak.Props

open Spec (NatsBefore Before Encodable Scalar Bmp Surrogate utf8Of utf16Of ucs2Of ucs4Of Utf8Text)

theorem vals_forall {w : Nat} {P : Nat → Prop} {s : List (BitVec w)} (h : ∀ c ∈ s, P c.toNat) :
    ∀ v ∈ vals s, P v := by
  intro v hv
  obtain ⟨c, hc, rfl⟩ := List.mem_map.1 hv
  exact h c hc

/-- Converting UCS-4 to UTF-8 neither swaps two strings nor makes them equal: the results are in the
same order as the strings. -/
theorem C51_utf8 {s t : List U32} (hs : ∀ c ∈ s, Encodable c.toNat) (ht : ∀ c ∈ t, Encodable c.toNat) :
    ∃ a b, toUtf8From32S s = .ok a ∧ toUtf8From32S t = .ok b ∧ (Before a b ↔ Before s t) := by
  have es := vals_forall (P := Encodable) hs
  have et := vals_forall (P := Encodable) ht
  have h1 := toUtf8From32S_ucs4Of es
  have h2 := toUtf8From32S_ucs4Of et
  rw [ucs4Of_vals] at h1 h2
  exact ⟨_, _, h1, h2, utf8Of_before (fun v hv => (es v hv).2.1) (fun v hv => (et v hv).2.1)⟩

/-- Converting UTF-8 in shortest form to UCS-4 keeps the order as well. -/
theorem C51_from_utf8 {vs ws : List Nat} (hv : ∀ v ∈ vs, Encodable v) (hw : ∀ v ∈ ws, Encodable v) :
    ∃ a b, toUcs4From8S (utf8Of vs) = .ok a ∧ toUcs4From8S (utf8Of ws) = .ok b ∧
      (Before a b ↔ Before (utf8Of vs) (utf8Of ws)) :=
  ⟨_, _, toUcs4From8S_utf8Of hv, toUcs4From8S_utf8Of hw, by
    rw [ucs4Of_before hv hw, utf8Of_before (fun v h => (hv v h).2.1) (fun v h => (hw v h).2.1)]⟩

/-- So does converting UCS-4 to UCS-2. -/
theorem C51_ucs2 {s t : List U32} (hs : ∀ c ∈ s, Bmp c.toNat) (ht : ∀ c ∈ t, Bmp c.toNat) :
    ∃ a b, toUcs2From32S s = .ok a ∧ toUcs2From32S t = .ok b ∧ (Before a b ↔ Before s t) := by
  have es := vals_forall (P := Bmp) hs
  have et := vals_forall (P := Bmp) ht
  have h1 := toUcs2From32S_ucs4Of fun v hv => scalar_encodable (bmp_scalar (es v hv))
  have h2 := toUcs2From32S_ucs4Of fun v hv => scalar_encodable (bmp_scalar (et v hv))
  rw [ucs4Of_vals, if_pos fun v hv => (es v hv).2.1] at h1
  rw [ucs4Of_vals, if_pos fun v hv => (et v hv).2.1] at h2
  exact ⟨_, _, h1, h2, ucs2Of_before es et⟩

/-- Converting UCS-4 to UTF-16 keeps the order of strings without characters beyond the BMP, and of
strings without characters from U+E000 to U+FFFF. Missing from the full property: strings that contain
both kinds of characters, see `C51_utf16_violated`. -/
theorem C51_utf16_partial {s t : List U32} (hs : ∀ c ∈ s, Scalar c.toNat) (ht : ∀ c ∈ t, Scalar c.toNat)
    (h : (∀ c ∈ s ++ t, c.toNat ≤ 0xFFFF) ∨ (∀ c ∈ s ++ t, c.toNat < 0xE000 ∨ 0xFFFF < c.toNat)) :
    ∃ a b, toUtf16From32S s = .ok a ∧ toUtf16From32S t = .ok b ∧ (Before a b ↔ Before s t) := by
  have es := vals_forall (P := Scalar) hs
  have et := vals_forall (P := Scalar) ht
  have h1 := toUtf16From32S_ucs4Of fun v hv => scalar_encodable (es v hv)
  have h2 := toUtf16From32S_ucs4Of fun v hv => scalar_encodable (et v hv)
  rw [ucs4Of_vals, if_pos fun v hv => (es v hv).2.1] at h1
  rw [ucs4Of_vals, if_pos fun v hv => (et v hv).2.1] at h2
  refine ⟨_, _, h1, h2, ?_⟩
  rcases h with h | h
  · exact utf16Of_before (P := (· ≤ 0xFFFF)) (fun v hv => by omega) (fun _ w _ hw _ _ => hw)
      (vals_forall fun c hc => h c (List.mem_append.2 (.inl hc)))
      (vals_forall fun c hc => h c (List.mem_append.2 (.inr hc)))
  · refine utf16Of_before (P := fun v => Scalar v ∧ (v < 0xE000 ∨ 0xFFFF < v)) (fun v hv => hv.1.2.1) ?_
      (vals_forall (P := fun v => Scalar v ∧ (v < 0xE000 ∨ 0xFFFF < v))
        fun c hc => ⟨hs c hc, h c (List.mem_append.2 (.inl hc))⟩)
      (vals_forall (P := fun v => Scalar v ∧ (v < 0xE000 ∨ 0xFFFF < v))
        fun c hc => ⟨ht c hc, h c (List.mem_append.2 (.inr hc))⟩)
    rintro v w ⟨⟨_, _, h1⟩, h2⟩ _ h3 h4
    unfold Surrogate at h1
    omega

/-- U+E000 is before U+10000, but its UTF-16 form is after that of U+10000. So sorting the UTF-8 forms
and sorting the UTF-16 forms of the same texts gives different results. -/
theorem C51_utf16_violated : ∃ s t : List U32, (∀ c ∈ s ++ t, Scalar c.toNat) ∧ Before s t ∧
    ∃ a b, toUtf16From32S s = .ok a ∧ toUtf16From32S t = .ok b ∧ Before b a := by
  refine ⟨[0xE000], [0x10000], by decide, .inr ⟨[], _, _, [], [], rfl, rfl, by decide⟩,
    [0xE000], [0xD800, 0xDC00], by decide +kernel, by decide +kernel,
    .inr ⟨[], _, _, [0xDC00], [], rfl, rfl, by decide⟩⟩

/-- Well-formed UTF-8 that contains surrogate pairs in 3-byte form is sorted like UTF-16, so that
converting it to UCS-4 may swap two strings. -/
theorem C51_pair_violated : ∃ s t : List Byte, (∃ vs, Utf8Text s vs) ∧ (∃ ws, Utf8Text t ws) ∧ Before s t ∧
    ∃ a b, toUcs4From8S s = .ok a ∧ toUcs4From8S t = .ok b ∧ Before b a := by
  refine ⟨[0xED, 0xA0, 0x80, 0xED, 0xB0, 0x80], [0xEE, 0x80, 0x80], ⟨[0x10000], ?_⟩, ⟨[0xE000], ?_⟩,
    .inr ⟨[], _, _, _, _, rfl, rfl, by decide⟩, [0x10000], [0xE000], by decide +kernel, by decide +kernel,
    .inr ⟨[], _, _, [], [], rfl, rfl, by decide⟩⟩
  · exact .cons (bs := Spec.utf8 0xD800 ++ Spec.utf8 0xDC00) (.pair (by decide) (by decide)) .nil
  · exact .cons (bs := Spec.utf8 0xE000) (.plain (by decide)) .nil

/-! ## The hypotheses can be met -/

/-- "aé" is before "a€": the first differing bytes are C3 and E2. -/
example : ∃ a b, toUtf8From32S [0x61, 0xE9] = .ok a ∧ toUtf8From32S [0x61, 0x20AC] = .ok b ∧ Before a b := by
  obtain ⟨a, b, h1, h2, h3⟩ := C51_utf8 (s := [0x61, 0xE9]) (t := [0x61, 0x20AC]) (by decide) (by decide)
  exact ⟨a, b, h1, h2, h3.2 (.inr ⟨[0x61], 0xE9, 0x20AC, [], [], rfl, rfl, by decide⟩)⟩
/-- The order of texts with one, two, four and six bytes per character. -/
example : ∃ a b, toUcs4From8S (utf8Of [0x7F, 0x10FFFF]) = .ok a ∧
    toUcs4From8S (utf8Of [0x7F, 0x7FFFFFFF]) = .ok b ∧
    (Before a b ↔ Before (utf8Of [0x7F, 0x10FFFF]) (utf8Of [0x7F, 0x7FFFFFFF])) :=
  C51_from_utf8 (by decide) (by decide)
example : (∀ c ∈ ([0x41, 0xFFFD] : List U32), Bmp c.toNat) := by decide
example : (∀ c ∈ ([0xE000] ++ [0xD7FF, 0xFFFD] : List U32), Scalar c.toNat ∧ c.toNat ≤ 0xFFFF) := by decide
example : (∀ c ∈ ([0x1F600] ++ [0xD7FF, 0x41] : List U32),
    Scalar c.toNat ∧ (c.toNat < 0xE000 ∨ 0xFFFF < c.toNat)) := by decide

end Ansak.Props
