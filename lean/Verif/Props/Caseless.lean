import Verif.Props.LowerAcross
import Verif.Props.Distinct
import Verif.Props.Ascii
import Verif.Lemmas.CodePage
import Verif.Spec.AsciiCase

/-!
# C59: comparing texts without regard to case
-/

namespace Ansak.Props

open Spec (textOf Lang Turkic NulFree Utf8Text Scalar Surrogate Encodable utf8Of utf16Of ucs4Of asciiLower)

theorem ok_inj {α : Type} {a b : α} : (Res.ok a = Res.ok b) ↔ a = b := ⟨fun h => by injection h, fun h => by rw [h]⟩

/-- Whether two texts are equal after lower-casing does not depend on the encoding they are compared in. -/
theorem C59_same_answer (v : Version) (lang : Lang) {vs ws : List Nat} (hv : ∀ x ∈ vs, Scalar x)
    (hw : ∀ x ∈ ws, Scalar x) :
    (toLower8S v (utf8Of vs) (langPtr lang) = toLower8S v (utf8Of ws) (langPtr lang) ↔
      toLower32S v (ucs4Of vs) (langPtr lang) = toLower32S v (ucs4Of ws) (langPtr lang)) ∧
    (toLower16S v (utf16Of vs) (langPtr lang) = toLower16S v (utf16Of ws) (langPtr lang) ↔
      toLower32S v (ucs4Of vs) (langPtr lang) = toLower32S v (ucs4Of ws) (langPtr lang)) := by
  have hE : ∀ x ∈ vs, Encodable x := fun x hx => scalar_encodable (hv x hx)
  have hF : ∀ x ∈ ws, Encodable x := fun x hx => scalar_encodable (hw x hx)
  have mv := map_scalar v (turkicLang lang) hv
  have mw := map_scalar v (turkicLang lang) hw
  have ev : ∀ x ∈ _, Encodable x := fun x hx => scalar_encodable (mv x hx)
  have ew : ∀ x ∈ _, Encodable x := fun x hx => scalar_encodable (mw x hx)
  have e32 : toLower32S v (ucs4Of vs) (langPtr lang) = toLower32S v (ucs4Of ws) (langPtr lang) ↔
      vs.map (lowerNat v (turkicLang lang)) = ws.map (lowerNat v (turkicLang lang)) := by
    rw [toLower32S_eq, toLower32S_eq, ok_inj, map_lowerChar_ucs4Of v _ hE, map_lowerChar_ucs4Of v _ hF]
    exact ⟨ucs4Of_distinct ev ew, fun h => by rw [h]⟩
  refine ⟨?_, ?_⟩
  · rw [e32, toLower8S_chars v lang (toUcs4From8S_utf8Of hE) hE, toLower8S_chars v lang (toUcs4From8S_utf8Of hF) hF,
      ok_inj]
    exact ⟨utf8Of_inj ev ew, fun h => by rw [h]⟩
  · rw [e32, toLower16S_chars v lang (toUcs4From16S_utf16Of hv) hv,
      toLower16S_chars v lang (toUcs4From16S_utf16Of hw) hw, ok_inj]
    exact ⟨utf16Of_distinct mv mw, fun h => by rw [h]⟩

theorem toUcs4From8S_text' {s : List Byte} {vs : List Nat} (hs : Utf8Text s vs) :
    toUcs4From8S s = .ok (ucs4Of vs) := by
  obtain ⟨us, e, h, h4, _⟩ := toUcs4From8S_any s
  rw [textOf_of_nulFree (text_nulFree hs)] at h
  obtain ⟨rfl, rfl⟩ := scan_unique h (scan_of_text hs)
  rw [h4, if_pos (by rfl)]

/-- The same for any UTF-8 the library reads: the way characters are written does not matter. -/
theorem C59_any_utf8 (v : Version) (lang : Lang) {s t : List Byte} {vs ws : List Nat} (hs : Utf8Text s vs)
    (ht : Utf8Text t ws) :
    toLower8S v s (langPtr lang) = toLower8S v t (langPtr lang) ↔
      toLower32S v (ucs4Of vs) (langPtr lang) = toLower32S v (ucs4Of ws) (langPtr lang) := by
  have hE := text_encodable hs
  have hF := text_encodable ht
  have enc : ∀ {us : List Nat}, (∀ x ∈ us, Encodable x) → ∀ x ∈ us.map (lowerNat v (turkicLang lang)), Encodable x := by
    intro us hu x hx
    obtain ⟨y, hy, rfl⟩ := List.mem_map.1 hx
    exact lowerNat_encodable v _ (hu y hy)
  rw [toLower8S_chars v lang (toUcs4From8S_text' hs) hE, toLower8S_chars v lang (toUcs4From8S_text' ht) hF, ok_inj,
    toLower32S_eq, toLower32S_eq, ok_inj, map_lowerChar_ucs4Of v _ hE, map_lowerChar_ucs4Of v _ hF]
  exact ⟨fun h => by rw [utf8Of_inj (enc hE) (enc hF) h], fun h => by rw [ucs4Of_distinct (enc hE) (enc hF) h]⟩

/-! ## ASCII -/

theorem not_turkic {lang : Lang} (hl : ¬ Turkic lang) : turkicLang lang = false := by
  cases e : turkicLang lang with
  | false => rfl
  | true => exact absurd ((turkicLang_iff lang).1 e) hl

theorem lower_ascii_table (v : Version) : ∀ x ∈ List.range 0x80,
    lowerNat v false x = if 0x41 ≤ x ∧ x ≤ 0x5A then x + 0x20 else x := by
  cases v <;> decide +kernel

theorem lower_ascii (v : Version) {x : Nat} (h : x ≤ 0x7F) :
    lowerNat v false x = if 0x41 ≤ x ∧ x ≤ 0x5A then x + 0x20 else x :=
  lower_ascii_table v x (List.mem_range.2 (by omega))

theorem asciiLower_toNat {w : Nat} (hw : 8 ≤ w) {c : BitVec w} (h : c.toNat ≤ 0x7F) :
    (asciiLower c).toNat = if 0x41 ≤ c.toNat ∧ c.toNat ≤ 0x5A then c.toNat + 0x20 else c.toNat := by
  unfold asciiLower
  by_cases e : 0x41 ≤ c.toNat ∧ c.toNat ≤ 0x5A
  · rw [if_pos e, if_pos e, BitVec.toNat_ofNat]
    have : 2 ^ 8 ≤ 2 ^ w := Nat.pow_le_pow_right (by omega) hw
    exact Nat.mod_eq_of_lt (by omega)
  · rw [if_neg e, if_neg e]

theorem Ascii.lower {w : Nat} (hw : 8 ≤ w) {s : List (BitVec w)} (h : Ascii s) : Ascii (s.map asciiLower) := by
  intro c hc
  obtain ⟨b, hb, rfl⟩ := List.mem_map.1 hc
  have := h b hb
  rw [asciiLower_toNat hw this.2]
  split <;> omega

theorem Ascii.lower_vals {w : Nat} (hw : 8 ≤ w) {s : List (BitVec w)} (h : Ascii s) (v : Version) :
    (Ansak.vals s).map (lowerNat v false) = Ansak.vals (s.map asciiLower) := by
  unfold Ansak.vals
  rw [List.map_map, List.map_map]
  refine List.map_congr_left fun c hc => ?_
  have := h c hc
  show lowerNat v false c.toNat = (asciiLower c).toNat
  rw [lower_ascii v this.2, asciiLower_toNat hw this.2]

/-- Lower-casing ASCII text changes A to Z into a to z and nothing else, in all encodings and versions, unless
the language is Turkic. -/
theorem C59_ascii (v : Version) {lang : Lang} (hl : ¬ Turkic lang) :
    (∀ s : List Byte, Ascii s → toLower8S v s (langPtr lang) = .ok (s.map asciiLower)) ∧
    (∀ s : List U16, Ascii s → toLower16S v s (langPtr lang) = .ok (s.map asciiLower)) ∧
    (∀ s : List U32, Ascii s → toLower32S v s (langPtr lang) = .ok (s.map asciiLower)) := by
  have ht := not_turkic hl
  refine ⟨fun s hs => ?_, fun s hs => ?_, fun s hs => ?_⟩
  · have e := hs.utf8Of
    rw [map_same] at e
    have h4 := toUcs4From8S_utf8Of hs.encodable
    rw [e] at h4
    rw [toLower8S_chars v lang h4 hs.encodable, ht, hs.lower_vals (by omega), (hs.lower (by omega)).utf8Of, map_same]
  · have e := hs.utf16Of
    rw [map_same] at e
    have h4 := toUcs4From16S_utf16Of hs.scalar
    rw [e] at h4
    rw [toLower16S_chars v lang h4 hs.scalar, ht, hs.lower_vals (by omega), (hs.lower (by omega)).utf16Of, map_same]
  · have e := hs.ucs4Of
    rw [map_same] at e
    rw [toLower32S_eq, ← e, map_lowerChar_ucs4Of v _ hs.encodable, ht, hs.lower_vals (by omega),
      (hs.lower (by omega)).ucs4Of, map_same, e]

/-! ## The hypotheses can be met -/

/-- "ÉΣ" and "éσ" -/
example : ∀ x ∈ [0xC9, 0x3A3] ++ [0xE9, 0x3C3], Scalar x := by decide
example : ∃ s t : List Byte, Utf8Text s [0xC9] ∧ Utf8Text t [0xE9] ∧ s ≠ t ∧
    toLower8S .v16 s none = toLower8S .v16 t none :=
  ⟨utf8Of [0xC9], utf8Of [0xE9], text_utf8Of (by decide), text_utf8Of (by decide), by decide, by decide +kernel⟩
example : ¬ Turkic none ∧ ¬ Turkic (some (Spec.ascii ['e', 'n'])) := by
  refine ⟨id, fun h => ?_⟩
  have := (turkicLang_iff _).2 h
  exact absurd this (by decide)
example : toLower8S .v7 [0x5A, 0x5B, 0x40, 0x41] none = .ok [0x7A, 0x5B, 0x40, 0x61] :=
  (C59_ascii .v7 (lang := none) id).1 _ (by unfold Ascii; decide)

end Ansak.Props
