import Verif.Props.LowerText
import Verif.Props.Size

/-!
# C55: lower-casing in different encodings, and the size of the result
-/

namespace Ansak.Props

open Spec (textOf Lang Turkic NulFree Utf8Text Scalar Surrogate Encodable utf8Of utf16Of ucs4Of)

/-- Lower-casing UTF-8 text and converting it to UTF-16 is converting it and lower-casing the result. -/
theorem C55_utf8_utf16 (v : Version) (lang : Lang) {s : List Byte} {vs : List Nat} (hs : Utf8Text s vs)
    (hv : ∀ x ∈ vs, x ≤ 0x10FFFF) :
    (toLower8S v s (langPtr lang)).bind toUtf16From8S =
      (toUtf16From8S s).bind fun u => toLower16S v u (langPtr lang) := by
  have he := text_encodable hs
  have hsc : ∀ x ∈ vs, Scalar x := fun x hx => encodable_scalar (he x hx) (hv x hx)
  obtain ⟨us, e, h, h4, h16, _⟩ := toUcs4From8S_any s
  rw [textOf_of_nulFree (text_nulFree hs)] at h
  obtain ⟨rfl, rfl⟩ := scan_unique h (scan_of_text hs)
  rw [if_pos (by rfl)] at h4
  rw [if_pos ⟨by rfl, hv⟩] at h16
  rw [toLower8S_chars v lang h4 he, h16, Res.bind_ok, Res.bind_ok,
    toUtf16From8S_utf8Of (map_scalar v _ hsc), toLower16S_chars v lang (toUcs4From16S_utf16Of hsc) hsc]

/-- And the other way round. -/
theorem C55_utf16_utf8 (v : Version) (lang : Lang) {vs : List Nat} (hv : ∀ x ∈ vs, Scalar x) :
    (toLower16S v (utf16Of vs) (langPtr lang)).bind toUtf8From16S =
      (toUtf8From16S (utf16Of vs)).bind fun u => toLower8S v u (langPtr lang) := by
  have hE : ∀ x ∈ vs, Encodable x := fun x hx => scalar_encodable (hv x hx)
  rw [toLower16S_chars v lang (toUcs4From16S_utf16Of hv) hv, toUtf8From16S_utf16Of hv, Res.bind_ok,
    Res.bind_ok, toUtf8From16S_utf16Of (map_scalar v _ hv),
    toLower8S_chars v lang (toUcs4From8S_utf8Of hE) hE]

/-- `unicodeLength` of a text and of its lower case are the same, in all encodings. -/
theorem C55_length (v : Version) (lang : Lang) {vs : List Nat} (hv : ∀ x ∈ vs, Scalar x) :
    (toLower8S v (utf8Of vs) (langPtr lang)).bind unicodeLength8S = unicodeLength8S (utf8Of vs) ∧
    (toLower16S v (utf16Of vs) (langPtr lang)).bind unicodeLength16S = unicodeLength16S (utf16Of vs) ∧
    (toLower32S v (ucs4Of vs) (langPtr lang)).bind unicodeLength32S = unicodeLength32S (ucs4Of vs) := by
  have hE : ∀ x ∈ vs, Encodable x := fun x hx => scalar_encodable (hv x hx)
  have l8 : ∀ {us : List Nat}, (∀ x ∈ us, Scalar x) → unicodeLength8S (utf8Of us) = .ok (uintOf us.length) := by
    intro us hu
    have hE : ∀ x ∈ us, Encodable x := fun x hx => scalar_encodable (hu x hx)
    unfold unicodeLength8S
    rw [cStr_nulFree (utf8Of_nulFree hE), unicodeLength8_text (utf8Of_nulFree hE)
      (scan_of_text (text_utf8Of hE)), if_pos fun x hx => (hu x hx).2.1]
    rfl
  have l16 : ∀ {us : List Nat}, (∀ x ∈ us, Scalar x) →
      unicodeLength16S (utf16Of us) = .ok (uintOf us.length) := by
    intro us hu
    unfold unicodeLength16S
    rw [cStr_nulFree (utf16Of_nulFree hu), unicodeLength16_text (scan16_utf16Of (lenient := false) hu)]
    rfl
  have l32 : ∀ {us : List Nat}, (∀ x ∈ us, Scalar x) →
      unicodeLength32S (ucs4Of us) = .ok (uintOf us.length) := by
    intro us hu
    have hE : ∀ x ∈ us, Encodable x := fun x hx => scalar_encodable (hu x hx)
    unfold unicodeLength32S
    rw [cStr_nulFree (ucs4Of_nulFree hE), unicodeLength32_buf (ucs4Of_nulFree hE),
      if_pos ((ucs4Of_forall (P := fun x => ¬ Surrogate x) hE).2 fun x hx => (hu x hx).2.2)]
    unfold ucs4Of
    rw [List.length_map]
  have hm := map_scalar v (turkicLang lang) hv
  refine ⟨?_, ?_, ?_⟩
  · rw [toLower8S_chars v lang (toUcs4From8S_utf8Of hE) hE, Res.bind_ok, l8 hm, l8 hv, List.length_map]
  · rw [toLower16S_chars v lang (toUcs4From16S_utf16Of hv) hv, Res.bind_ok, l16 hm, l16 hv, List.length_map]
  · rw [toLower32S_eq, Res.bind_ok, map_lowerChar_ucs4Of v _ hE, l32 hm, l32 hv, List.length_map]

/-- UTF-16: the lower case of a text has as many units as the text. -/
theorem C55_utf16_size (v : Version) (lang : Lang) {vs : List Nat} (hv : ∀ x ∈ vs, Scalar x) :
    ∃ t, toLower16S v (utf16Of vs) (langPtr lang) = .ok t ∧ t.length = (utf16Of vs).length := by
  refine ⟨_, toLower16S_chars v lang (toUcs4From16S_utf16Of hv) hv, ?_⟩
  induction vs with
  | nil => rfl
  | cons x vs ih =>
    rw [List.forall_mem_cons] at hv
    have ih := ih hv.2
    have hk := (lowerNat_kind v (turkicLang lang) (x := x) (by have := hv.1.2.1; omega)).2.1
    unfold utf16Of at ih ⊢
    rw [List.map_cons, List.flatMap_cons, List.flatMap_cons, List.length_append, List.length_append, ih,
      utf16_length_eq, utf16_length_eq]
    by_cases h : x < 0x10000
    · rw [if_pos h, if_pos (by omega)]
    · rw [if_neg h, if_neg (by omega)]

/-- UTF-8: the lower case of a text has at most twice as many bytes as the text. -/
theorem C55_utf8_size (v : Version) (lang : Lang) {s : List Byte} {vs : List Nat} (hs : Utf8Text s vs) :
    ∃ t, toLower8S v s (langPtr lang) = .ok t ∧ t.length ≤ 2 * s.length := by
  have he := text_encodable hs
  obtain ⟨us, e, h, h4, _⟩ := toUcs4From8S_any s
  rw [textOf_of_nulFree (text_nulFree hs)] at h
  obtain ⟨rfl, rfl⟩ := scan_unique h (scan_of_text hs)
  rw [if_pos (by rfl)] at h4
  refine ⟨_, toLower8S_chars v lang h4 he, ?_⟩
  have h1 := text_length hs
  have h2 : (utf8Of (us.map (lowerNat v (turkicLang lang)))).length ≤ 2 * (utf8Of us).length := by
    unfold utf8Of
    rw [List.flatMap_map]
    refine flatMap_le fun x hx => ?_
    have hx' := he x hx
    have b2 := hx'.2.1
    have hk := lowerNat_kind v (turkicLang lang) (x := x) (by omega)
    have hc := lowerNat_cases v (turkicLang lang) (x := x) (by omega)
    have hsmall : x < 0x80 → lowerNat v (turkicLang lang) x < 0x800 := by
      intro hs
      by_cases hi : x = 0x49
      · subst hi
        unfold lowerNat
        split
        · decide
        · rw [toLower_I]; decide
      · have h3 := (lowerNat_kind v false (x := x) (by omega)).2.2 rfl (by omega)
        have e : lowerNat v (turkicLang lang) x = lowerNat v false x := by
          unfold lowerNat
          rw [if_neg (fun h => hi h.2), if_neg (fun h => hi h.2)]
        omega
    rcases hc with e | ⟨s1, s2⟩
    · rw [e]; omega
    · unfold Scalar at s1 s2
      rw [utf8_length_eq, utf8_length_eq]
      by_cases a1 : x < 0x80
      · rw [if_pos a1]
        have := hsmall a1
        repeat' split
        all_goals omega
      · rw [if_neg a1]
        have := hk.2.1
        repeat' split
        all_goals omega
  omega

/-- It can be longer than the text: the lower case of Ⱥ (U+023A, two bytes) is ⱥ (U+2C65, three bytes), so
that a text cannot in general be lower-cased in place. -/
theorem C55_utf8_grows (v : Version) : ∃ s t : List Byte, (∃ vs, Utf8Text s vs) ∧
    toLower8S v s (langPtr none) = .ok t ∧ s.length < t.length := by
  have he : ∀ x ∈ [0x23A], Encodable x := by decide
  have hl : lowerNat v (turkicLang none) 0x23A = 0x2C65 := by
    show (Unicode.toLower v).eval 0x23A = 0x2C65
    cases v <;> decide +kernel
  refine ⟨[0xC8, 0xBA], [0xE2, 0xB1, 0xA5], ⟨[0x23A], text_utf8Of he⟩, ?_, by decide⟩
  have := toLower8S_chars v none (s := [0xC8, 0xBA]) (toUcs4From8S_utf8Of he) he
  rw [this, List.map_cons, hl]
  rfl

/-! ## The hypotheses can be met -/

example : Utf8Text [0xC3, 0x89, 0x41, 0xED, 0xA0, 0x81, 0xED, 0xB0, 0x80] [0xC9, 0x41, 0x10400] :=
  .cons (bs := [0xC3, 0x89]) (.plain (v := 0xC9) (by decide))
    (.cons (bs := [0x41]) (.plain (v := 0x41) (by decide))
      (.cons (bs := [0xED, 0xA0, 0x81, 0xED, 0xB0, 0x80])
        (.pair (hi := 0xD801) (lo := 0xDC00) (by decide) (by decide)) .nil))
example : ∀ x ∈ [0xC9, 0x41, 0x10400], Scalar x ∧ x ≤ 0x10FFFF := by decide

end Ansak.Props
