import Verif.Lemmas.Compose
import Verif.Lemmas.Find

/-!
# C52: searching encoded text
-/

namespace Ansak.Props

open Spec (Encodable Scalar utf8Of utf16Of ucs4Of Utf8Text)

/-- UTF-8: where the bytes of one non-empty well-formed text occur in another, they occur as characters.
What is before and after them is well-formed, and the conversion of the whole is the conversions of the
three parts. -/
theorem C52_utf8 {hay a needle b : List Byte} {vs ws : List Nat} (h : Utf8Text hay vs)
    (hm : Utf8Text needle ws) (hne : needle ≠ []) (e : hay = a ++ needle ++ b) :
    ∃ us xs, Utf8Text a us ∧ Utf8Text b xs ∧ vs = us ++ ws ++ xs ∧
      ∃ x m y, toUcs4From8S a = .ok x ∧ toUcs4From8S needle = .ok m ∧ toUcs4From8S b = .ok y ∧
        toUcs4From8S hay = .ok (x ++ m ++ y) := by
  obtain ⟨us, xs, hu, hx, hv⟩ := EncText.occurs utf8_synchronised (encText_utf8.2 h) (encText_utf8.2 hm) hne e
  have hu := encText_utf8.1 hu
  have hx := encText_utf8.1 hx
  have conv : ∀ {s : List Byte} {zs : List Nat}, Utf8Text s zs → toUcs4From8S s = .ok (ucs4Of zs) := by
    intro s zs hs
    have hn := text_nulFree hs
    unfold toUcs4From8S; rw [cStr_nulFree hn, toUcs4From8_text hn (scan_of_text hs)]; rfl
  refine ⟨us, xs, hu, hx, hv, _, _, _, conv hu, conv hm, conv hx, ?_⟩
  rw [conv h, hv]
  simp [ucs4Of]

theorem vals_split {s t : List U32} {us xs : List Nat} (h : vals s = us ++ vals t ++ xs) :
    s = ucs4Of us ++ t ++ ucs4Of xs ∧ vals (ucs4Of us) = us := by
  have e := congrArg ucs4Of h
  rw [ucs4Of_vals] at e
  have e' : s = ucs4Of us ++ t ++ ucs4Of xs := by
    rw [e]
    unfold ucs4Of
    rw [List.map_append, List.map_append]
    exact congrArg (_ ++ · ++ _) (ucs4Of_vals t)
  refine ⟨e', ?_⟩
  have h2 := congrArg vals e'
  rw [h] at h2
  unfold vals at h2 ⊢
  rw [List.map_append, List.map_append, List.append_assoc, List.append_assoc] at h2
  exact (List.append_inj h2 (by simp [ucs4Of])).1.symm

/-- Searching the UTF-8 form of a text for the UTF-8 form of another finds it exactly where the text
contains the other: `needle` is preceded by the bytes `a` if and only if the other text is preceded by
the characters that `a` is the UTF-8 form of. -/
theorem C52_utf8_search {s t : List U32} (hs : ∀ c ∈ s, Encodable c.toNat)
    (ht : ∀ c ∈ t, Encodable c.toNat) (hne : t ≠ []) :
    ∃ hay needle, toUtf8From32S s = .ok hay ∧ toUtf8From32S t = .ok needle ∧
      ∀ a, (∃ b, hay = a ++ needle ++ b) ↔ ∃ u x, s = u ++ t ++ x ∧ toUtf8From32S u = .ok a := by
  have enc : ∀ {s : List U32}, (∀ c ∈ s, Encodable c.toNat) → (∀ v ∈ vals s, Encodable v) := by
    intro s h v hv
    obtain ⟨c, hc, rfl⟩ := List.mem_map.1 hv
    exact h c hc
  have conv : ∀ {s : List U32}, (∀ c ∈ s, Encodable c.toNat) → toUtf8From32S s = .ok (utf8Of (vals s)) := by
    intro s h
    have := toUtf8From32S_ucs4Of (enc h)
    rwa [ucs4Of_vals] at this
  refine ⟨_, _, conv hs, conv ht, fun a => ?_⟩
  rw [utf8Of_occurs (enc hs) (enc ht) (fun e => hne (List.map_eq_nil_iff.1 e))]
  constructor
  · rintro ⟨us, xs, h, rfl⟩
    obtain ⟨e, eu⟩ := vals_split h
    refine ⟨_, _, e, ?_⟩
    rw [conv (fun c hc => hs c (by rw [e]; simp [hc])), eu]
  · rintro ⟨u, x, rfl, hu⟩
    rw [conv (s := u) fun c hc => hs c (by simp [hc])] at hu
    exact ⟨vals u, vals x, by simp [vals], (Res.ok.inj hu).symm⟩

/-- The same for UTF-16. -/
theorem C52_utf16_search {s t : List U32} (hs : ∀ c ∈ s, Scalar c.toNat)
    (ht : ∀ c ∈ t, Scalar c.toNat) (hne : t ≠ []) :
    ∃ hay needle, toUtf16From32S s = .ok hay ∧ toUtf16From32S t = .ok needle ∧
      ∀ a, (∃ b, hay = a ++ needle ++ b) ↔ ∃ u x, s = u ++ t ++ x ∧ toUtf16From32S u = .ok a := by
  have enc : ∀ {s : List U32}, (∀ c ∈ s, Scalar c.toNat) → (∀ v ∈ vals s, Scalar v) := by
    intro s h v hv
    obtain ⟨c, hc, rfl⟩ := List.mem_map.1 hv
    exact h c hc
  have conv : ∀ {s : List U32}, (∀ c ∈ s, Scalar c.toNat) → toUtf16From32S s = .ok (utf16Of (vals s)) := by
    intro s h
    have := toUtf16From32S_ucs4Of fun v hv => scalar_encodable (enc h v hv)
    rwa [ucs4Of_vals, if_pos fun v hv => (enc h v hv).2.1] at this
  refine ⟨_, _, conv hs, conv ht, fun a => ?_⟩
  rw [utf16Of_occurs (enc hs) (enc ht) (fun e => hne (List.map_eq_nil_iff.1 e))]
  constructor
  · rintro ⟨us, xs, h, rfl⟩
    obtain ⟨e, eu⟩ := vals_split h
    refine ⟨_, _, e, ?_⟩
    rw [conv (fun c hc => hs c (by rw [e]; simp [hc])), eu]
  · rintro ⟨u, x, rfl, hu⟩
    rw [conv (s := u) fun c hc => hs c (by simp [hc])] at hu
    exact ⟨vals u, vals x, by simp [vals], (Res.ok.inj hu).symm⟩

/-- The shortest form is needed: the two forms in which the library accepts U+1F600 do not occur in one
another, although they are the same character. -/
theorem C52_pair_violated : ∃ hay needle : List Byte, ∃ m, toUcs4From8S hay = .ok m ∧
    toUcs4From8S needle = .ok m ∧ m ≠ [] ∧ ¬ ∃ a b, hay = a ++ needle ++ b := by
  refine ⟨[0xF0, 0x9F, 0x98, 0x80], [0xED, 0xA0, 0xBD, 0xED, 0xB8, 0x80], [0x1F600], by decide +kernel,
    by decide +kernel, by decide, ?_⟩
  rintro ⟨a, b, e⟩
  have := congrArg List.length e
  simp only [List.length_append, List.length_cons, List.length_nil] at this
  omega

/-! ## The hypotheses can be met -/

/-- "né" occurs in "anée", after the byte of "a". -/
example : Utf8Text [0x61, 0x6E, 0xC3, 0xA9, 0x65] [0x61, 0x6E, 0xE9, 0x65] ∧
    Utf8Text [0x6E, 0xC3, 0xA9] [0x6E, 0xE9] ∧
    ([0x61, 0x6E, 0xC3, 0xA9, 0x65] : List Byte) = [0x61] ++ [0x6E, 0xC3, 0xA9] ++ [0x65] :=
  ⟨text_utf8Of (vs := [0x61, 0x6E, 0xE9, 0x65]) (by decide), text_utf8Of (vs := [0x6E, 0xE9]) (by decide), rfl⟩
/-- "a" after a character of two units. -/
example : ∃ hay needle, toUtf16From32S [0x10300, 0x61] = .ok hay ∧ toUtf16From32S [0x61] = .ok needle ∧
    ∀ a, (∃ b, hay = a ++ needle ++ b) ↔ ∃ u x, [0x10300, 0x61] = u ++ [0x61] ++ x ∧
      toUtf16From32S u = .ok a :=
  C52_utf16_search (by decide) (by decide) (by decide)
example : ∃ hay needle, toUtf8From32S [0x20AC, 0x61] = .ok hay ∧ toUtf8From32S [0x61] = .ok needle ∧
    ∀ a, (∃ b, hay = a ++ needle ++ b) ↔ ∃ u x, [0x20AC, 0x61] = u ++ [0x61] ++ x ∧
      toUtf8From32S u = .ok a :=
  C52_utf8_search (by decide) (by decide) (by decide)

end Ansak.Props
