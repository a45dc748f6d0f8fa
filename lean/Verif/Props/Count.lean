import Verif.Props.Length

/-!
# C19, C20: counting code points

The results are `unsigned int`s: texts of 2^32 characters and more are counted modulo 2^32, hence the
bounds on lengths below.
-/

namespace Ansak.Props

open Spec (NulFree Utf8Char Utf8Text Surrogate HighSurrogate LowSurrogate LooksLow Truncated Utf8Incomplete
  Utf8Reads Encodable Scalar utf8Of utf16Of ucs4Of Utf16Incomplete)

/-! ## C19: exactness -/

/-- UTF-8: the number of characters of complete Unicode text, which is the length of its conversion to
UCS-4. -/
theorem C19_utf8 {s : List Byte} {vs : List Nat} (hs : Utf8Text s vs) (hv : ∀ v ∈ vs, v ≤ 0x10FFFF)
    (hlen : s.length < 4294967296) (post : List Byte) :
    ∃ r u, unicodeLength8 (some (s ++ 0 :: post)) 0 = .ok r ∧ toUcs4From8 (some (s ++ 0 :: post)) = .ok u ∧
      r.toNat = vs.length ∧ u.length = vs.length := by
  have hnf := text_nulFree hs
  have h := unicodeLength8_text hnf (scan_of_text hs) post
  rw [if_pos hv] at h
  have h2 := toUcs4From8_text hnf (scan_of_text hs) post
  rw [if_pos (by rfl)] at h2
  refine ⟨_, _, h, h2, ?_, by unfold ucs4Of; rw [List.length_map]⟩
  have := text_length_le hs
  unfold countEnd uintOf; rw [BitVec.toNat_ofNat]; omega

example : ∃ r, unicodeLength8S [0x41, 0xE2, 0x82, 0xAC] = .ok r ∧ r.toNat = 2 := by
  obtain ⟨r, _, h, _, h2, _⟩ := C19_utf8 (text_utf8Of (vs := [0x41, 0x20AC]) (by decide)) (by decide)
    (by decide) []
  exact ⟨r, h, h2⟩

/-- UTF-8: 0 for malformed text, and for text with a character above U+10FFFF. -/
theorem C19_utf8_invalid {s : List Byte} (hs : NulFree s)
    (h : ¬ ∃ vs t, Utf8Reads s vs t ∧ ∀ v ∈ vs, v ≤ 0x10FFFF) (post : List Byte) :
    unicodeLength8 (some (s ++ 0 :: post)) 0 = .ok 0 := by
  obtain ⟨vs, e, hsc⟩ := scan_exists hs
  rw [unicodeLength8_text hs hsc post]
  split
  · rename_i hv
    rcases reads_of_scan hsc with ⟨t, _, hr⟩ | ⟨t, rfl⟩
    · exact absurd ⟨vs, t, hr, hv⟩ h
    · rfl
  · rfl

/-- UTF-16: the number of characters of complete text, which is the length of its conversion to UCS-4. -/
theorem C19_utf16 {vs : List Nat} (hv : ∀ v ∈ vs, Scalar v) (hlen : vs.length < 4294967296)
    (post : List U16) :
    ∃ r u, unicodeLength16 (some (utf16Of vs ++ 0 :: post)) 0 = .ok r ∧
      toUcs4From16 (some (utf16Of vs ++ 0 :: post)) = .ok u ∧ r.toNat = vs.length ∧ u.length = vs.length := by
  have h := unicodeLength16_text (scan16_utf16Of (lenient := false) hv) post
  have h2 := toUcs4From16_text (utf16Of_nulFree hv) (scan16_utf16Of (lenient := false) hv) post
  rw [if_pos (by rfl)] at h2
  refine ⟨_, _, h, h2, ?_, by unfold ucs4Of; rw [List.length_map]⟩
  unfold countEnd16 uintOf; rw [BitVec.toNat_ofNat]; omega

/-- UTF-16: 0 for text with an unpaired surrogate other than a high surrogate at the very end. -/
theorem C19_utf16_invalid {s : List U16} (hs : NulFree s)
    (h : ¬ ∃ vs t, s = utf16Of vs ++ t ∧ (∀ v ∈ vs, Scalar v) ∧ (t = [] ∨ Utf16Incomplete t))
    (post : List U16) :
    unicodeLength16 (some (s ++ 0 :: post)) 0 = .ok 0 := by
  obtain ⟨vs, e, hsc⟩ := scan16_exists false hs
  rw [unicodeLength16_text hsc post]
  cases e with
  | bad => rfl
  | done =>
    have ⟨h1, h2⟩ := scan16_done_iff.1 hsc
    exact absurd ⟨vs, [], by rw [List.append_nil]; exact h1, h2, .inl rfl⟩ h
  | cut =>
    obtain ⟨t, h1, h2, h3⟩ := scan16_cut_iff.1 hsc
    exact absurd ⟨vs, t, h1, h3, .inr h2⟩ h

/-- UCS-4: the number of units, or 0 if there is a surrogate. Missing from the full property: units above
U+10FFFF are counted. -/
theorem C19_ucs4_partial {s : List U32} (hs : NulFree s) (hlen : s.length < 4294967296)
    (post : List U32) :
    ((∀ c ∈ s, ¬ Surrogate c.toNat) →
      ∃ r, unicodeLength32 (some (s ++ 0 :: post)) 0 = .ok r ∧ r.toNat = s.length) ∧
    ((∃ c ∈ s, Surrogate c.toNat) → unicodeLength32 (some (s ++ 0 :: post)) 0 = .ok 0) := by
  have h := unicodeLength32_buf hs post
  constructor
  · intro hv
    rw [if_pos hv] at h
    refine ⟨_, h, ?_⟩
    unfold uintOf; rw [BitVec.toNat_ofNat]; omega
  · rintro ⟨c, hc, hs⟩
    rw [if_neg (fun h => h c hc hs)] at h
    exact h

example : NulFree ([0x41, 0x1F600] : List U32) ∧ ∀ c ∈ ([0x41, 0x1F600] : List U32), ¬ Surrogate c.toNat := by
  decide

/-- Violation of C19: a UCS-4 unit that is not a Unicode code point is counted. -/
theorem C19_ucs4_violated : unicodeLength32S [0x110000] = .ok 1 := by decide

/-- The same text counts the same in all three encodings. -/
theorem C19_agree {vs : List Nat} (hv : ∀ v ∈ vs, Scalar v) (hlen : vs.length < 4294967296) :
    ∃ r, r.toNat = vs.length ∧ unicodeLength8S (utf8Of vs) = .ok r ∧
      unicodeLength16S (utf16Of vs) = .ok r ∧ unicodeLength32S (ucs4Of vs) = .ok r := by
  have he : ∀ v ∈ vs, Encodable v := fun v h => scalar_encodable (hv v h)
  refine ⟨uintOf vs.length, ?_, ?_, ?_, ?_⟩
  · unfold uintOf; rw [BitVec.toNat_ofNat]; omega
  · have h := unicodeLength8_text (utf8Of_nulFree he) (scan_of_text (text_utf8Of he)) []
    rw [if_pos (fun v h => (hv v h).2.1)] at h
    exact h
  · exact unicodeLength16_text (scan16_utf16Of (lenient := false) hv) []
  · have h := unicodeLength32_buf (ucs4Of_nulFree he) []
    rw [if_pos ((ucs4Of_forall (P := fun v => ¬ Surrogate v) he).2 fun v h => (hv v h).2.2)] at h
    have e : (ucs4Of vs).length = vs.length := by unfold ucs4Of; rw [List.length_map]
    rw [e] at h
    exact h

example : ∀ v ∈ [0x41, 0x20AC, 0x1F600], Scalar v := by decide

/-! ## C20: incomplete tails -/

/-- Length-terminated UTF-8: an incomplete character at the end is ignored. -/
theorem C20_utf8_length {a t : List Byte} {vs : List Nat} (ha : Utf8Text a vs) {P : Nat → Prop}
    (ht : Utf8Incomplete P t) (hv : ∀ v ∈ vs, v ≤ 0x10FFFF) {n : U32}
    (hlen : n.toNat = (a ++ t).length) (x : List Byte) (hx : x ≠ []) :
    ∃ r, unicodeLength8 (some (a ++ t ++ x)) n = .ok r ∧ r.toNat = vs.length :=
  C22_utf8_truncated_partial ha (incomplete_truncated ht) (incomplete_not_low ht) hv hlen x hx

/-- Length-terminated UTF-16: an incomplete character at the end is ignored. -/
theorem C20_utf16_length {t : List U16} {vs : List Nat} (hv : ∀ v ∈ vs, Scalar v)
    (ht : Utf16Incomplete t) {n : U32} (hlen : n.toNat = (utf16Of vs ++ t).length) (x : List U16)
    (hx : x ≠ []) :
    ∃ r, unicodeLength16 (some (utf16Of vs ++ t ++ x)) n = .ok r ∧ r.toNat = vs.length := by
  obtain ⟨h, rfl, hh⟩ := ht
  refine (C22_utf16 (by simp) ?_ hlen x hx).1 vs [h] rfl hv (.inr ⟨h, rfl, hh⟩)
  refine NulFree.append.2 ⟨utf16Of_nulFree hv, ?_⟩
  intro c hc
  rw [List.mem_singleton] at hc
  rw [hc]
  exact high_ne_zero hh

example : Utf8Incomplete (fun _ => True) [0xE2, 0x82] ∧ Utf16Incomplete [0xD83D] :=
  ⟨⟨by simp, [0xE2, 0x82, 0xAC], 0x20AC, [0xAC], by
    exact (show Spec.utf8 0x20AC = [0xE2, 0x82, 0xAC] by decide) ▸ .plain (by decide),
    trivial, by simp, rfl⟩, 0xD83D, rfl, by decide⟩

/-- NUL-terminated input: the result is one less than the number of complete characters (modulo 2^32).
The full property asks for the number of complete characters. -/
theorem C20_nul_terminated_partial {a t : List Byte} {vs : List Nat} (ha : Utf8Text a vs) (ht : Truncated t)
    (hv : ∀ v ∈ vs, v ≤ 0x10FFFF) (post : List Byte) {ws : List Nat} (hw : ∀ v ∈ ws, Scalar v)
    {t2 : List U16} (ht2 : Utf16Incomplete t2) (post2 : List U16) :
    unicodeLength8 (some (a ++ t ++ 0 :: post)) 0 = .ok (BitVec.ofNat 32 vs.length - 1) ∧
    unicodeLength16 (some (utf16Of ws ++ t2 ++ 0 :: post2)) 0 = .ok (BitVec.ofNat 32 ws.length - 1) := by
  constructor
  · have h := unicodeLength8_text (NulFree.append.2 ⟨text_nulFree ha, truncated_nulFree ht⟩)
      (scan_of_cut ha ht) post
    rw [if_pos hv] at h
    exact h
  · exact unicodeLength16_text (scan16_cut_iff.2 ⟨t2, rfl, ht2, hw⟩) post2

/-- Violation of C20: an incomplete tail of a NUL-terminated string costs the preceding character, and
underflows if there is none. -/
theorem C20_nul_terminated_violated :
    unicodeLength8S [0x41, 0xC3] = .ok 0 ∧ unicodeLength8S [0xC3] = .ok 0xFFFFFFFF ∧
    unicodeLength16S [0x41, 0xD83D] = .ok 0 ∧ unicodeLength16S [0xD83D] = .ok 0xFFFFFFFF := by
  have ht : Truncated [0xC3] := .short (cs := []) (by decide) (by decide)
  have ht2 : Utf16Incomplete [0xD83D] := ⟨_, rfl, by decide⟩
  refine ⟨?_, ?_, ?_, ?_⟩
  · exact (C20_nul_terminated_partial (text_utf8Of (vs := [0x41]) (by decide)) ht (by decide) []
      (ws := []) (by simp) ht2 []).1
  · exact (C20_nul_terminated_partial .nil ht (by simp) [] (ws := []) (by simp) ht2 []).1
  · exact (C20_nul_terminated_partial .nil ht (by simp) [] (ws := [0x41]) (by decide) ht2 []).2
  · exact (C20_nul_terminated_partial .nil ht (by simp) [] (ws := []) (by simp) ht2 []).2

end Ansak.Props
