import Verif.Lemmas.Compose

/-!
# C41: a conversion gives all of the text or nothing

For each of the eight conversions: if every character of the text exists in the target encoding the
result is the encoding of all of them, otherwise it is the empty string. (A truncated character at the
very end of the source is dropped, as documented.)
-/

namespace Ansak.Props

open Spec (NulFree Utf8Text Encodable Scalar Bmp Utf8Reads Surrogate HighSurrogate LowSurrogate utf8Of
  ucs4Of utf16Of ucs2Of textOf Utf16Incomplete)

/-! ## From UCS-4 -/

theorem C41_ucs4_to_utf8 (s : List U32) :
    ((∀ c ∈ textOf s, c.toNat ≤ 0x7FFFFFFF ∧ ¬ Surrogate c.toNat) →
      toUtf8From32S s = .ok (utf8Of (vals (textOf s)))) ∧
    ((∃ c ∈ textOf s, ¬ (c.toNat ≤ 0x7FFFFFFF ∧ ¬ Surrogate c.toNat)) → toUtf8From32S s = .ok []) := by
  rw [toUtf8From32S_any]
  refine ⟨fun h => by rw [if_pos h], fun ⟨c, hc, h⟩ => ?_⟩
  rw [if_neg fun hall => h (hall c hc)]

theorem C41_ucs4_to_utf16 (s : List U32) :
    ((∀ c ∈ textOf s, c.toNat ≤ 0x10FFFF ∧ ¬ Surrogate c.toNat) →
      toUtf16From32S s = .ok (utf16Of (vals (textOf s)))) ∧
    ((∃ c ∈ textOf s, ¬ (c.toNat ≤ 0x10FFFF ∧ ¬ Surrogate c.toNat)) → toUtf16From32S s = .ok []) := by
  rw [toUtf16From32S_any]
  refine ⟨fun h => by rw [if_pos h], fun ⟨c, hc, h⟩ => ?_⟩
  rw [if_neg fun hall => h (hall c hc)]

theorem C41_ucs4_to_ucs2 (s : List U32) :
    ((∀ c ∈ textOf s, c.toNat ≤ 0xFFFF ∧ ¬ Surrogate c.toNat) →
      toUcs2From32S s = .ok (ucs2Of (vals (textOf s)))) ∧
    ((∃ c ∈ textOf s, ¬ (c.toNat ≤ 0xFFFF ∧ ¬ Surrogate c.toNat)) → toUcs2From32S s = .ok []) := by
  rw [toUcs2From32S_any]
  refine ⟨fun h => by rw [if_pos h], fun ⟨c, hc, h⟩ => ?_⟩
  rw [if_neg fun hall => h (hall c hc)]

example : toUtf8From32S [0x41, 0x7FFFFFFF] = .ok [0x41, 0xFD, 0xBF, 0xBF, 0xBF, 0xBF, 0xBF] ∧
    toUtf8From32S [0x41, 0x80000000] = .ok [] ∧ toUtf8From32S [0x41, 0xDFFF] = .ok [] ∧
    toUtf16From32S [0x41, 0x10FFFF] = .ok [0x41, 0xDBFF, 0xDFFF] ∧
    toUtf16From32S [0x41, 0x110000] = .ok [] ∧ toUtf16From32S [0x41, 0xD800] = .ok [] ∧
    toUcs2From32S [0x41, 0xFFFF] = .ok [0x41, 0xFFFF] ∧
    toUcs2From32S [0x41, 0x10000] = .ok [] ∧ toUcs2From32S [0x41, 0xD800] = .ok [] := by
  decide +kernel

/-! ## From UTF-8 -/

theorem C41_utf8_to_ucs4 (s : List Byte) :
    (∀ vs t, Utf8Reads (textOf s) vs t → toUcs4From8S s = .ok (ucs4Of vs)) ∧
    ((¬ ∃ vs t, Utf8Reads (textOf s) vs t) → toUcs4From8S s = .ok []) := by
  obtain ⟨vs, e, h, h4, _, _⟩ := toUcs4From8S_any s
  rcases reads_of_scan h with ⟨t, rfl, hr⟩ | ⟨t, rfl⟩
  · refine ⟨fun ws t' hr' => ?_, fun hn => absurd ⟨vs, t, hr⟩ hn⟩
    rw [h4, if_pos (endOf_ok t), (reads_unique hr hr').1]
  · exact ⟨fun ws t' hr' => absurd ⟨ws, t', hr'⟩ (not_reads_of_bad h), fun _ => h4⟩

theorem C41_utf8_to_utf16 (s : List Byte) :
    (∀ vs t, Utf8Reads (textOf s) vs t →
      toUtf16From8S s = .ok (if ∀ v ∈ vs, v ≤ 0x10FFFF then utf16Of vs else [])) ∧
    ((¬ ∃ vs t, Utf8Reads (textOf s) vs t) → toUtf16From8S s = .ok []) := by
  obtain ⟨vs, e, h, _, h16, _⟩ := toUcs4From8S_any s
  rcases reads_of_scan h with ⟨t, rfl, hr⟩ | ⟨t, rfl⟩
  · refine ⟨fun ws t' hr' => ?_, fun hn => absurd ⟨vs, t, hr⟩ hn⟩
    obtain ⟨rfl, rfl⟩ := reads_unique hr hr'
    rw [h16, endOf_ok]
    by_cases hm : ∀ v ∈ vs, v ≤ 0x10FFFF
    · rw [if_pos ⟨rfl, hm⟩, if_pos hm]
    · rw [if_neg fun x => hm x.2, if_neg hm]
  · refine ⟨fun ws t' hr' => absurd ⟨ws, t', hr'⟩ (not_reads_of_bad h), fun _ => ?_⟩
    rw [h16, if_neg fun x => by cases x.1]

theorem C41_utf8_to_ucs2 (s : List Byte) :
    (∀ vs t, Utf8Reads (textOf s) vs t →
      toUcs2From8S s = .ok (if ∀ v ∈ vs, v ≤ 0xFFFF then ucs2Of vs else [])) ∧
    ((¬ ∃ vs t, Utf8Reads (textOf s) vs t) → toUcs2From8S s = .ok []) := by
  obtain ⟨vs, e, h, _, _, h2⟩ := toUcs4From8S_any s
  rcases reads_of_scan h with ⟨t, rfl, hr⟩ | ⟨t, rfl⟩
  · refine ⟨fun ws t' hr' => ?_, fun hn => absurd ⟨vs, t, hr⟩ hn⟩
    obtain ⟨rfl, rfl⟩ := reads_unique hr hr'
    rw [h2, endOf_ok]
    by_cases hm : ∀ v ∈ vs, v ≤ 0xFFFF
    · rw [if_pos ⟨rfl, hm⟩, if_pos hm]
    · rw [if_neg fun x => hm x.2, if_neg hm]
  · refine ⟨fun ws t' hr' => absurd ⟨ws, t', hr'⟩ (not_reads_of_bad h), fun _ => ?_⟩
    rw [h2, if_neg fun x => by cases x.1]

/-- A text read up to a truncated character, with a character outside UCS-2 and inside UTF-16. -/
example : Utf8Reads (utf8Of [0x41, 0x1F600] ++ [0xC3]) [0x41, 0x1F600] [0xC3] ∧
    toUtf16From8S (utf8Of [0x41, 0x1F600] ++ [0xC3]) = .ok [0x41, 0xD83D, 0xDE00] ∧
    toUcs2From8S (utf8Of [0x41, 0x1F600] ++ [0xC3]) = .ok [] :=
  ⟨reads_cut (text_utf8Of (by decide)) (.short (by simp) (by decide)), by decide +kernel,
    by decide +kernel⟩

/-! ## From UTF-16 -/

theorem C41_utf16_to_ucs4 (s : List U16) :
    (∀ vs t, textOf s = utf16Of vs ++ t → (∀ v ∈ vs, Scalar v) → (t = [] ∨ Utf16Incomplete t) →
      toUcs4From16S s = .ok (ucs4Of vs)) ∧
    ((¬ ∃ vs t, textOf s = utf16Of vs ++ t ∧ (∀ v ∈ vs, Scalar v) ∧ (t = [] ∨ Utf16Incomplete t)) →
      toUcs4From16S s = .ok []) := by
  obtain ⟨vs, e, hsc, h4⟩ := toUcs4From16S_any s
  constructor
  · intro ws t h1 hv ht
    have fin : ∀ {e' : End16}, Scan16 false (textOf s) ws e' → e'.ok = true →
        toUcs4From16S s = .ok (ucs4Of ws) := by
      intro e' h' he'
      obtain ⟨rfl, rfl⟩ := scan16_unique hsc h'
      rw [h4, if_pos he']
    rcases ht with rfl | ht
    · exact fin (scan16_done_iff.2 ⟨by rw [h1, List.append_nil], hv⟩) rfl
    · exact fin (scan16_cut_iff.2 ⟨t, h1, ht, hv⟩) rfl
  · intro hn
    rw [h4]
    cases e with
    | bad => rfl
    | done =>
      have ⟨h1, h2⟩ := scan16_done_iff.1 hsc
      exact absurd ⟨vs, [], by rw [List.append_nil]; exact h1, h2, .inl rfl⟩ hn
    | cut =>
      obtain ⟨t, h1, h2, h3⟩ := scan16_cut_iff.1 hsc
      exact absurd ⟨vs, t, h1, h3, .inr h2⟩ hn

/-- The conversion to UTF-8 takes a low surrogate that does not follow a high one for a character of
its own. With such "characters" added, it too converts all or nothing. -/
theorem C41_utf16_to_utf8_partial (s : List U16) :
    (∀ vs t, textOf s = utf16Of vs ++ t → (∀ v ∈ vs, Scalar v ∨ LowSurrogate v) →
      (t = [] ∨ Utf16Incomplete t) → toUtf8From16S s = .ok (utf8Of vs)) ∧
    ((¬ ∃ vs t, textOf s = utf16Of vs ++ t ∧ (∀ v ∈ vs, Scalar v ∨ LowSurrogate v) ∧
      (t = [] ∨ Utf16Incomplete t)) → toUtf8From16S s = .ok []) := by
  obtain ⟨vs, e, hsc, h8⟩ := toUtf8From16S_any s
  constructor
  · intro ws t h1 hv ht
    have fin : ∀ {e' : End16}, Scan16 true (textOf s) ws e' → e'.ok = true →
        toUtf8From16S s = .ok (utf8Of ws) := by
      intro e' h' he'
      obtain ⟨rfl, rfl⟩ := scan16_unique hsc h'
      rw [h8, if_pos he']
    rcases ht with rfl | ⟨h, rfl, hh⟩
    · have := scan16_of_lenient hv Scan16.done
      rw [List.append_nil, List.append_nil] at this
      rw [List.append_nil] at h1
      exact fin (h1 ▸ this) rfl
    · have := scan16_of_lenient hv (Scan16.cut hh)
      rw [List.append_nil] at this
      exact fin (h1 ▸ this) rfl
  · intro hn
    rw [h8]
    cases e with
    | bad => rfl
    | done =>
      exact absurd ⟨vs, [], by rw [List.append_nil]; exact scan16_encode hsc rfl,
        scan16_lenient_values hsc, .inl rfl⟩ hn
    | cut =>
      obtain ⟨t, h1, h2⟩ := scan16_cut_split hsc rfl
      exact absurd ⟨vs, t, h1, scan16_lenient_values hsc, .inr h2⟩ hn

/-- So text with a lone low surrogate, which no character set contains, is neither rejected nor
encoded; the other conversion from UTF-16 rejects it. -/
theorem C41_utf16_to_utf8_violated :
    toUtf8From16S [0x41, 0xDC00] = .ok [0x41, 0xED, 0xB0, 0x80] ∧
    toUcs4From16S [0x41, 0xDC00] = .ok [] := by decide +kernel

example : textOf ([0x41, 0xD83D, 0xDE00, 0xD800, 0, 0x42] : List U16) =
      utf16Of [0x41, 0x1F600] ++ [0xD800] ∧
    toUtf8From16S [0x41, 0xD83D, 0xDE00, 0xD800, 0, 0x42] = .ok [0x41, 0xF0, 0x9F, 0x98, 0x80] ∧
    toUtf8From16S [0x41, 0xD83D, 0x42] = .ok [] := by decide +kernel

/-! ## Consequence: nothing is left out of a result that is not empty -/

/-- The conversions between UTF-8, UTF-16 and UCS-4 give one unit or more for each character, so a
result is empty only if the text was rejected or has no complete character. -/
theorem C41_empty_iff (s : List U32) :
    (toUtf8From32S s = .ok [] ↔
      textOf s = [] ∨ ∃ c ∈ textOf s, 0x80000000 ≤ c.toNat ∨ Surrogate c.toNat) ∧
    (toUtf16From32S s = .ok [] ↔
      textOf s = [] ∨ ∃ c ∈ textOf s, 0x110000 ≤ c.toNat ∨ Surrogate c.toNat) ∧
    (toUcs2From32S s = .ok [] ↔
      textOf s = [] ∨ ∃ c ∈ textOf s, 0x10000 ≤ c.toNat ∨ Surrogate c.toNat) := by
  have key : ∀ {β : Type} (f : Nat → List β) (M : Nat), (∀ v, f v ≠ []) →
      ((Res.ok (if ∀ c ∈ textOf s, c.toNat ≤ M ∧ ¬ Surrogate c.toNat then
          (vals (textOf s)).flatMap f else []) = .ok []) ↔
        textOf s = [] ∨ ∃ c ∈ textOf s, M + 1 ≤ c.toNat ∨ Surrogate c.toNat) := by
    intro β f M hf
    by_cases h : ∀ c ∈ textOf s, c.toNat ≤ M ∧ ¬ Surrogate c.toNat
    · rw [if_pos h]
      constructor
      · intro he
        cases ht : textOf s with
        | nil => exact .inl rfl
        | cons c t =>
          rw [ht] at he
          simp only [vals, List.map_cons, List.flatMap_cons, Res.ok.injEq, List.append_eq_nil_iff] at he
          exact absurd he.1 (hf _)
      · rintro (h0 | ⟨c, hc, hbad⟩)
        · rw [h0]; rfl
        · have := h c hc
          rcases hbad with hb | hb
          · omega
          · exact absurd hb this.2
    · rw [if_neg h]
      refine ⟨fun _ => .inr ?_, fun _ => rfl⟩
      have : ∃ c, ¬ (c ∈ textOf s → c.toNat ≤ M ∧ ¬ Surrogate c.toNat) := Classical.not_forall.1 h
      obtain ⟨c, hc⟩ := this
      rw [Classical.not_imp] at hc
      refine ⟨c, hc.1, ?_⟩
      by_cases hs : Surrogate c.toNat
      · exact .inr hs
      · exact .inl (Nat.lt_of_not_le fun hle => hc.2 ⟨hle, hs⟩)
  refine ⟨?_, ?_, ?_⟩
  · rw [toUtf8From32S_any]
    exact key Spec.utf8 0x7FFFFFFF fun v => by
      unfold Spec.utf8 Spec.utf8Values; repeat' split
      all_goals simp
  · rw [toUtf16From32S_any]
    exact key Spec.utf16 0x10FFFF fun v => by unfold Spec.utf16; split <;> simp
  · rw [toUcs2From32S_any]
    have e : ∀ vs : List Nat, ucs2Of vs = vs.flatMap fun v => [BitVec.ofNat 16 v] := by
      intro vs; unfold ucs2Of; induction vs with
      | nil => rfl
      | cons v vs ih => simp [ih]
    rw [e]
    exact key (fun v => [BitVec.ofNat 16 v]) 0xFFFF fun v => by simp

end Ansak.Props
