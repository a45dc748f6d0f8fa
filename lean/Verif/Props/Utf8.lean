import Verif.Lemmas.Malformed
import Verif.Lemmas.Text

/-!
# C01, C02, C03, C04, C16, C40: UTF-8

A NUL-terminated buffer is written `s ++ 0 :: post`: the text `s`, the NUL, and whatever memory
follows it.
-/

namespace Ansak.Props

open Spec (NulFree Utf8Text Encodable Scalar Utf8Incomplete Utf8Reads Truncated Malformed utf8Of
  ucs4Of utf16Of ucs2Of)

/-! ## C01: decoding is exact -/

/-- Well-formed text is decoded to exactly its characters. -/
theorem C01_wellformed {s : List Byte} {vs : List Nat} (h : Utf8Text s vs) (post : List Byte) :
    toUcs4From8 (some (s ++ 0 :: post)) = .ok (ucs4Of vs) := by
  rw [toUcs4From8_text (text_nulFree h) (scan_of_text h)]; rfl

example : Utf8Text [0x41, 0xC3, 0xA9, 0xED, 0xA0, 0x81, 0xED, 0xB0, 0x80] [0x41, 0xE9, 0x10400] :=
  .cons (bs := [0x41]) (.plain (v := 0x41) (by decide))
    (.cons (bs := [0xC3, 0xA9]) (.plain (v := 0xE9) (by decide))
      (.cons (bs := [0xED, 0xA0, 0x81, 0xED, 0xB0, 0x80])
        (.pair (hi := 0xD801) (lo := 0xDC00) (by decide) (by decide)) .nil))
example : toUcs4From8 (some ([0x41, 0xC3, 0xA9, 0xED, 0xA0, 0x81, 0xED, 0xB0, 0x80] ++ 0 :: [7])) =
    .ok [0x41, 0xE9, 0x10400] := by decide +kernel

/-- An incomplete character at the end of well-formed text is ignored. -/
theorem C01_incomplete_tail {a t : List Byte} {vs : List Nat} (h : Utf8Text a vs)
    (ht : Utf8Incomplete (fun _ => True) t) (post : List Byte) :
    toUcs4From8 (some (a ++ t ++ 0 :: post)) = .ok (ucs4Of vs) := by
  have htr := incomplete_truncated ht
  rw [toUcs4From8_text (NulFree.append.2 ⟨text_nulFree h, truncated_nulFree htr⟩)
    (scan_of_cut h htr)]; rfl

example : Utf8Incomplete (fun _ => True) [0xE2, 0x82] :=
  ⟨by decide, _, 0x20AC, [0xAC], .plain (by decide), trivial, by decide, rfl⟩

/-- The decoder is exact on every text: it returns the characters if the text is well-formed up to an
optional truncated sequence at its end, and the empty string otherwise. -/
theorem C01_toUcs4_exact {s : List Byte} (hs : NulFree s) (post : List Byte) :
    (∀ vs t, Utf8Reads s vs t → toUcs4From8 (some (s ++ 0 :: post)) = .ok (ucs4Of vs)) ∧
    ((¬ ∃ vs t, Utf8Reads s vs t) → toUcs4From8 (some (s ++ 0 :: post)) = .ok []) := by
  constructor
  · intro vs t h
    rw [toUcs4From8_text hs (scan_of_reads h), if_pos (endOf_ok t)]
  · intro h
    obtain ⟨vs, t, hb⟩ := bad_of_not_reads hs h
    rw [toUcs4From8_text hs hb]; rfl

example : NulFree (w := 8) [0x41, 0xC3] ∧ Utf8Reads [0x41, 0xC3] [0x41] [0xC3] :=
  ⟨by decide, [0x41], rfl, .cons (bs := [0x41]) (.plain (v := 0x41) (by decide)) .nil,
    .inr (.short conts_nil (by decide))⟩
example : toUcs4From8S [0x41, 0xC3] = .ok [0x41] ∧ toUcs4From8S [0x41, 0xC3, 0x41] = .ok [] := by
  decide +kernel

/-- No character has an encoding starting with C0. -/
theorem not_incomplete_C0 {P : Nat → Prop} : ¬ Utf8Incomplete P [0xC0] := by
  rintro ⟨_, bs, v, more, hc, _, _, rfl⟩
  generalize hbs : [0xC0] ++ more = bs at hc
  cases hc with
  | plain hv =>
    have hd := utf8_head hbs.symm hv.2.1
    simp only [show (0xC0 : Byte).toNat = 0xC0 from rfl] at hd
    have := hv.2.1
    repeat' split at hd
    all_goals omega
  | pair hh hl =>
    have := pair_head hh hbs.symm
    simp at this

/-- A truncated sequence need not be the beginning of a character: under the strict reading of
"incomplete sequence" (a proper prefix of a well-formed one) the decoder is not exact. `"A\xC0"` is
decoded to `"A"` although no character starts with C0. -/
theorem C01_strict_violated :
    NulFree (w := 8) [0x41, 0xC0] ∧
    (¬ ∃ a t vs, [0x41, 0xC0] = a ++ t ∧ Utf8Text a vs ∧
      (t = [] ∨ Utf8Incomplete (fun _ => True) t)) ∧
    toUcs4From8 (some [0x41, 0xC0, 0]) = .ok [0x41] := by
  refine ⟨by decide, ?_, by decide +kernel⟩
  rintro ⟨a, t, vs, e, ha, ht⟩
  have hr : Utf8Reads [0x41, 0xC0] [0x41] [0xC0] :=
    ⟨[0x41], rfl, .cons (bs := [0x41]) (.plain (v := 0x41) (by decide)) .nil,
      .inr (.short conts_nil (by decide))⟩
  have hr' : Utf8Reads [0x41, 0xC0] vs t := ⟨a, e, ha, ht.imp id incomplete_truncated⟩
  have := (reads_unique hr hr').2
  subst this
  rcases ht with ht | ht
  · cases ht
  · exact not_incomplete_C0 ht

/-! ## C02: validation is exact -/

/-- Everything that should be accepted is accepted: text whose characters fit the range, optionally
followed by the beginning of a character that fits the range. -/
theorem C02_no_false_rejection (U : CharClass) (r : Spec.Range) {a t : List Byte} {vs : List Nat}
    (ha : Utf8Text a vs) (hr : ∀ v ∈ vs, r.Has v) (ht : t = [] ∨ Utf8Incomplete r.Has t)
    (post : List Byte) :
    isUtf8 U (some (a ++ t ++ 0 :: post)) r.code Pred.none = .ok true := by
  have hrd : Utf8Reads (a ++ t) vs t := ⟨a, rfl, ha, ht.imp id incomplete_truncated⟩
  obtain ⟨b, hb1, hb2⟩ := isUtf8_text U r Pred.none (reads_nulFree hrd) (scan_of_reads hrd) post
  rw [hb1]
  congr
  rw [hb2]
  refine ⟨fun v hv => ⟨has_acc8 (text_encodable ha v hv) (hr v hv), call32_none U rfl v⟩, ?_⟩
  rw [endOk_endOf]
  intro b hb
  rcases ht with rfl | ht
  · cases hb
  · obtain ⟨b', t', rfl, hl⟩ := incomplete_lead ht
    simp only [List.head?_cons, Option.mem_some_iff] at hb
    subst hb
    exact (lead8_iff r _).1 hl

example : (∀ v ∈ [0x41, 0xE9], Spec.Range.unicode.Has v) ∧
    Utf8Incomplete Spec.Range.unicode.Has [0xF0, 0x9F] :=
  ⟨by decide, by decide, _, 0x1F600, [0x98, 0x80], .plain (by decide), by decide, by decide, rfl⟩

/-- The validator accepts exactly the texts whose characters fit the range, followed by nothing or by
a truncated sequence whose first byte could start a character of the range. Missing from the full
property: the truncated sequence need not be one that can be completed (`C02_tail_violated`), and
for kUtf16 the characters go up to 0x13FFFF (`C02_utf16_violated`, `C02_isUtf8_utf16_partial`). -/
theorem C02_isUtf8_partial (U : CharClass) {r : Spec.Range} (hr : r ≠ .utf16) {s : List Byte}
    (hs : NulFree s) (post : List Byte) :
    ∃ b, isUtf8 U (some (s ++ 0 :: post)) r.code Pred.none = .ok b ∧
      (b = true ↔ ∃ vs t, Utf8Reads s vs t ∧ (∀ v ∈ vs, r.Has v) ∧
        ∀ b ∈ t.head?, b.toNat ≤ r.maxLead) := by
  obtain ⟨vs, e, hsc⟩ := scan_exists hs
  obtain ⟨b, hb1, hb2⟩ := isUtf8_text U r Pred.none hs hsc post
  refine ⟨b, hb1, ?_⟩
  rw [hb2]
  have henc := scan_encodable hsc
  rcases reads_of_scan hsc with ⟨t, rfl, hrd⟩ | ⟨t, rfl⟩
  · rw [endOk_endOf]
    constructor
    · rintro ⟨h1, h2⟩
      exact ⟨vs, t, hrd, fun v hv => (acc8_iff hr (henc v hv)).1 (h1 v hv).1, h2⟩
    · rintro ⟨vs', t', hrd', h1, h2⟩
      obtain ⟨rfl, rfl⟩ := reads_unique hrd hrd'
      exact ⟨fun v hv => ⟨(acc8_iff hr (henc v hv)).2 (h1 v hv), call32_none U rfl v⟩, h2⟩
  · constructor
    · rintro ⟨_, h⟩; exact h.elim
    · rintro ⟨vs', t', hrd', _⟩
      exact absurd ⟨vs', t', hrd'⟩ (not_reads_of_bad hsc)

example : Utf8Reads [0xC3, 0xA9, 0xE2] [0xE9] [0xE2] ∧ Spec.Range.ucs2.Has 0xE9 :=
  ⟨⟨[0xC3, 0xA9], rfl, .cons (bs := [0xC3, 0xA9]) (.plain (v := 0xE9) (by decide)) .nil,
    .inr (.short conts_nil (by decide))⟩, by decide⟩

/-- The same for kUtf16, with the limit the code uses: 0x13FFFF instead of 0x10FFFF. -/
theorem C02_isUtf8_utf16_partial (U : CharClass) {s : List Byte} (hs : NulFree s)
    (post : List Byte) :
    ∃ b, isUtf8 U (some (s ++ 0 :: post)) Spec.Range.utf16.code Pred.none = .ok b ∧
      (b = true ↔ ∃ vs t, Utf8Reads s vs t ∧ (∀ v ∈ vs, v ≤ 0x13FFFF) ∧
        ∀ b ∈ t.head?, b.toNat ≤ 0xF4) := by
  obtain ⟨vs, e, hsc⟩ := scan_exists hs
  obtain ⟨b, hb1, hb2⟩ := isUtf8_text U .utf16 Pred.none hs hsc post
  refine ⟨b, hb1, ?_⟩
  rw [hb2]
  rcases reads_of_scan hsc with ⟨t, rfl, hrd⟩ | ⟨t, rfl⟩
  · rw [endOk_endOf]
    constructor
    · rintro ⟨h1, h2⟩
      exact ⟨vs, t, hrd, fun v hv => acc8_utf16.1 (h1 v hv).1, h2⟩
    · rintro ⟨vs', t', hrd', h1, h2⟩
      obtain ⟨rfl, rfl⟩ := reads_unique hrd hrd'
      exact ⟨fun v hv => ⟨acc8_utf16.2 (h1 v hv), call32_none U rfl v⟩, h2⟩
  · constructor
    · rintro ⟨_, h⟩; exact h.elim
    · rintro ⟨vs', t', hrd', _⟩
      exact absurd ⟨vs', t', hrd'⟩ (not_reads_of_bad hsc)

/-- On complete text the validator decides exactly whether the characters fit the range
(every range but kUtf16). -/
theorem C02_complete_partial (U : CharClass) {r : Spec.Range} (hr : r ≠ .utf16) {s : List Byte}
    {vs : List Nat} (h : Utf8Text s vs) (post : List Byte) :
    isUtf8 U (some (s ++ 0 :: post)) r.code Pred.none = .ok (decide (∀ v ∈ vs, r.Has v)) := by
  obtain ⟨b, hb1, hb2⟩ := C02_isUtf8_partial U hr (text_nulFree h) post
  rw [hb1]
  congr
  rw [Bool.eq_iff_iff, hb2, decide_eq_true_iff]
  constructor
  · rintro ⟨vs', t', hrd, h1, _⟩
    obtain ⟨rfl, rfl⟩ := reads_unique hrd (reads_done h)
    exact h1
  · intro h1
    exact ⟨vs, [], reads_done h, h1, by simp⟩

example (U : CharClass) : isUtf8 U (some ([0xC3, 0xA9] ++ 0 :: [])) Spec.Range.ascii.code Pred.none = .ok false :=
  C02_complete_partial U (by decide)
    (.cons (bs := [0xC3, 0xA9]) (.plain (v := 0xE9) (by decide)) .nil) []

/-- Violation of C02: a truncated sequence that no character of the range (indeed no character at
all) can complete is accepted. -/
theorem C02_tail_violated (U : CharClass) :
    (¬ ∃ P, Utf8Incomplete P [0xC0]) ∧
    isUtf8 U (some [0x41, 0xC0, 0]) kUtf8 Pred.none = .ok true := by
  refine ⟨fun ⟨P, h⟩ => not_incomplete_C0 h, ?_⟩
  have hrd : Utf8Reads [0x41, 0xC0] [0x41] [0xC0] :=
    ⟨[0x41], rfl, .cons (bs := [0x41]) (.plain (v := 0x41) (by decide)) .nil,
      .inr (.short conts_nil (by decide))⟩
  obtain ⟨b, hb1, hb2⟩ := C02_isUtf8_partial U (r := .utf8) (by decide) (reads_nulFree hrd) []
  rw [hb2.2 ⟨_, _, hrd, by decide, by decide⟩] at hb1
  exact hb1

/-- Violation of C02: 0x110000, outside UTF-16, is accepted for kUtf16. -/
theorem C02_utf16_violated (U : CharClass) :
    Utf8Text [0xF4, 0x90, 0x80, 0x80] [0x110000] ∧ ¬ Spec.Range.utf16.Has 0x110000 ∧
    isUtf8 U (some [0xF4, 0x90, 0x80, 0x80, 0]) kUtf16 Pred.none = .ok true := by
  have ht : Utf8Text [0xF4, 0x90, 0x80, 0x80] [0x110000] :=
    .cons (bs := [0xF4, 0x90, 0x80, 0x80]) (.plain (v := 0x110000) (by decide)) .nil
  refine ⟨ht, by decide, ?_⟩
  obtain ⟨b, hb1, hb2⟩ := C02_isUtf8_utf16_partial U (text_nulFree ht) []
  rw [hb2.2 ⟨_, _, reads_done ht, by decide, by decide⟩] at hb1
  exact hb1

/-! ## C03: UCS-4 to UTF-8 and back -/

theorem C03_ucs4_roundtrip {s : List U32} (h : ∀ c ∈ s, Encodable c.toNat) :
    (toUtf8From32S s).bind toUcs4From8S = .ok s := by
  have hnf : NulFree s := fun c hc => bv_ne_zero (by have := (h c hc).1; omega)
  have henc : ∀ v ∈ vals s, Encodable v := by
    intro v hv
    obtain ⟨c, hc, rfl⟩ := List.mem_map.1 hv
    exact h c hc
  have ht := text_utf8Of henc
  unfold toUtf8From32S toUcs4From8S
  rw [cStr_nulFree hnf, toUtf8From32_buf hnf, if_pos fun c hc => ⟨(h c hc).2.1, (h c hc).2.2⟩,
    Res.bind_ok, cStr_nulFree (text_nulFree ht), C01_wellformed ht]
  simp [ucs4Of, vals, List.map_map, Function.comp_def]

example : (∀ c ∈ ([0x41, 0x20AC, 0x10FFFF, 0x7FFFFFFF] : List U32), Encodable c.toNat) ∧
    toUtf8From32S [0x20AC, 0x7FFFFFFF] =
      .ok [0xE2, 0x82, 0xAC, 0xFD, 0xBF, 0xBF, 0xBF, 0xBF, 0xBF] := by
  decide +kernel

/-! ## C04: UTF-8 to UCS-4 and back -/

/-- Canonical text survives the round trip. -/
theorem C04_canonical_roundtrip {vs : List Nat} (h : ∀ v ∈ vs, Encodable v) :
    (toUcs4From8S (utf8Of vs)).bind toUtf8From32S = .ok (utf8Of vs) := by
  have ht := text_utf8Of h
  unfold toUcs4From8S
  rw [cStr_nulFree (text_nulFree ht), C01_wellformed ht, Res.bind_ok]
  exact ucs4_encode_aux h
where
  /-- Encoding a UCS-4 string of encodable values. -/
  ucs4_encode_aux {vs : List Nat} (h : ∀ v ∈ vs, Encodable v) :
      toUtf8From32S (ucs4Of vs) = .ok (utf8Of vs) := by
    have hv : ∀ v ∈ vs, (BitVec.ofNat 32 v).toNat = v := by
      intro v hv; have := (h v hv).2.1; rw [BitVec.toNat_ofNat]; omega
    have hvals : vals (ucs4Of vs) = vs := by
      unfold vals ucs4Of
      rw [List.map_map]
      conv => rhs; rw [← List.map_id vs]
      exact List.map_congr_left hv
    have hmem : ∀ c ∈ ucs4Of vs, Encodable c.toNat := by
      intro c hc
      obtain ⟨v, hv', rfl⟩ := List.mem_map.1 hc
      rw [hv v hv']; exact h v hv'
    have hnf : NulFree (ucs4Of vs) := fun c hc => bv_ne_zero (by have := (hmem c hc).1; omega)
    unfold toUtf8From32S
    rw [cStr_nulFree hnf, toUtf8From32_buf hnf,
      if_pos fun c hc => ⟨(hmem c hc).2.1, (hmem c hc).2.2⟩, hvals]

example : ∀ v ∈ [0x41, 0x20AC, 0x10FFFF], Encodable v := by decide

/-- Every text the validator accepts is turned into the canonical encoding of its characters, which a
second round trip does not change. -/
theorem C04_canonicalises (U : CharClass) {s : List Byte} (hs : NulFree s)
    (h : isUtf8S U s kUtf8 Pred.none = .ok true) :
    ∃ vs t, Utf8Reads s vs t ∧
      (toUcs4From8S s).bind toUtf8From32S = .ok (utf8Of vs) ∧
      (toUcs4From8S (utf8Of vs)).bind toUtf8From32S = .ok (utf8Of vs) := by
  obtain ⟨b, hb1, hb2⟩ := C02_isUtf8_partial U (r := .utf8) (by decide) hs []
  have : b = true := by
    have e : Res.ok b = .ok true := hb1.symm.trans h
    cases e; rfl
  obtain ⟨vs, t, hrd, _, _⟩ := hb2.1 this
  refine ⟨vs, t, hrd, ?_, C04_canonical_roundtrip (reads_encodable hrd)⟩
  unfold toUcs4From8S
  rw [cStr_nulFree hs, (C01_toUcs4_exact hs []).1 vs t hrd, Res.bind_ok]
  exact C04_canonical_roundtrip.ucs4_encode_aux (reads_encodable hrd)

example : (toUcs4From8S [0xED, 0xA0, 0x81, 0xED, 0xB0, 0x80, 0xC3]).bind toUtf8From32S =
    .ok [0xF0, 0x90, 0x90, 0x80] := by decide +kernel

/-! ## C16: malformed UTF-8 is rejected -/

/-- Text that is malformed anywhere (at the first place that is not well-formed) is rejected by the
validator for every range and predicate, converted to the empty string by every conversion, and has
length 0. -/
theorem C16_malformed_rejected (U : CharClass) (r : Spec.Range) (pred : Pred) {a b : List Byte}
    {vs : List Nat} (ha : Utf8Text a vs) (hb : Malformed b) (hs : NulFree (a ++ b))
    (post : List Byte) :
    isUtf8 U (some (a ++ b ++ 0 :: post)) r.code pred = .ok false ∧
    toUcs4From8 (some (a ++ b ++ 0 :: post)) = .ok [] ∧
    toUtf16From8 (some (a ++ b ++ 0 :: post)) = .ok [] ∧
    toUcs2From8 (some (a ++ b ++ 0 :: post)) = .ok [] ∧
    unicodeLength8 (some (a ++ b ++ 0 :: post)) 0 = .ok 0 := by
  obtain ⟨ws, t, hsc⟩ := bad_of_not_reads hs (malformed_not_reads ha hb)
  refine ⟨?_, ?_, ?_, ?_, ?_⟩
  · obtain ⟨x, hx1, hx2⟩ := isUtf8_text U r pred hs hsc post
    rw [hx1]
    cases x with
    | false => rfl
    | true => exact (hx2.1 rfl).2.elim
  · rw [toUcs4From8_text hs hsc]; rfl
  · rw [toUtf16From8_text hs hsc]; simp [End.ok]
  · rw [toUcs2From8_text hs hsc]; simp [End.ok]
  · rw [unicodeLength8_text hs hsc]; simp [countEnd]

example : Malformed [0xC1, 0x81] ∧ Malformed [0x80, 0x41] ∧ Malformed [0xE2, 0x82, 0x41] ∧
    Malformed [0xED, 0xB0, 0x80] ∧ Malformed [0xED, 0xA0, 0x80, 0x41] :=
  ⟨.overlong (cs := []) (s := []) (by simp [Spec.IsCont]) rfl (by decide),
    .stray (.inl ⟨by decide, by decide⟩),
    .broken (b := 0xE2) (cs := [0x82]) (c := 0x41) (s := []) (by simp [Spec.IsCont]) (by decide)
      (by simp [Spec.IsCont]),
    .loneLow (by decide) (by decide) (by decide) ⟨by decide, by decide⟩,
    .loneHigh (by decide) (by decide) (by decide) ⟨by decide, by decide⟩ (by decide)⟩

/-- What the widest range rejects is exactly the text that is not well-formed up to an optional
truncated sequence at its end. -/
theorem C16_rejected_iff (U : CharClass) {s : List Byte} (hs : NulFree s) (post : List Byte) :
    isUtf8 U (some (s ++ 0 :: post)) kUcs4 Pred.none = .ok false ↔ ¬ ∃ vs t, Utf8Reads s vs t := by
  obtain ⟨b, hb1, hb2⟩ := C02_isUtf8_partial U (r := .ucs4) (by decide) hs post
  have e : isUtf8 U (some (s ++ 0 :: post)) kUcs4 Pred.none = .ok b := hb1
  rw [e]
  constructor
  · rintro h ⟨vs, t, hrd⟩
    have : b = true := hb2.2 ⟨vs, t, hrd, fun v hv => ?_, fun b hb => ?_⟩
    · subst this; cases h
    · have := reads_encodable hrd v hv
      exact ⟨by have := this.2.1; omega, this.2.2⟩
    · obtain ⟨a, _, _, rfl | ht⟩ := hrd
      · cases hb
      · obtain ⟨b', t', rfl, _, h2⟩ := truncated_cons ht
        simp only [List.head?_cons, Option.mem_some_iff] at hb
        subst hb; exact h2
  · intro h
    cases b with
    | false => rfl
    | true =>
      obtain ⟨vs, t, hrd, _⟩ := hb2.1 rfl
      exact absurd ⟨vs, t, hrd⟩ h

example : NulFree (w := 8) [0x41, 0xFF] := by decide

/-- The list of ways to be malformed is complete: a text is rejected even for the widest range if and
only if it is well-formed up to some place, and malformed there. -/
theorem C16_malformed_iff (U : CharClass) {s : List Byte} (hs : NulFree s) (post : List Byte) :
    isUtf8 U (some (s ++ 0 :: post)) kUcs4 Pred.none = .ok false ↔
      ∃ a b vs, s = a ++ b ∧ Utf8Text a vs ∧ Malformed b := by
  rw [C16_rejected_iff U hs post]
  refine ⟨malformed_of_not_reads hs, ?_⟩
  rintro ⟨a, b, vs, rfl, ha, hb⟩
  exact malformed_not_reads ha hb

example : Malformed [0xED, 0xA0, 0x80, 0xED, 0xB0, 0x41] ∧ Malformed [0xED, 0xA0, 0x80, 0xED, 0x41] :=
  ⟨.highBroken (cs := [0xB0]) (s := []) (by decide) (by decide) (by decide) (by decide) (by decide)
      (by decide) (by decide) (by decide) (by decide),
    .highBroken (cs := []) (s := []) (by decide) (by decide) (by decide) (by decide) (by decide)
      (by decide) (by decide) (by decide) (by decide)⟩

/-! ## C40: one character -/

/-- `toUtf8` of one character is its RFC 2279 encoding. -/
theorem C40_encode {v : Nat} (h : Encodable v) :
    toUtf8From32S [BitVec.ofNat 32 v] = .ok (Spec.utf8 v) := by
  have := C04_canonical_roundtrip.ucs4_encode_aux (vs := [v]) (by simpa using h)
  simpa [ucs4Of, utf8Of] using this

example : Encodable 0x10FFFF := by decide

/-- The encoding has the standard length. -/
theorem C40_length {v : Nat} (h : Encodable v) :
    (toUtf8From32S [BitVec.ofNat 32 v]).map List.length =
      .ok (if v ≤ 0x7F then 1 else if v ≤ 0x7FF then 2 else if v ≤ 0xFFFF then 3
        else if v ≤ 0x1FFFFF then 4 else if v ≤ 0x3FFFFFF then 5 else 6) := by
  rw [C40_encode h, Res.map_ok]
  congr
  simp only [Spec.utf8, List.length_map, Spec.utf8Values, Nat.lt_succ_iff]
  repeat' split
  all_goals first | rfl | omega

example : Encodable 0x3FFFFFF := by decide

/-- Distinct characters have distinct encodings. -/
theorem C40_injective {v w : Nat} (hv : Encodable v) (hw : Encodable w)
    (h : toUtf8From32S [BitVec.ofNat 32 v] = toUtf8From32S [BitVec.ofNat 32 w]) : v = w := by
  rw [C40_encode hv, C40_encode hw] at h
  have e : Spec.utf8 v = Spec.utf8 w := Res.ok.inj h
  have := char_unique (r1 := []) (r2 := []) (.plain hv) (.plain hw) (by rw [e])
  exact this.2.2

example : Encodable 0xE9 ∧ Encodable 0x1E9 := by decide

/-- Decoding gives the character back. -/
theorem C40_decode {v : Nat} (h : Encodable v) :
    toUcs4From8S (Spec.utf8 v) = .ok [BitVec.ofNat 32 v] := by
  have ht : Utf8Text (Spec.utf8 v) [v] := by
    have := text_utf8Of (vs := [v]) (by simpa using h)
    simpa [utf8Of] using this
  unfold toUcs4From8S
  rw [cStr_nulFree (text_nulFree ht), C01_wellformed ht]; rfl

example : Encodable 0x20AC := by decide

/-- For Unicode characters the encoding is the standard one: the bytes Lean's own UTF-8 encoder
produces. -/
theorem C40_standard (c : Char) (h : c.val ≠ 0) :
    toUtf8From32S [BitVec.ofNat 32 c.val.toNat] =
      .ok ((String.utf8EncodeChar c).map fun b => b.toBitVec) := by
  have hval := c.valid
  simp only [UInt32.isValidChar, Nat.isValidChar] at hval
  have h0 : c.val.toNat ≠ 0 := fun e => h (UInt32.toNat_inj.1 e)
  have he : Encodable c.val.toNat := ⟨by omega, by omega, by unfold Spec.Surrogate; omega⟩
  rw [C40_encode he]
  congr
  have key : ∀ n : Nat, (UInt8.ofNat n).toBitVec = BitVec.ofNat 8 n := fun _ => rfl
  unfold Spec.utf8 Spec.utf8Values String.utf8EncodeChar
  simp only
  generalize c.val.toNat = v at *
  by_cases h1 : v < 0x80
  · rw [if_pos h1, if_pos (show v ≤ 127 by omega)]; simp only [List.map_cons, List.map_nil, key]
  rw [if_neg h1, if_neg (show ¬ v ≤ 127 by omega)]
  by_cases h2 : v < 0x800
  · rw [if_pos h2, if_pos (show v ≤ 2047 by omega)]
    simp only [List.map_cons, List.map_nil, key]
    rw [show 0xC0 + v / 0x40 = v / 64 % 32 + 192 by omega, show 0x80 + v % 0x40 = v % 64 + 128 by omega]
  rw [if_neg h2, if_neg (show ¬ v ≤ 2047 by omega)]
  by_cases h3 : v < 0x10000
  · rw [if_pos h3, if_pos (show v ≤ 65535 by omega)]
    simp only [List.map_cons, List.map_nil, key]
    rw [show 0xE0 + v / 0x1000 = v / 4096 % 16 + 224 by omega,
      show 0x80 + v / 0x40 % 0x40 = v / 64 % 64 + 128 by omega,
      show 0x80 + v % 0x40 = v % 64 + 128 by omega]
  rw [if_neg h3, if_neg (show ¬ v ≤ 65535 by omega), if_pos (show v < 0x200000 by omega)]
  simp only [List.map_cons, List.map_nil, key]
  rw [show 0xF0 + v / 0x40000 = v / 262144 % 8 + 240 by omega,
    show 0x80 + v / 0x1000 % 0x40 = v / 4096 % 64 + 128 by omega,
    show 0x80 + v / 0x40 % 0x40 = v / 64 % 64 + 128 by omega,
    show 0x80 + v % 0x40 = v % 64 + 128 by omega]

example : ('€'.val ≠ 0) ∧ toUtf8From32S [0x20AC] = .ok [0xE2, 0x82, 0xAC] := by decide +kernel

end Ansak.Props
