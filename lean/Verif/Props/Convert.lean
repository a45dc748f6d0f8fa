import Verif.Lemmas.Compose

/-!
# C05, C06, C07, C08, C09, C36: conversions between the encodings

The functions named `...S` are the overloads that take a `basic_string`, which may contain NULs.
-/

namespace Ansak.Props

open Spec (NulFree Utf8Text Encodable Scalar Bmp Utf8Reads Truncated Surrogate utf8Of
  ucs4Of utf16Of ucs2Of textOf Utf16Incomplete)

/-! ## C05: UTF-16 round trips -/

theorem C05_utf16_via_utf8 {vs : List Nat} (h : ∀ v ∈ vs, Scalar v) :
    (toUtf8From16S (utf16Of vs)).bind toUtf16From8S = .ok (utf16Of vs) := by
  rw [toUtf8From16S_utf16Of h, Res.bind_ok, toUtf16From8S_utf8Of h]

theorem C05_utf16_via_ucs4 {vs : List Nat} (h : ∀ v ∈ vs, Scalar v) :
    (toUcs4From16S (utf16Of vs)).bind toUtf16From32S = .ok (utf16Of vs) := by
  rw [toUcs4From16S_utf16Of h, Res.bind_ok,
    toUtf16From32S_ucs4Of fun v hv => scalar_encodable (h v hv),
    if_pos fun v hv => (h v hv).2.1]

example : (∀ v ∈ [0x41, 0x20AC, 0x1F600], Scalar v) ∧
    utf16Of [0x41, 0x20AC, 0x1F600] = [0x41, 0x20AC, 0xD83D, 0xDE00] := by decide +kernel

/-! ## C06: UCS-2 round trips -/

theorem C06_ucs2_via_utf8 {s : List U16} (h : ∀ c ∈ s, Bmp c.toNat) :
    (toUtf8From16S s).bind toUcs2From8S = .ok s := by
  have hv : ∀ v ∈ vals s, Bmp v := by simpa [vals] using h
  have e : s = utf16Of (vals s) := by
    rw [utf16Of_bmp fun v hv' => (hv v hv').2.1, ucs2Of_vals]
  conv => lhs; rw [e]
  rw [toUtf8From16S_utf16Of fun v hv' => bmp_scalar (hv v hv'), Res.bind_ok,
    toUcs2From8S_utf8Of hv, ucs2Of_vals]

theorem C06_ucs2_via_ucs4 {s : List U16} (h : ∀ c ∈ s, Bmp c.toNat) :
    (toUcs4From16S s).bind toUcs2From32S = .ok s := by
  have hv : ∀ v ∈ vals s, Bmp v := by simpa [vals] using h
  have e : s = utf16Of (vals s) := by
    rw [utf16Of_bmp fun v hv' => (hv v hv').2.1, ucs2Of_vals]
  conv => lhs; rw [e]
  rw [toUcs4From16S_utf16Of fun v hv' => bmp_scalar (hv v hv'), Res.bind_ok,
    toUcs2From32S_ucs4Of fun v hv' => scalar_encodable (bmp_scalar (hv v hv')),
    if_pos fun v hv' => (hv v hv').2.1, ucs2Of_vals]

example : ∀ c ∈ ([0x41, 0x20AC, 0xFFFF] : List U16), Bmp c.toNat := by decide

/-! ## C07: conversion paths commute -/

/-- From UTF-8, for every string whatsoever. -/
theorem C07_utf8_to_utf16 (s : List Byte) :
    toUtf16From8S s = (toUcs4From8S s).bind toUtf16From32S := by
  obtain ⟨vs, e, h, h4, h16, _⟩ := toUcs4From8S_any s
  rw [h4, h16, Res.bind_ok]
  cases he : e.ok with
  | false => simp only [Bool.false_eq_true, false_and, if_false]; rfl
  | true =>
    simp only [true_and, if_true]
    rw [toUtf16From32S_ucs4Of (scan_encodable h)]

theorem C07_utf8_to_ucs2 (s : List Byte) :
    toUcs2From8S s = (toUcs4From8S s).bind toUcs2From32S := by
  obtain ⟨vs, e, h, h4, _, h2⟩ := toUcs4From8S_any s
  rw [h4, h2, Res.bind_ok]
  cases he : e.ok with
  | false => simp only [Bool.false_eq_true, false_and, if_false]; rfl
  | true =>
    simp only [true_and, if_true]
    rw [toUcs2From32S_ucs4Of (scan_encodable h)]

/-- From UTF-16, for every string the UTF-16 validator accepts (for any range and predicate). -/
theorem C07_utf16_to_utf8 (U : CharClass) (r : Spec.Range) (pred : Pred) (s : List U16)
    (h : isUtf16S U s r.code pred = .ok true) :
    toUtf8From16S s = (toUcs4From16S s).bind toUtf8From32S := by
  obtain ⟨vs, e, hsc, h4⟩ := toUcs4From16S_any s
  obtain ⟨vs', e', hsc', h8⟩ := toUtf8From16S_any s
  have hacc := (of_ok_true (isUtf16S_any U r pred hsc) h).2
  have hne : e ≠ .bad := by rintro rfl; exact hacc
  obtain ⟨rfl, rfl⟩ := scan16_unique (scan16_lenient hsc hne) hsc'
  have hok : e.ok = true := by cases e <;> first | rfl | exact absurd rfl hne
  rw [h4, h8, hok, if_pos rfl, if_pos rfl, Res.bind_ok,
    toUtf8From32S_ucs4Of fun v hv => scalar_encodable (scan16_scalar hsc v hv)]

example (U : CharClass) : isUtf16S U [0x41, 0xD83D, 0xDE00] kUtf8 Pred.none = .ok true ∧
    toUtf8From16S [0x41, 0xD83D, 0xDE00] = .ok [0x41, 0xF0, 0x9F, 0x98, 0x80] := by
  constructor
  · rfl
  · decide +kernel

/-- Without validation the two paths differ: a lone low surrogate is encoded by the direct path and
rejected by the path through UCS-4. -/
theorem C07_unvalidated_violated :
    toUtf8From16S [0xDC00] = .ok [0xED, 0xB0, 0x80] ∧
    (toUcs4From16S [0xDC00]).bind toUtf8From32S = .ok [] := by decide +kernel

/-! ## C08: validated strings re-encode

In each case the characters `vs` of the accepted text, all of them, are in the result. -/

theorem C08_utf8_to_ucs2 (U : CharClass) (pred : Pred) (s : List Byte)
    (h : isUtf8S U s kUcs2 pred = .ok true) :
    ∃ vs t, Utf8Reads (textOf s) vs t ∧ toUcs2From8S s = .ok (ucs2Of vs) := by
  obtain ⟨vs, e, hsc, _, _, h2⟩ := toUcs4From8S_any s
  have hacc := of_ok_true (isUtf8S_any U .ucs2 pred hsc) h
  rcases reads_of_scan hsc with ⟨t, rfl, hrd⟩ | ⟨t, rfl⟩
  · refine ⟨vs, t, hrd, ?_⟩
    have hm : ∀ v ∈ vs, v ≤ 0xFFFF := by
      intro v hv
      have := (hacc.1 v hv).1
      simp only [Acc8] at this; omega
    rw [h2, if_pos ⟨endOf_ok t, hm⟩]
  · exact hacc.2.elim

theorem C08_utf8_to_ucs4 (U : CharClass) (pred : Pred) (r : Spec.Range) (s : List Byte)
    (h : isUtf8S U s r.code pred = .ok true) :
    ∃ vs t, Utf8Reads (textOf s) vs t ∧ toUcs4From8S s = .ok (ucs4Of vs) := by
  obtain ⟨vs, e, hsc, h4, _, _⟩ := toUcs4From8S_any s
  have hacc := of_ok_true (isUtf8S_any U r pred hsc) h
  rcases reads_of_scan hsc with ⟨t, rfl, hrd⟩ | ⟨t, rfl⟩
  · exact ⟨vs, t, hrd, by rw [h4, if_pos (endOf_ok t)]⟩
  · exact hacc.2.elim

/-- Validation for kUnicode is what guarantees conversion to UTF-16. -/
theorem C08_utf8_to_utf16_unicode (U : CharClass) (pred : Pred) (s : List Byte)
    (h : isUtf8S U s kUnicode pred = .ok true) :
    ∃ vs t, Utf8Reads (textOf s) vs t ∧ toUtf16From8S s = .ok (utf16Of vs) := by
  obtain ⟨vs, e, hsc, _, h16, _⟩ := toUcs4From8S_any s
  have hacc := of_ok_true (isUtf8S_any U .unicode pred hsc) h
  rcases reads_of_scan hsc with ⟨t, rfl, hrd⟩ | ⟨t, rfl⟩
  · refine ⟨vs, t, hrd, ?_⟩
    have hm : ∀ v ∈ vs, v ≤ 0x10FFFF := by
      intro v hv
      have := (hacc.1 v hv).1
      simp only [Acc8] at this; omega
    rw [h16, if_pos ⟨endOf_ok t, hm⟩]
  · exact hacc.2.elim

/-- Validation for kUtf16 guarantees it only if no character lies in 0x110000..0x13FFFF. Missing from
the full property: the hypothesis `hmax` (see `C08_utf8_to_utf16_violated`). -/
theorem C08_utf8_to_utf16_partial (U : CharClass) (pred : Pred) (s : List Byte)
    (h : isUtf8S U s kUtf16 pred = .ok true)
    (hmax : ∀ vs t, Utf8Reads (textOf s) vs t → ∀ v ∈ vs, ¬ (0x110000 ≤ v ∧ v ≤ 0x13FFFF)) :
    ∃ vs t, Utf8Reads (textOf s) vs t ∧ toUtf16From8S s = .ok (utf16Of vs) := by
  obtain ⟨vs, e, hsc, _, h16, _⟩ := toUcs4From8S_any s
  have hacc := of_ok_true (isUtf8S_any U .utf16 pred hsc) h
  rcases reads_of_scan hsc with ⟨t, rfl, hrd⟩ | ⟨t, rfl⟩
  · refine ⟨vs, t, hrd, ?_⟩
    have hm : ∀ v ∈ vs, v ≤ 0x10FFFF := by
      intro v hv
      have h1 := (hacc.1 v hv).1
      have h2 := hmax vs t hrd v hv
      simp only [Acc8] at h1; omega
    rw [h16, if_pos ⟨endOf_ok t, hm⟩]
  · exact hacc.2.elim

/-- Violation of C08: U+110000 is accepted for kUtf16, but not converted to UTF-16. -/
theorem C08_utf8_to_utf16_violated (U : CharClass) :
    isUtf8S U [0xF4, 0x90, 0x80, 0x80] kUtf16 Pred.none = .ok true ∧
    toUtf16From8S [0xF4, 0x90, 0x80, 0x80] = .ok [] := by
  have ht : Utf8Text [0xF4, 0x90, 0x80, 0x80] [0x110000] :=
    .cons (bs := [0xF4, 0x90, 0x80, 0x80]) (.plain (v := 0x110000) (by decide)) .nil
  refine ⟨?_, by decide +kernel⟩
  refine ok_true_of (isUtf8S_any U .utf16 Pred.none (scan_of_text ht)) ⟨?_, trivial⟩
  intro v hv
  simp only [List.mem_cons, List.not_mem_nil, or_false] at hv
  subst hv
  exact ⟨by decide, call32_none U rfl _⟩

theorem C08_utf16_to_utf8_and_ucs4 (U : CharClass) (pred : Pred) (r : Spec.Range) (s : List U16)
    (h : isUtf16S U s r.code pred = .ok true) :
    ∃ vs t, textOf s = utf16Of vs ++ t ∧ (∀ v ∈ vs, Scalar v) ∧ (t = [] ∨ Utf16Incomplete t) ∧
      toUtf8From16S s = .ok (utf8Of vs) ∧ toUcs4From16S s = .ok (ucs4Of vs) := by
  obtain ⟨vs, e, hsc, h4⟩ := toUcs4From16S_any s
  have h8 := C07_utf16_to_utf8 U r pred s h
  have hacc := (of_ok_true (isUtf16S_any U r pred hsc) h).2
  have hsv := scan16_scalar hsc
  cases e with
  | bad => exact hacc.elim
  | done =>
    obtain ⟨h1, h2⟩ := scan16_done_iff.1 hsc
    have h4' : toUcs4From16S s = .ok (ucs4Of vs) := h4
    refine ⟨vs, [], by rw [List.append_nil]; exact h1, h2, .inl rfl, ?_, h4'⟩
    rw [h8, h4', Res.bind_ok, toUtf8From32S_ucs4Of fun v hv => scalar_encodable (hsv v hv)]
  | cut =>
    obtain ⟨t, h1, h2, h3⟩ := scan16_cut_iff.1 hsc
    have h4' : toUcs4From16S s = .ok (ucs4Of vs) := h4
    refine ⟨vs, t, h1, h3, .inr h2, ?_, h4'⟩
    rw [h8, h4', Res.bind_ok, toUtf8From32S_ucs4Of fun v hv => scalar_encodable (hsv v hv)]

theorem C08_ucs2_to_utf8_and_ucs4 (U : CharClass) (pred : Pred) (r : Spec.Range) (s : List U16)
    (h : isUcs2S U s r.code pred = .ok true) :
    toUtf8From16S s = .ok (utf8Of (vals (textOf s))) ∧
    toUcs4From16S s = .ok (ucs4Of (vals (textOf s))) := by
  have hacc := of_ok_true (isUcs2S_any U r pred s) h
  have hb : ∀ v ∈ vals (textOf s), Bmp v := by
    intro v hv
    obtain ⟨c, hc, rfl⟩ := List.mem_map.1 hv
    have h1 := c.isLt
    have h2 := toNat_ne_zero (textOf_nulFree s c hc)
    exact ⟨by omega, by omega, (hacc c hc).1⟩
  have e : textOf s = utf16Of (vals (textOf s)) := by
    rw [utf16Of_bmp fun v hv => (hb v hv).2.1, ucs2Of_vals]
  have hsc : ∀ l, Scan16 l (textOf s) (vals (textOf s)) .done := by
    intro l
    conv => arg 2; rw [e]
    exact scan16_utf16Of fun v hv => bmp_scalar (hb v hv)
  constructor
  · obtain ⟨vs', e', hsc', h8⟩ := toUtf8From16S_any s
    obtain ⟨rfl, rfl⟩ := scan16_unique (hsc true) hsc'
    exact h8
  · obtain ⟨vs', e', hsc', h4⟩ := toUcs4From16S_any s
    obtain ⟨rfl, rfl⟩ := scan16_unique (hsc false) hsc'
    exact h4

theorem C08_ucs4_to_utf8 (U : CharClass) (pred : Pred) (s : List U32)
    (h : isUcs4S U s kUtf8 pred = .ok true) :
    toUtf8From32S s = .ok (utf8Of (vals (textOf s))) := by
  have hacc := of_ok_true (isUcs4S_any U .utf8 pred s) h
  have hm : ∀ c ∈ textOf s, c.toNat ≤ 0x7FFFFFFF ∧ ¬ Surrogate c.toNat := by
    intro c hc
    refine ⟨?_, (hacc c hc).1⟩
    have := (hacc c hc).2.1
    simp only [AccFlags] at this; omega
  rw [toUtf8From32S_any, if_pos hm]

theorem C08_ucs4_to_ucs2 (U : CharClass) (pred : Pred) (s : List U32)
    (h : isUcs4S U s kUcs2 pred = .ok true) :
    toUcs2From32S s = .ok (ucs2Of (vals (textOf s))) := by
  have hacc := of_ok_true (isUcs4S_any U .ucs2 pred s) h
  have hm : ∀ c ∈ textOf s, c.toNat ≤ 0xFFFF ∧ ¬ Surrogate c.toNat := by
    intro c hc
    refine ⟨?_, (hacc c hc).1⟩
    have := (hacc c hc).2.1
    simp only [AccFlags] at this; omega
  rw [toUcs2From32S_any, if_pos hm]

theorem C08_ucs4_to_utf16_unicode (U : CharClass) (pred : Pred) (s : List U32)
    (h : isUcs4S U s kUnicode pred = .ok true) :
    toUtf16From32S s = .ok (utf16Of (vals (textOf s))) := by
  have hacc := of_ok_true (isUcs4S_any U .unicode pred s) h
  have hm : ∀ c ∈ textOf s, c.toNat ≤ 0x10FFFF ∧ ¬ Surrogate c.toNat := by
    intro c hc
    refine ⟨?_, (hacc c hc).1⟩
    have := (hacc c hc).2.1
    simp only [AccFlags] at this; omega
  rw [toUtf16From32S_any, if_pos hm]

/-- Missing from the full property: the hypothesis `hmax` (see `C08_ucs4_to_utf16_violated`). -/
theorem C08_ucs4_to_utf16_partial (U : CharClass) (pred : Pred) (s : List U32)
    (h : isUcs4S U s kUtf16 pred = .ok true)
    (hmax : ∀ c ∈ textOf s, ¬ (0x110000 ≤ c.toNat ∧ c.toNat ≤ 0x1FFFFF)) :
    toUtf16From32S s = .ok (utf16Of (vals (textOf s))) := by
  have hacc := of_ok_true (isUcs4S_any U .utf16 pred s) h
  have hm : ∀ c ∈ textOf s, c.toNat ≤ 0x10FFFF ∧ ¬ Surrogate c.toNat := by
    intro c hc
    refine ⟨?_, (hacc c hc).1⟩
    have h1 := (hacc c hc).2.1
    have h2 := hmax c hc
    simp only [AccFlags] at h1; omega
  rw [toUtf16From32S_any, if_pos hm]

/-- Violation of C08: 0x1FFFFF is accepted for kUtf16, but not converted to UTF-16. -/
theorem C08_ucs4_to_utf16_violated (U : CharClass) :
    isUcs4S U [0x1FFFFF] kUtf16 Pred.none = .ok true ∧ toUtf16From32S [0x1FFFFF] = .ok [] :=
  ⟨rfl, by decide +kernel⟩

example (U : CharClass) : isUtf8S U [0x41, 0xC3, 0xA9, 0xE2] kUcs2 Pred.none = .ok true ∧
    isUtf16S U [0x41, 0xD83D, 0xDE00, 0xD83D] kUcs4 Pred.none = .ok true ∧
    isUcs2S U [0x41, 0x20AC] kUtf8 Pred.none = .ok true ∧
    isUcs4S U [0x41, 0x1F600] kUnicode Pred.none = .ok true := by
  refine ⟨?_, rfl, rfl, rfl⟩
  have ht : Utf8Text [0x41, 0xC3, 0xA9] [0x41, 0xE9] :=
    .cons (bs := [0x41]) (.plain (v := 0x41) (by decide))
      (.cons (bs := [0xC3, 0xA9]) (.plain (v := 0xE9) (by decide)) .nil)
  have hrd : Utf8Reads (textOf [0x41, 0xC3, 0xA9, 0xE2]) [0x41, 0xE9] [0xE2] :=
    reads_cut ht (.short conts_nil (by decide))
  refine ok_true_of (isUtf8S_any U .ucs2 Pred.none (scan_of_reads hrd)) ⟨?_, ?_⟩
  · exact fun v hv => ⟨by revert v; decide, call32_none U rfl v⟩
  · rw [endOk_endOf]; decide

/-! ## C09: conversions only emit valid output -/

theorem C09_ucs4_to_utf8 (U : CharClass) (s : List U32) :
    ∃ out, toUtf8From32S s = .ok out ∧ isUtf8S U out kUtf8 Pred.none = .ok true := by
  rw [toUtf8From32S_any]
  refine ⟨_, rfl, ?_⟩
  split
  · rename_i h
    have he : ∀ v ∈ vals (textOf s), Encodable v := by
      intro v hv
      obtain ⟨c, hc, rfl⟩ := List.mem_map.1 hv
      have h2 := toNat_ne_zero (textOf_nulFree s c hc)
      exact ⟨by omega, (h c hc).1, (h c hc).2⟩
    have hsc := scan_of_text (text_utf8Of he)
    rw [← textOf_of_nulFree (utf8Of_nulFree he)] at hsc
    refine ok_true_of (isUtf8S_any U .utf8 Pred.none hsc) ⟨fun v hv => ⟨?_, call32_none U rfl v⟩, trivial⟩
    have := (he v hv).2.1
    simp only [Acc8]; omega
  · rfl

theorem C09_utf8_to_utf16 (U : CharClass) (s : List Byte) :
    ∃ out, toUtf16From8S s = .ok out ∧ isUtf16S U out kUtf16 Pred.none = .ok true := by
  obtain ⟨vs, e, hsc, _, h16, _⟩ := toUcs4From8S_any s
  refine ⟨_, h16, ?_⟩
  split
  · rename_i h
    exact utf16_valid_aux U fun v hv => encodable_scalar (scan_encodable hsc v hv) (h.2 v hv)
  · rfl
where
  /-- The encoding of scalar values is accepted. -/
  utf16_valid_aux (U : CharClass) {vs : List Nat} (h : ∀ v ∈ vs, Scalar v) :
      isUtf16S U (utf16Of vs) kUtf16 Pred.none = .ok true := by
    have hsc := scan16_utf16Of (lenient := false) h
    rw [← textOf_of_nulFree (utf16Of_nulFree h)] at hsc
    refine ok_true_of (isUtf16S_any U .utf16 Pred.none hsc)
      ⟨fun v hv => ⟨?_, call16_none U rfl _⟩, trivial⟩
    have := (h v hv).2.1
    simp only [AccFlags]; omega

theorem C09_ucs4_to_utf16 (U : CharClass) (s : List U32) :
    ∃ out, toUtf16From32S s = .ok out ∧ isUtf16S U out kUtf16 Pred.none = .ok true := by
  rw [toUtf16From32S_any]
  refine ⟨_, rfl, ?_⟩
  split
  · rename_i h
    refine C09_utf8_to_utf16.utf16_valid_aux U fun v hv => ?_
    obtain ⟨c, hc, rfl⟩ := List.mem_map.1 hv
    have h2 := toNat_ne_zero (textOf_nulFree s c hc)
    exact ⟨by omega, (h c hc).1, (h c hc).2⟩
  · rfl

theorem C09_utf8_to_ucs2 (U : CharClass) (s : List Byte) :
    ∃ out, toUcs2From8S s = .ok out ∧ isUcs2S U out kUcs2 Pred.none = .ok true := by
  obtain ⟨vs, e, hsc, _, _, h2⟩ := toUcs4From8S_any s
  refine ⟨_, h2, ?_⟩
  split
  · rename_i h
    exact ucs2_valid_aux U fun v hv => encodable_bmp (scan_encodable hsc v hv) (h.2 v hv)
  · rfl
where
  /-- A UCS-2 string of BMP characters is accepted. -/
  ucs2_valid_aux (U : CharClass) {vs : List Nat} (h : ∀ v ∈ vs, Bmp v) :
      isUcs2S U (ucs2Of vs) kUcs2 Pred.none = .ok true := by
    refine ok_true_of (isUcs2S_any U .ucs2 Pred.none _) fun c hc => ?_
    have hc' : c ∈ ucs2Of vs := (List.takeWhile_subset _) hc
    have hm : c.toNat ∈ vals (ucs2Of vs) := List.mem_map_of_mem hc'
    rw [vals_ucs2Of h] at hm
    have := h _ hm
    exact ⟨this.2.2, by have := this.2.1; simp only [AccFlags]; omega, call16_none U rfl _⟩

theorem C09_ucs4_to_ucs2 (U : CharClass) (s : List U32) :
    ∃ out, toUcs2From32S s = .ok out ∧ isUcs2S U out kUcs2 Pred.none = .ok true := by
  rw [toUcs2From32S_any]
  refine ⟨_, rfl, ?_⟩
  split
  · rename_i h
    refine C09_utf8_to_ucs2.ucs2_valid_aux U fun v hv => ?_
    obtain ⟨c, hc, rfl⟩ := List.mem_map.1 hv
    have h2 := toNat_ne_zero (textOf_nulFree s c hc)
    exact ⟨by omega, (h c hc).1, (h c hc).2⟩
  · rfl

theorem C09_utf8_to_ucs4 (U : CharClass) (s : List Byte) :
    ∃ out, toUcs4From8S s = .ok out ∧ isUcs4S U out kUcs4 Pred.none = .ok true := by
  obtain ⟨vs, e, hsc, h4, _, _⟩ := toUcs4From8S_any s
  refine ⟨_, h4, ?_⟩
  split
  · exact ucs4_valid_aux U (scan_encodable hsc)
  · rfl
where
  /-- A UCS-4 string of encodable characters is accepted. -/
  ucs4_valid_aux (U : CharClass) {vs : List Nat} (h : ∀ v ∈ vs, Encodable v) :
      isUcs4S U (ucs4Of vs) kUcs4 Pred.none = .ok true := by
    refine ok_true_of (isUcs4S_any U .ucs4 Pred.none _) fun c hc => ?_
    have hc' : c ∈ ucs4Of vs := (List.takeWhile_subset _) hc
    have hm : c.toNat ∈ vals (ucs4Of vs) := List.mem_map_of_mem hc'
    rw [vals_ucs4Of h] at hm
    exact ⟨(h _ hm).2.2, trivial, call32_none U rfl _⟩

theorem C09_utf16_to_ucs4 (U : CharClass) (s : List U16) :
    ∃ out, toUcs4From16S s = .ok out ∧ isUcs4S U out kUcs4 Pred.none = .ok true := by
  obtain ⟨vs, e, hsc, h4⟩ := toUcs4From16S_any s
  refine ⟨_, h4, ?_⟩
  split
  · exact C09_utf8_to_ucs4.ucs4_valid_aux U fun v hv => scalar_encodable (scan16_scalar hsc v hv)
  · rfl

/-- The remaining conversion, UTF-16 to UTF-8, only emits valid output for valid input. Missing from
the full property: the hypothesis `h` (see `C09_utf16_to_utf8_violated`). -/
theorem C09_utf16_to_utf8_partial (U : CharClass) (r : Spec.Range) (pred : Pred) (s : List U16)
    (h : isUtf16S U s r.code pred = .ok true) :
    ∃ out, toUtf8From16S s = .ok out ∧ isUtf8S U out kUtf8 Pred.none = .ok true := by
  rw [C07_utf16_to_utf8 U r pred s h]
  obtain ⟨vs, e, hsc, h4⟩ := toUcs4From16S_any s
  rw [h4, Res.bind_ok]
  exact C09_ucs4_to_utf8 U _

example (U : CharClass) : isUtf16S U [0x41, 0xD83D, 0xDE00] kUnicode Pred.none = .ok true := rfl

/-- Violation of C09: `toUtf8` of a lone low surrogate emits bytes the UTF-8 validator rejects. -/
theorem C09_utf16_to_utf8_violated (U : CharClass) :
    toUtf8From16S [0xDC00] = .ok [0xED, 0xB0, 0x80] ∧
    isUtf8S U [0xED, 0xB0, 0x80] kUtf8 Pred.none = .ok false := by
  refine ⟨by decide +kernel, ?_⟩
  have hn : NulFree (w := 8) [0xED, 0xB0, 0x80] := by decide
  have hm : Spec.Malformed [0xED, 0xB0, 0x80] :=
    .loneLow (by decide) (by decide) (by decide) ⟨by decide, by decide⟩
  obtain ⟨vs, t, hsc⟩ := bad_of_not_reads hn (malformed_not_reads .nil hm)
  rw [← textOf_of_nulFree hn] at hsc
  exact ok_false_of (isUtf8S_any U .utf8 Pred.none hsc) fun h => h.2

/-! ## C36: conversions distribute over concatenation -/

theorem C36_utf8_to_ucs4 {a b : List Byte} {vs : List Nat} (ha : Utf8Text a vs) {ws : List Nat}
    {t : List Byte} (hb : Utf8Reads b ws t) :
    ∃ x y, toUcs4From8S a = .ok x ∧ toUcs4From8S b = .ok y ∧ toUcs4From8S (a ++ b) = .ok (x ++ y) := by
  have hsb := scan_of_reads hb
  have hsa := scan_of_text ha
  have hab := scan_text_append ha hsb
  have na := text_nulFree ha
  have nb := reads_nulFree hb
  have nab := NulFree.append.2 ⟨na, nb⟩
  refine ⟨ucs4Of vs, ucs4Of ws, ?_, ?_, ?_⟩
  · unfold toUcs4From8S; rw [cStr_nulFree na, toUcs4From8_text na hsa]; rfl
  · unfold toUcs4From8S; rw [cStr_nulFree nb, toUcs4From8_text nb hsb, if_pos (endOf_ok t)]
  · unfold toUcs4From8S; rw [cStr_nulFree nab, toUcs4From8_text nab hab, if_pos (endOf_ok t)]
    simp [ucs4Of]

theorem C36_utf8_to_utf16 {a b : List Byte} {vs : List Nat} (ha : Utf8Text a vs)
    (hva : ∀ v ∈ vs, v ≤ 0x10FFFF) {ws : List Nat} {t : List Byte} (hb : Utf8Reads b ws t)
    (hvb : ∀ v ∈ ws, v ≤ 0x10FFFF) :
    ∃ x y, toUtf16From8S a = .ok x ∧ toUtf16From8S b = .ok y ∧
      toUtf16From8S (a ++ b) = .ok (x ++ y) := by
  have hsb := scan_of_reads hb
  have hsa := scan_of_text ha
  have hab := scan_text_append ha hsb
  have na := text_nulFree ha
  have nb := reads_nulFree hb
  have nab := NulFree.append.2 ⟨na, nb⟩
  refine ⟨utf16Of vs, utf16Of ws, ?_, ?_, ?_⟩
  · unfold toUtf16From8S; rw [cStr_nulFree na, toUtf16From8_text na hsa, if_pos ⟨rfl, hva⟩]
  · unfold toUtf16From8S; rw [cStr_nulFree nb, toUtf16From8_text nb hsb, if_pos ⟨endOf_ok t, hvb⟩]
  · have hm : ∀ v ∈ vs ++ ws, v ≤ 0x10FFFF :=
      fun v hv => (List.mem_append.1 hv).elim (hva v) (hvb v)
    unfold toUtf16From8S
    rw [cStr_nulFree nab, toUtf16From8_text nab hab, if_pos ⟨endOf_ok t, hm⟩]
    simp [utf16Of]

theorem C36_utf8_to_ucs2 {a b : List Byte} {vs : List Nat} (ha : Utf8Text a vs)
    (hva : ∀ v ∈ vs, v ≤ 0xFFFF) {ws : List Nat} {t : List Byte} (hb : Utf8Reads b ws t)
    (hvb : ∀ v ∈ ws, v ≤ 0xFFFF) :
    ∃ x y, toUcs2From8S a = .ok x ∧ toUcs2From8S b = .ok y ∧
      toUcs2From8S (a ++ b) = .ok (x ++ y) := by
  have hsb := scan_of_reads hb
  have hsa := scan_of_text ha
  have hab := scan_text_append ha hsb
  have na := text_nulFree ha
  have nb := reads_nulFree hb
  have nab := NulFree.append.2 ⟨na, nb⟩
  refine ⟨ucs2Of vs, ucs2Of ws, ?_, ?_, ?_⟩
  · unfold toUcs2From8S; rw [cStr_nulFree na, toUcs2From8_text na hsa, if_pos ⟨rfl, hva⟩]
  · unfold toUcs2From8S; rw [cStr_nulFree nb, toUcs2From8_text nb hsb, if_pos ⟨endOf_ok t, hvb⟩]
  · have hm : ∀ v ∈ vs ++ ws, v ≤ 0xFFFF :=
      fun v hv => (List.mem_append.1 hv).elim (hva v) (hvb v)
    unfold toUcs2From8S
    rw [cStr_nulFree nab, toUcs2From8_text nab hab, if_pos ⟨endOf_ok t, hm⟩]
    simp [ucs2Of]

example : Utf8Text [0xC3, 0xA9] [0xE9] ∧ Utf8Reads [0x41, 0xC3] [0x41] [0xC3] :=
  ⟨.cons (bs := [0xC3, 0xA9]) (.plain (v := 0xE9) (by decide)) .nil,
    reads_cut (a := [0x41]) (.cons (bs := [0x41]) (.plain (v := 0x41) (by decide)) .nil)
      (.short conts_nil (by decide))⟩

/-- For an accepted, complete `a` the validator's answer on `a ++ b` is its answer on `b`. -/
theorem C36_isUtf8 (U : CharClass) (r : Spec.Range) (pred : Pred) {a b : List Byte} {vs : List Nat}
    (ha : Utf8Text a vs) (hacc : isUtf8S U a r.code pred = .ok true) (nb : NulFree b) :
    isUtf8S U (a ++ b) r.code pred = isUtf8S U b r.code pred := by
  have na := text_nulFree ha
  have nab := NulFree.append.2 ⟨na, nb⟩
  obtain ⟨ws, e, hsb⟩ := scan_exists nb
  have hsa := scan_of_text ha
  have hab := scan_text_append ha hsb
  rw [← textOf_of_nulFree na] at hsa
  rw [← textOf_of_nulFree nb] at hsb
  rw [← textOf_of_nulFree nab] at hab
  have h1 := (of_ok_true (isUtf8S_any U r pred hsa) hacc).1
  obtain ⟨x, hx1, hx2⟩ := isUtf8S_any U r pred hab
  obtain ⟨y, hy1, hy2⟩ := isUtf8S_any U r pred hsb
  rw [hx1, hy1]
  congr 1
  rw [Bool.eq_iff_iff, hx2, hy2]
  simp only [List.mem_append, or_imp, forall_and]
  constructor
  · exact fun h => ⟨⟨h.1.1.2, h.1.2.2⟩, h.2⟩
  · exact fun h => ⟨⟨⟨fun v hv => (h1 v hv).1, h.1.1⟩, ⟨fun v hv => (h1 v hv).2, h.1.2⟩⟩, h.2⟩

theorem C36_isUtf16 (U : CharClass) (r : Spec.Range) (pred : Pred) {b : List U16} {vs : List Nat}
    (hv : ∀ v ∈ vs, Scalar v) (hacc : isUtf16S U (utf16Of vs) r.code pred = .ok true)
    (nb : NulFree b) :
    isUtf16S U (utf16Of vs ++ b) r.code pred = isUtf16S U b r.code pred := by
  have na := utf16Of_nulFree hv
  have nab := NulFree.append.2 ⟨na, nb⟩
  obtain ⟨ws, e, hsb⟩ := scan16_exists false nb
  have hsa := scan16_utf16Of (lenient := false) hv
  have hab := scan16_of_scalars hv hsb
  rw [← textOf_of_nulFree na] at hsa
  rw [← textOf_of_nulFree nb] at hsb
  rw [← textOf_of_nulFree nab] at hab
  have h1 := (of_ok_true (isUtf16S_any U r pred hsa) hacc).1
  obtain ⟨x, hx1, hx2⟩ := isUtf16S_any U r pred hab
  obtain ⟨y, hy1, hy2⟩ := isUtf16S_any U r pred hsb
  rw [hx1, hy1]
  congr 1
  rw [Bool.eq_iff_iff, hx2, hy2]
  simp only [List.mem_append, or_imp, forall_and]
  constructor
  · exact fun h => ⟨⟨h.1.1.2, h.1.2.2⟩, h.2⟩
  · exact fun h => ⟨⟨⟨fun v hv => (h1 v hv).1, h.1.1⟩, ⟨fun v hv => (h1 v hv).2, h.1.2⟩⟩, h.2⟩

/-- UTF-16 conversions: `t` is nothing or an unpaired high surrogate at the end. -/
theorem C36_utf16_to_ucs4_and_utf8 {vs ws : List Nat} (hv : ∀ v ∈ vs, Scalar v)
    (hw : ∀ v ∈ ws, Scalar v) {t : List U16} (ht : t = [] ∨ Utf16Incomplete t) :
    (∃ x y, toUcs4From16S (utf16Of vs) = .ok x ∧ toUcs4From16S (utf16Of ws ++ t) = .ok y ∧
      toUcs4From16S (utf16Of vs ++ (utf16Of ws ++ t)) = .ok (x ++ y)) ∧
    (∃ x y, toUtf8From16S (utf16Of vs) = .ok x ∧ toUtf8From16S (utf16Of ws ++ t) = .ok y ∧
      toUtf8From16S (utf16Of vs ++ (utf16Of ws ++ t)) = .ok (x ++ y)) := by
  have hsc : ∀ l, ∃ e, Scan16 l (utf16Of ws ++ t) ws e ∧ e.ok = true ∧ e ≠ .bad := by
    intro l
    rcases ht with rfl | ⟨h, rfl, hh⟩
    · have := scan16_of_scalars hw (Scan16.done (lenient := l))
      rw [List.append_nil ws] at this
      exact ⟨_, this, rfl, by simp⟩
    · have := scan16_of_scalars hw (Scan16.cut (lenient := l) hh)
      rw [List.append_nil ws] at this
      exact ⟨_, this, rfl, by simp⟩
  constructor
  · obtain ⟨e, hsb, hok, hne⟩ := hsc false
    have nb := scan16_nulFree hsb hne
    have hab := scan16_of_scalars hv hsb
    have nab := scan16_nulFree hab hne
    refine ⟨ucs4Of vs, ucs4Of ws, toUcs4From16S_utf16Of hv, ?_, ?_⟩
    · unfold toUcs4From16S; rw [cStr_nulFree nb, toUcs4From16_text nb hsb, if_pos hok]
    · unfold toUcs4From16S; rw [cStr_nulFree nab, toUcs4From16_text nab hab, if_pos hok]
      simp [ucs4Of]
  · obtain ⟨e, hsb, hok, hne⟩ := hsc true
    have nb := scan16_nulFree hsb hne
    have hab := scan16_of_scalars hv hsb
    have nab := scan16_nulFree hab hne
    refine ⟨utf8Of vs, utf8Of ws, toUtf8From16S_utf16Of hv, ?_, ?_⟩
    · unfold toUtf8From16S; rw [cStr_nulFree nb, toUtf8From16_text nb hsb, if_pos hok]
    · unfold toUtf8From16S; rw [cStr_nulFree nab, toUtf8From16_text nab hab, if_pos hok]
      simp [utf8Of]

example : (∀ v ∈ [0x41, 0x1F600], Scalar v) ∧ Utf16Incomplete [0xD83D] :=
  ⟨by decide, _, rfl, by decide⟩

/-- The conversions from UCS-4, for `a` and `b` of characters the target can hold. -/
theorem C36_from_ucs4 {a b : List U32} (na : NulFree a) (nb : NulFree b) :
    ((∀ c ∈ a ++ b, c.toNat ≤ 0x7FFFFFFF ∧ ¬ Surrogate c.toNat) →
      ∃ x y, toUtf8From32S a = .ok x ∧ toUtf8From32S b = .ok y ∧
        toUtf8From32S (a ++ b) = .ok (x ++ y)) ∧
    ((∀ c ∈ a ++ b, c.toNat ≤ 0x10FFFF ∧ ¬ Surrogate c.toNat) →
      ∃ x y, toUtf16From32S a = .ok x ∧ toUtf16From32S b = .ok y ∧
        toUtf16From32S (a ++ b) = .ok (x ++ y)) ∧
    ((∀ c ∈ a ++ b, c.toNat ≤ 0xFFFF ∧ ¬ Surrogate c.toNat) →
      ∃ x y, toUcs2From32S a = .ok x ∧ toUcs2From32S b = .ok y ∧
        toUcs2From32S (a ++ b) = .ok (x ++ y)) := by
  have nab := NulFree.append.2 ⟨na, nb⟩
  simp only [toUtf8From32S_any, toUtf16From32S_any, toUcs2From32S_any, textOf_of_nulFree na,
    textOf_of_nulFree nb, textOf_of_nulFree nab]
  have key : ∀ {P : U32 → Prop}, (∀ c ∈ a ++ b, P c) → (∀ c ∈ a, P c) ∧ ∀ c ∈ b, P c :=
    fun h => ⟨fun c hc => h c (by simp [hc]), fun c hc => h c (by simp [hc])⟩
  refine ⟨fun h => ?_, fun h => ?_, fun h => ?_⟩
  · rw [if_pos h, if_pos (key h).1, if_pos (key h).2]
    exact ⟨_, _, rfl, rfl, by simp [vals, utf8Of]⟩
  · rw [if_pos h, if_pos (key h).1, if_pos (key h).2]
    exact ⟨_, _, rfl, rfl, by simp [vals, utf16Of]⟩
  · rw [if_pos h, if_pos (key h).1, if_pos (key h).2]
    exact ⟨_, _, rfl, rfl, by simp [vals, ucs2Of]⟩

example : ∀ c ∈ ([0x41, 0x1F600] : List U32) ++ [0x20AC],
    c.toNat ≤ 0x10FFFF ∧ ¬ Surrogate c.toNat := by decide

/-- The UCS validators check each character by itself. -/
theorem C36_isUcs (U : CharClass) (r : Spec.Range) (pred : Pred) :
    (∀ a b : List U16, NulFree a → NulFree b → isUcs2S U a r.code pred = .ok true →
      isUcs2S U (a ++ b) r.code pred = isUcs2S U b r.code pred) ∧
    (∀ a b : List U32, NulFree a → NulFree b → isUcs4S U a r.code pred = .ok true →
      isUcs4S U (a ++ b) r.code pred = isUcs4S U b r.code pred) := by
  constructor
  · intro a b na nb h
    have nab := NulFree.append.2 ⟨na, nb⟩
    have h1 := of_ok_true (isUcs2S_any U r pred a) h
    obtain ⟨x, hx1, hx2⟩ := isUcs2S_any U r pred (a ++ b)
    obtain ⟨y, hy1, hy2⟩ := isUcs2S_any U r pred b
    rw [hx1, hy1]
    congr 1
    rw [Bool.eq_iff_iff, hx2, hy2]
    rw [textOf_of_nulFree na] at h1
    rw [textOf_of_nulFree nab, textOf_of_nulFree nb]
    exact ⟨fun hh c hc => hh c (by simp [hc]),
      fun hh c hc => (List.mem_append.1 hc).elim (h1 c) (hh c)⟩
  · intro a b na nb h
    have nab := NulFree.append.2 ⟨na, nb⟩
    have h1 := of_ok_true (isUcs4S_any U r pred a) h
    obtain ⟨x, hx1, hx2⟩ := isUcs4S_any U r pred (a ++ b)
    obtain ⟨y, hy1, hy2⟩ := isUcs4S_any U r pred b
    rw [hx1, hy1]
    congr 1
    rw [Bool.eq_iff_iff, hx2, hy2]
    rw [textOf_of_nulFree na] at h1
    rw [textOf_of_nulFree nab, textOf_of_nulFree nb]
    exact ⟨fun hh c hc => hh c (by simp [hc]),
      fun hh c hc => (List.mem_append.1 hc).elim (h1 c) (hh c)⟩

example (U : CharClass) : isUcs4S U [0x41, 0x1F600] Spec.Range.unicode.code Pred.none = .ok true := rfl

end Ansak.Props
