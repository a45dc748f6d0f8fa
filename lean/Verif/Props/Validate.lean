import Verif.Lemmas.Compose
import Verif.Lemmas.Predicate

/-!
# C15, C17, C18, C23: what the validators accept
-/

namespace Ansak.Props

open Spec (NulFree textOf Surrogate Utf8Reads Scalar Utf16Incomplete utf16Of ucs4Of)

/-! ## C15: target ranges nest -/

theorem nested_cases {t : RangeType × RangeType} (h : t ∈ nested) :
    ∃ r r' : Spec.Range, t = (r.code, r'.code) ∧ (∀ v, Acc8 r v → Acc8 r' v) ∧
      (∀ v, Lead8 r v → Lead8 r' v) ∧ (∀ v, AccFlags r v → AccFlags r' v) ∧
      (Wide16 r → Wide16 r') := by
  simp only [nested, List.mem_cons, List.not_mem_nil, or_false] at h
  rcases h with rfl | rfl | rfl | rfl | rfl
  · exact ⟨.ascii, .ucs2, rfl, fun v h => by simp only [Acc8] at *; omega,
      fun v h => by simp only [Lead8] at *; omega, fun v h => by simp only [AccFlags] at *; omega, id⟩
  · exact ⟨.ucs2, .unicode, rfl, fun v h => by simp only [Acc8] at *; omega,
      fun v h => by simp only [Lead8] at *; omega, fun v h => by simp only [AccFlags] at *; omega,
      fun _ => trivial⟩
  · exact ⟨.unicode, .utf16, rfl, fun v h => by simp only [Acc8] at *; omega,
      fun v h => by simp only [Lead8] at *; omega, fun v h => by simp only [AccFlags] at *; omega, id⟩
  · exact ⟨.utf16, .utf8, rfl, fun v h => by simp only [Acc8] at *; omega,
      fun v h => by simp only [Lead8] at *; omega, fun v h => by simp only [AccFlags] at *; omega, id⟩
  · exact ⟨.utf8, .ucs4, rfl, fun v h => by simp only [Acc8] at *; omega,
      fun v h => by simp only [Lead8] at *; omega, fun v h => trivial, id⟩

theorem C15_isUtf8 (U : CharClass) (pred : Pred) (s : List Byte) :
    ∀ t ∈ nested, isUtf8S U s t.1 pred = .ok true → isUtf8S U s t.2 pred = .ok true := by
  intro t ht h
  obtain ⟨r, r', rfl, h1, h2, _, _⟩ := nested_cases ht
  obtain ⟨vs, e, hsc⟩ := scan_exists (textOf_nulFree s)
  obtain ⟨ha, he⟩ := of_ok_true (isUtf8S_any U r pred hsc) h
  refine ok_true_of (isUtf8S_any U r' pred hsc) ⟨fun v hv => ⟨h1 v (ha v hv).1, (ha v hv).2⟩, ?_⟩
  cases e with
  | done => trivial
  | cut t => obtain ⟨b, t', rfl, hl⟩ := he; exact ⟨b, t', rfl, h2 _ hl⟩
  | bad t => exact he

theorem C15_isUtf16 (U : CharClass) (pred : Pred) (s : List U16) :
    ∀ t ∈ nested, isUtf16S U s t.1 pred = .ok true → isUtf16S U s t.2 pred = .ok true := by
  intro t ht h
  obtain ⟨r, r', rfl, _, _, h3, h4⟩ := nested_cases ht
  obtain ⟨vs, e, hsc⟩ := scan16_exists false (textOf_nulFree s)
  obtain ⟨ha, he⟩ := of_ok_true (isUtf16S_any U r pred hsc) h
  refine ok_true_of (isUtf16S_any U r' pred hsc) ⟨fun v hv => ⟨h3 v (ha v hv).1, (ha v hv).2⟩, ?_⟩
  cases e with
  | done => trivial
  | cut => exact h4 he
  | bad => exact he

theorem C15_isUcs2 (U : CharClass) (pred : Pred) (s : List U16) :
    ∀ t ∈ nested, isUcs2S U s t.1 pred = .ok true → isUcs2S U s t.2 pred = .ok true := by
  intro t ht h
  obtain ⟨r, r', rfl, _, _, h3, _⟩ := nested_cases ht
  have ha := of_ok_true (isUcs2S_any U r pred s) h
  exact ok_true_of (isUcs2S_any U r' pred s)
    fun c hc => ⟨(ha c hc).1, h3 _ (ha c hc).2.1, (ha c hc).2.2⟩

theorem C15_isUcs4 (U : CharClass) (pred : Pred) (s : List U32) :
    ∀ t ∈ nested, isUcs4S U s t.1 pred = .ok true → isUcs4S U s t.2 pred = .ok true := by
  intro t ht h
  obtain ⟨r, r', rfl, _, _, h3, _⟩ := nested_cases ht
  have ha := of_ok_true (isUcs4S_any U r pred s) h
  exact ok_true_of (isUcs4S_any U r' pred s)
    fun c hc => ⟨(ha c hc).1, h3 _ (ha c hc).2.1, (ha c hc).2.2⟩

/-- The inclusions are strict for UCS-4 strings, so nesting is not an accident of equal ranges. -/
theorem C15_strict (U : CharClass) :
    (isUcs4S U [0x80] kAscii Pred.none = .ok false ∧ isUcs4S U [0x80] kUcs2 Pred.none = .ok true) ∧
    (isUcs4S U [0x10000] kUcs2 Pred.none = .ok false ∧
      isUcs4S U [0x10000] kUnicode Pred.none = .ok true) ∧
    (isUcs4S U [0x110000] kUnicode Pred.none = .ok false ∧
      isUcs4S U [0x110000] kUtf16 Pred.none = .ok true) ∧
    (isUcs4S U [0x200000] kUtf16 Pred.none = .ok false ∧
      isUcs4S U [0x200000] kUtf8 Pred.none = .ok true) ∧
    (isUcs4S U [0x80000000] kUtf8 Pred.none = .ok false ∧
      isUcs4S U [0x80000000] kUcs4 Pred.none = .ok true) := by
  refine ⟨⟨?_, ?_⟩, ⟨?_, ?_⟩, ⟨?_, ?_⟩, ⟨?_, ?_⟩, ⟨?_, ?_⟩⟩ <;> rfl

/-! ## C17: UTF-16 validation and decoding is exact -/

theorem C17_isUtf16 (U : CharClass) (r : Spec.Range) (s : List U16) :
    ∃ b, isUtf16S U s r.code Pred.none = .ok b ∧
      (b = true ↔ ∃ vs t, textOf s = utf16Of vs ++ t ∧ (∀ v ∈ vs, Scalar v ∧ r.Has v) ∧
        (t = [] ∨ (Utf16Incomplete t ∧ r.Has 0x10000))) := by
  obtain ⟨vs, e, hsc⟩ := scan16_exists false (textOf_nulFree s)
  obtain ⟨b, hb1, hb2⟩ := isUtf16S_any U r Pred.none hsc
  refine ⟨b, hb1, ?_⟩
  have hwide : Wide16 r ↔ r.Has 0x10000 := by cases r <;> decide
  have hacc : ∀ v, Scalar v → (AccFlags r v ↔ r.Has v) := by
    intro v hv
    unfold Scalar Surrogate at hv
    cases r <;> simp only [AccFlags, Spec.Range.Has, Surrogate, true_iff] <;> omega
  rw [hb2]
  constructor
  · rintro ⟨ha, he⟩
    have hsv := scan16_scalar hsc
    have hv : ∀ v ∈ vs, Scalar v ∧ r.Has v :=
      fun v hv => ⟨hsv v hv, (hacc v (hsv v hv)).1 (ha v hv).1⟩
    cases e with
    | bad => exact he.elim
    | done => exact ⟨vs, [], by rw [List.append_nil]; exact (scan16_done_iff.1 hsc).1, hv, .inl rfl⟩
    | cut =>
      obtain ⟨t, h1, h2, _⟩ := scan16_cut_iff.1 hsc
      exact ⟨vs, t, h1, hv, .inr ⟨h2, hwide.1 he⟩⟩
  · rintro ⟨ws, t, h1, hv, ht⟩
    have hsw : ∀ v ∈ ws, Scalar v := fun v hv' => (hv v hv').1
    have fin : ∀ {e' : End16}, Scan16 false (textOf s) ws e' → EndOk16 r e' →
        (∀ v ∈ vs, AccFlags r v ∧ Pred.none.call16 U (predUnit v) = true) ∧ EndOk16 r e := by
      intro e' h' he'
      obtain ⟨rfl, rfl⟩ := scan16_unique hsc h'
      exact ⟨fun v hv' => ⟨(hacc v (hsw v hv')).2 (hv v hv').2, rfl⟩, he'⟩
    rcases ht with rfl | ⟨ht, hr⟩
    · exact fin (scan16_done_iff.2 ⟨by rw [h1, List.append_nil], hsw⟩) trivial
    · exact fin (scan16_cut_iff.2 ⟨t, h1, ht, hsw⟩) (hwide.2 hr)

example (U : CharClass) :
    isUtf16S U [0x41, 0xD83D, 0xDE00, 0xD800] kUtf16 Pred.none = .ok true ∧
    isUtf16S U [0x41, 0xD83D, 0xDE00] kUcs2 Pred.none = .ok false ∧
    isUtf16S U [0x41, 0xDE00] kUtf16 Pred.none = .ok false ∧
    isUtf16S U [0xD83D, 0x41] kUtf16 Pred.none = .ok false := ⟨rfl, rfl, rfl, rfl⟩

/-- Decoding: the code points of well-formed UTF-16 (an unpaired high surrogate at the end is
ignored), the empty string for everything else. -/
theorem C17_toUcs4 (s : List U16) :
    (∀ vs t, textOf s = utf16Of vs ++ t → (∀ v ∈ vs, Scalar v) → (t = [] ∨ Utf16Incomplete t) →
      toUcs4From16S s = .ok (ucs4Of vs)) ∧
    ((¬ ∃ vs t, textOf s = utf16Of vs ++ t ∧ (∀ v ∈ vs, Scalar v) ∧ (t = [] ∨ Utf16Incomplete t)) →
      toUcs4From16S s = .ok []) := by
  obtain ⟨vs, e, hsc, h4⟩ := toUcs4From16S_any s
  constructor
  · intro ws t h1 hv ht
    have fin : ∀ {e' : End16}, Scan16 false (textOf s) ws e' → e'.ok = true →
        toUcs4From16S s = .ok (ucs4Of ws) := by
      intro e' h' he'
      obtain ⟨rfl, rfl⟩ := scan16_unique hsc h'
      rw [h4, if_pos he']
    rcases ht with rfl | ht
    · exact fin (scan16_done_iff.2 ⟨by rw [h1, List.append_nil], hv⟩) rfl
    · exact fin (scan16_cut_iff.2 ⟨t, h1, ht, hv⟩) rfl
  · intro hn
    rw [h4]
    cases e with
    | bad => rfl
    | done =>
      have ⟨h1, h2⟩ := scan16_done_iff.1 hsc
      exact absurd ⟨vs, [], by rw [List.append_nil]; exact h1, h2, .inl rfl⟩ hn
    | cut =>
      obtain ⟨t, h1, h2, h3⟩ := scan16_cut_iff.1 hsc
      exact absurd ⟨vs, t, h1, h3, .inr h2⟩ hn

example : toUcs4From16S [0x41, 0xD83D, 0xDE00, 0xD800] = .ok [0x41, 0x1F600] ∧
    toUcs4From16S [0x41, 0xDE00] = .ok [] := by decide

/-! ## C18: UCS-2 and UCS-4 validation is exact -/

theorem C18_isUcs2 (U : CharClass) (r : Spec.Range) (s : List U16) :
    ∃ b, isUcs2S U s r.code Pred.none = .ok b ∧
      (b = true ↔ ∀ c ∈ textOf s, r.Has c.toNat ∧ ¬ Surrogate c.toNat) := by
  obtain ⟨b, hb1, hb2⟩ := isUcs2S_any U r Pred.none s
  refine ⟨b, hb1, ?_⟩
  rw [hb2]
  refine forall_congr' fun c => forall_congr' fun _ => ?_
  rw [show Pred.none.call16 U c.toNat = true from rfl]
  have := c.isLt
  unfold Surrogate
  cases r <;> simp only [AccFlags, Spec.Range.Has, Surrogate, and_true] <;> omega

example (U : CharClass) : isUcs2S U [0x41, 0x20AC] kUcs2 Pred.none = .ok true ∧
    isUcs2S U [0x41, 0xD800] kUcs4 Pred.none = .ok false ∧
    isUcs2S U [0x41, 0x20AC] kAscii Pred.none = .ok false := ⟨rfl, rfl, rfl⟩

/-- Missing from the full property: `kUtf16`, for which see the next two theorems. -/
theorem C18_isUcs4_partial (U : CharClass) (r : Spec.Range) (hr : r ≠ .utf16) (s : List U32) :
    ∃ b, isUcs4S U s r.code Pred.none = .ok b ∧
      (b = true ↔ ∀ c ∈ textOf s, r.Has c.toNat ∧ ¬ Surrogate c.toNat) := by
  obtain ⟨b, hb1, hb2⟩ := isUcs4S_any U r Pred.none s
  refine ⟨b, hb1, ?_⟩
  rw [hb2]
  refine forall_congr' fun c => forall_congr' fun _ => ?_
  rw [show Pred.none.call32 U c.toNat = true from rfl]
  have := c.isLt
  unfold Surrogate
  cases r <;> simp only [AccFlags, Spec.Range.Has, Surrogate, ne_eq, not_true_eq_false, and_true] at * <;> omega

example : Spec.Range.unicode ≠ .utf16 := by decide

/-- For `kUtf16` all values of up to 21 bits pass. -/
theorem C18_isUcs4_utf16_partial (U : CharClass) (s : List U32) :
    ∃ b, isUcs4S U s kUtf16 Pred.none = .ok b ∧
      (b = true ↔ ∀ c ∈ textOf s, c.toNat ≤ 0x1FFFFF ∧ ¬ Surrogate c.toNat) := by
  obtain ⟨b, hb1, hb2⟩ := isUcs4S_any U .utf16 Pred.none s
  refine ⟨b, hb1, ?_⟩
  rw [hb2]
  refine forall_congr' fun c => forall_congr' fun _ => ?_
  rw [show Pred.none.call32 U c.toNat = true from rfl]
  simp only [AccFlags, Surrogate, and_true]
  omega

/-- Violation of C18: 0x110000, which UTF-16 cannot encode, is accepted for `kUtf16`. -/
theorem C18_isUcs4_violated (U : CharClass) :
    isUcs4S U [0x110000] kUtf16 Pred.none = .ok true ∧ ¬ Spec.Range.utf16.Has 0x110000 :=
  ⟨rfl, by decide⟩

/-! ## C23: predicates filter per code point -/

theorem C23_isUtf8 (U : CharClass) (r : Spec.Range) (pred : Pred) (s : List Byte) :
    isUtf8S U s r.code pred = .ok true ↔ isUtf8S U s r.code Pred.none = .ok true ∧
      ∀ vs t, Utf8Reads (textOf s) vs t → ∀ v ∈ vs, pred.call32 U v = true := by
  obtain ⟨vs, e, hsc⟩ := scan_exists (textOf_nulFree s)
  rw [ok_true_iff (isUtf8S_any U r pred hsc), ok_true_iff (isUtf8S_any U r Pred.none hsc)]
  constructor
  · rintro ⟨ha, he⟩
    refine ⟨⟨fun v hv => ⟨(ha v hv).1, rfl⟩, he⟩, fun ws t hrd v hv => ?_⟩
    obtain ⟨rfl, rfl⟩ := scan_unique hsc (scan_of_reads hrd)
    exact (ha v hv).2
  · rintro ⟨⟨ha, he⟩, hp⟩
    rcases reads_of_scan hsc with ⟨t, rfl, hrd⟩ | ⟨t, rfl⟩
    · exact ⟨fun v hv => ⟨(ha v hv).1, hp vs t hrd v hv⟩, he⟩
    · exact he.elim

theorem C23_isUcs2 (U : CharClass) (r : Spec.Range) (pred : Pred) (s : List U16) :
    isUcs2S U s r.code pred = .ok true ↔ isUcs2S U s r.code Pred.none = .ok true ∧
      ∀ c ∈ textOf s, pred.call16 U c.toNat = true := by
  rw [ok_true_iff (isUcs2S_any U r pred s), ok_true_iff (isUcs2S_any U r Pred.none s)]
  constructor
  · exact fun h => ⟨fun c hc => ⟨(h c hc).1, (h c hc).2.1, rfl⟩, fun c hc => (h c hc).2.2⟩
  · exact fun h c hc => ⟨(h.1 c hc).1, (h.1 c hc).2.1, h.2 c hc⟩

theorem C23_isUcs4 (U : CharClass) (r : Spec.Range) (pred : Pred) (s : List U32) :
    isUcs4S U s r.code pred = .ok true ↔ isUcs4S U s r.code Pred.none = .ok true ∧
      ∀ c ∈ textOf s, pred.call32 U c.toNat = true := by
  rw [ok_true_iff (isUcs4S_any U r pred s), ok_true_iff (isUcs4S_any U r Pred.none s)]
  constructor
  · exact fun h => ⟨fun c hc => ⟨(h c hc).1, (h c hc).2.1, rfl⟩, fun c hc => (h c hc).2.2⟩
  · exact fun h c hc => ⟨(h.1 c hc).1, (h.1 c hc).2.1, h.2 c hc⟩

/-- UTF-16: the predicate sees the first unit of each character, which is the character itself in
the BMP but the high surrogate otherwise. Missing from the full property: characters outside the BMP
(see `C23_isUtf16_violated`). -/
theorem C23_isUtf16_partial (U : CharClass) (r : Spec.Range) (pred : Pred) {vs : List Nat}
    (hv : ∀ v ∈ vs, Scalar v) {t : List U16} (ht : t = [] ∨ Utf16Incomplete t) (s : List U16)
    (hs : textOf s = utf16Of vs ++ t) :
    isUtf16S U s r.code pred = .ok true ↔ isUtf16S U s r.code Pred.none = .ok true ∧
      ∀ v ∈ vs, pred.call16 U (if v < 0x10000 then v else 0xD800 + (v - 0x10000) / 0x400) = true := by
  have hsc : ∃ e, Scan16 false (textOf s) vs e := by
    rcases ht with rfl | ht
    · exact ⟨_, scan16_done_iff.2 ⟨by rw [hs, List.append_nil], hv⟩⟩
    · exact ⟨_, scan16_cut_iff.2 ⟨t, hs, ht, hv⟩⟩
  obtain ⟨e, hsc⟩ := hsc
  rw [ok_true_iff (isUtf16S_any U r pred hsc), ok_true_iff (isUtf16S_any U r Pred.none hsc)]
  constructor
  · rintro ⟨ha, he⟩
    exact ⟨⟨fun v hv => ⟨(ha v hv).1, rfl⟩, he⟩, fun v hv => (ha v hv).2⟩
  · rintro ⟨⟨ha, he⟩, hp⟩
    exact ⟨fun v hv => ⟨(ha v hv).1, hp v hv⟩, he⟩

example : (∀ v ∈ [0x41, 0x20AC], Scalar v) ∧
    textOf ([0x41, 0x20AC, 0xD800] : List U16) = utf16Of [0x41, 0x20AC] ++ [0xD800] := by decide

/-- Violation of C23 for UTF-16, for every version of the tables in which the high surrogate U+D83D
counts as unassigned and U+1F600 as assigned: the string consists of the one character U+1F600, but
the predicate is asked about U+D83D. -/
theorem C23_isUtf16_violated (U : CharClass) (h1 : U.assigned16 0xD83D = false)
    (h2 : U.assigned32 0x1F600 = true) :
    toUcs4From16S [0xD83D, 0xDE00] = .ok [0x1F600] ∧
    isUtf16S U [0xD83D, 0xDE00] kUtf16 Pred.none = .ok true ∧
    (Pred.validIf kIsAssigned).call32 U 0x1F600 = true ∧
    isUtf16S U [0xD83D, 0xDE00] kUtf16 (Pred.validIf kIsAssigned) = .ok false := by
  have e : ∀ a b c d : Bool, (Pred.validIf kIsAssigned).test (encodingTypeMask a b c d) = a := by
    decide
  refine ⟨by decide, rfl, ?_, ?_⟩
  · unfold Pred.call32 charToEncodingTypeMask32
    rw [e, h2]
  · obtain ⟨b, hb1, hb2⟩ := isUtf16S_any U .utf16 (Pred.validIf kIsAssigned)
      (s := [0xD83D, 0xDE00]) (vs := [0x1F600]) (scan16_done_iff.2 (by decide))
    cases b with
    | false => exact hb1
    | true =>
      have := ((hb2.1 rfl).1 _ (List.mem_singleton.2 rfl)).2
      rw [show predUnit 0x1F600 = 0xD83D from rfl] at this
      unfold Pred.call16 charToEncodingTypeMask16 at this
      rw [e, h1] at this
      exact absurd this (by decide)

end Ansak.Props
