import Verif.Model.Wide
import Verif.Lemmas.CodePage
import Verif.Lemmas.ToLower
import Verif.Props.Convert
import Verif.Props.Validate

/-!
# C38, C39: wchar_t and TCHAR functions

`W16` are the functions of a build with 16-bit `wchar_t`, `W32` of one with 32-bit `wchar_t`.
-/

namespace Ansak.Props

open Spec (NulFree textOf Surrogate Scalar Encodable Bmp utf8Of utf16Of ucs2Of ucs4Of Utf16Incomplete)

theorem stringOfPtr_cStr {w : Nat} (s : List (BitVec w)) :
    stringOfPtr (cStr s) = .ok (textOf s) := by
  obtain ⟨post, hp⟩ := cStr_text s
  rw [hp, stringOfPtr_text (textOf_nulFree s)]

/-- A `basic_string` free of NULs survives the trip through its `c_str()`. -/
theorem stringOfPtr_nulFree {w : Nat} {s : List (BitVec w)} (h : NulFree s) :
    stringOfPtr (cStr s) = .ok s := by
  rw [stringOfPtr_cStr, textOf_of_nulFree h]

/-- Two computations of a `bool` that are true in the same cases. -/
theorem res_bool_ext {x y : Res Bool} {P Q : Prop} (hx : ∃ b, x = .ok b ∧ (b = true ↔ P))
    (hy : ∃ b, y = .ok b ∧ (b = true ↔ Q)) (h : P ↔ Q) : x = y := by
  obtain ⟨a, ha, hp⟩ := hx
  obtain ⟨b, hb, hq⟩ := hy
  rw [ha, hb, Bool.eq_iff_iff.2 (hp.trans (h.trans hq.symm))]

theorem nulFree_nil {w : Nat} : NulFree ([] : List (BitVec w)) :=
  fun _ h => absurd h List.not_mem_nil

/-! ## C38, 16-bit wchar_t -/

/-- Validating a wide string for UTF-8, UTF-16 or UCS-4 is validating it as UTF-16. -/
theorem C38_w16_isUtf16 (U : CharClass) (s : List U16) :
    W16.isUtf8WS U s = isUtf16S U s kUtf16 Pred.none ∧
    W16.isUtf16WS U s = isUtf16S U s kUtf16 Pred.none ∧
    W16.isUcs4WS U s = isUtf16S U s kUtf16 Pred.none := by
  obtain ⟨vs, e, hsc⟩ := scan16_exists false (textOf_nulFree s)
  have key : ∀ r : Spec.Range, r = .utf8 ∨ r = .ucs4 →
      isUtf16S U s r.code Pred.none = isUtf16S U s kUtf16 Pred.none := by
    intro r hr
    refine res_bool_ext (isUtf16S_any U r Pred.none hsc) (isUtf16S_any U .utf16 Pred.none hsc) ?_
    have hv := scan16_scalar hsc
    have h1 : ∀ v ∈ vs, AccFlags r v ↔ AccFlags .utf16 v := by
      intro v hv'
      have := hv v hv'
      unfold Scalar at this
      rcases hr with rfl | rfl <;> simp only [AccFlags, true_iff] <;> omega
    have h2 : EndOk16 r e ↔ EndOk16 .utf16 e := by
      rcases hr with rfl | rfl <;> cases e <;> exact Iff.rfl
    rw [h2]
    refine and_congr_left fun _ => forall_congr' fun v => forall_congr' fun hv' => ?_
    rw [h1 v hv']
  exact ⟨key .utf8 (.inl rfl), key .utf8 (.inl rfl), key .ucs4 (.inr rfl)⟩

/-- Validating a wide string for UCS-2 is validating it as UCS-2: in particular it must not end in
half a surrogate pair. -/
theorem C38_w16_isUcs2 (U : CharClass) (s : List U16) :
    W16.isUcs2WS U s = isUcs2S U s kUcs2 Pred.none := by
  obtain ⟨vs, e, hsc⟩ := scan16_exists false (textOf_nulFree s)
  refine res_bool_ext (isUtf16S_any U .ucs2 Pred.none hsc) (C18_isUcs2 U .ucs2 s) ?_
  constructor
  · rintro ⟨hv, he⟩
    cases e with
    | bad => exact he.elim
    | cut => exact he.elim
    | done =>
      obtain ⟨ht, hs⟩ := scan16_done_iff.1 hsc
      have hb : ∀ v ∈ vs, v ≤ 0xFFFF := fun v hv' => by
        have := (hv v hv').1
        simp only [AccFlags] at this
        omega
      have hB : ∀ v ∈ vs, Bmp v := fun v hv' => encodable_bmp (scalar_encodable (hs v hv')) (hb v hv')
      rw [ht, utf16Of_bmp hb]
      intro c hc
      obtain ⟨v, hv', rfl⟩ := List.mem_map.1 hc
      have hB' := hB v hv'
      unfold Bmp at hB'
      rw [BitVec.toNat_ofNat, Nat.mod_eq_of_lt (by omega)]
      exact ⟨⟨hB'.2.1, hB'.2.2⟩, hB'.2.2⟩
  · intro h
    have hB : ∀ v ∈ vals (textOf s), Bmp v := by
      intro v hv
      obtain ⟨c, hc, rfl⟩ := List.mem_map.1 hv
      have h0 := textOf_nulFree s c hc
      have h1 : c.toNat ≠ 0 := fun e => h0 (BitVec.eq_of_toNat_eq e)
      exact ⟨by omega, (h c hc).1.1, (h c hc).2⟩
    have hS : ∀ v ∈ vals (textOf s), Scalar v := fun v hv => bmp_scalar (hB v hv)
    have hd : Scan16 false (textOf s) (vals (textOf s)) .done :=
      scan16_done_iff.2 ⟨by rw [utf16Of_bmp fun v hv => (hB v hv).2.1, ucs2Of_vals], hS⟩
    obtain ⟨rfl, rfl⟩ := scan16_unique hsc hd
    refine ⟨fun v hv => ⟨?_, rfl⟩, trivial⟩
    have := hB v hv
    unfold Bmp at this
    simp only [AccFlags]
    omega

/-- From wide strings: UTF-8 and UCS-4 are the conversions from UTF-16; UTF-16 and UCS-2 are copies of
what the validator accepts, empty otherwise. Missing from the full property: null pointers
(`C38_w16_null_violated`). -/
theorem C38_w16_from_partial (U : CharClass) (s : List U16) :
    W16.toUtf8WS s = toUtf8From16S s ∧ W16.toUcs4WS s = toUcs4From16S s ∧
    (isUtf16S U s kUtf16 Pred.none = .ok true → W16.toUtf16WS U s = .ok (textOf s)) ∧
    (isUtf16S U s kUtf16 Pred.none = .ok false → W16.toUtf16WS U s = .ok []) ∧
    (isUcs2S U s kUcs2 Pred.none = .ok true → W16.toUcs2WS U s = .ok (textOf s)) ∧
    (isUcs2S U s kUcs2 Pred.none = .ok false → W16.toUcs2WS U s = .ok []) := by
  have e1 : W16.toUtf16WS U s = (isUtf16S U s kUtf16 Pred.none).bind fun b =>
    if b then stringOfPtr (cStr s) else .ok [] := rfl
  have e2 : W16.toUcs2WS U s = (isUcs2S U s kUcs2 Pred.none).bind fun b =>
    if b then stringOfPtr (cStr s) else .ok [] := rfl
  refine ⟨rfl, rfl, fun h => ?_, fun h => ?_, fun h => ?_, fun h => ?_⟩
  · rw [e1, h, stringOfPtr_cStr]; rfl
  · rw [e1, h]; rfl
  · rw [e2, h, stringOfPtr_cStr]; rfl
  · rw [e2, h]; rfl

/-- To wide strings: the result is the UTF-16 the `char16_t` functions give, for every source.
Missing from the full property: null pointers (`C38_w16_null_violated`). -/
theorem C38_w16_to_partial (U : CharClass) :
    (∀ s, W16.toWstring8S s = toUtf16From8S s) ∧ (∀ s, W16.toWstring32S s = toUtf16From32S s) ∧
    (∀ s, isUtf16S U s kUtf16 Pred.none = .ok true → W16.toWstring16S U s = .ok (textOf s)) ∧
    (∀ s, isUtf16S U s kUtf16 Pred.none = .ok false → W16.toWstring16S U s = .ok []) := by
  refine ⟨fun s => ?_, fun s => ?_, fun s h => (C38_w16_from_partial U s).2.2.1 h,
    fun s h => (C38_w16_from_partial U s).2.2.2.1 h⟩
  · obtain ⟨vs, e, hsc, _, h16, _⟩ := toUcs4From8S_any s
    show (toUtf16From8S s).bind _ = _
    rw [h16, Res.bind_ok, stringOfPtr_nulFree]
    split
    · rename_i h
      exact utf16Of_nulFree fun v hv => encodable_scalar (scan_encodable hsc v hv) (h.2 v hv)
    · exact nulFree_nil
  · show (toUtf16From32S s).bind _ = _
    rw [toUtf16From32S_any, Res.bind_ok, stringOfPtr_nulFree]
    split
    · rename_i h
      refine utf16Of_nulFree fun v hv => ?_
      obtain ⟨c, hc, rfl⟩ := List.mem_map.1 hv
      have h1 : c.toNat ≠ 0 := fun e => textOf_nulFree s c hc (BitVec.eq_of_toNat_eq e)
      exact ⟨by omega, h c hc⟩
    · exact nulFree_nil

/-- Wide strings of complete UTF-16 survive the trip through each of the other encodings and back. -/
theorem C38_w16_round_trip (U : CharClass) {vs : List Nat} (h : ∀ v ∈ vs, Scalar v) :
    ((W16.toUtf8WS (utf16Of vs)).bind W16.toWstring8S = .ok (utf16Of vs)) ∧
    ((W16.toUcs4WS (utf16Of vs)).bind W16.toWstring32S = .ok (utf16Of vs)) ∧
    ((W16.toUtf16WS U (utf16Of vs)).bind (W16.toWstring16S U) = .ok (utf16Of vs)) ∧
    ((∀ v ∈ vs, v ≤ 0xFFFF) →
      (W16.toUcs2WS U (utf16Of vs)).bind (W16.toWstring16S U) = .ok (utf16Of vs)) := by
  have hE : ∀ v ∈ vs, Encodable v := fun v hv => scalar_encodable (h v hv)
  have hf := C38_w16_from_partial U (utf16Of vs)
  have ht := C38_w16_to_partial U
  have hnf := utf16Of_nulFree h
  have hacc : isUtf16S U (utf16Of vs) kUtf16 Pred.none = .ok true := by
    refine ok_true_of (isUtf16S_any U .utf16 Pred.none (vs := vs) (e := .done) ?_)
      ⟨fun v hv => ⟨?_, rfl⟩, trivial⟩
    · rw [textOf_of_nulFree hnf]; exact scan16_done_iff.2 ⟨rfl, h⟩
    · have := h v hv
      unfold Scalar at this
      simp only [AccFlags]; omega
  have h16 : W16.toWstring16S U (utf16Of vs) = .ok (utf16Of vs) := by
    rw [ht.2.2.1 _ hacc, textOf_of_nulFree hnf]
  refine ⟨?_, ?_, ?_, fun hb => ?_⟩
  · rw [hf.1, toUtf8From16S_utf16Of h, Res.bind_ok, ht.1, toUtf16From8S_utf8Of h]
  · rw [hf.2.1, toUcs4From16S_utf16Of h, Res.bind_ok, ht.2.1, toUtf16From32S_ucs4Of hE, if_pos]
    intro v hv
    have := h v hv
    unfold Scalar at this
    omega
  · rw [hf.2.2.1 hacc, textOf_of_nulFree hnf, Res.bind_ok, h16]
  · have hu : isUcs2S U (utf16Of vs) kUcs2 Pred.none = .ok true := by
      refine ok_true_of (C18_isUcs2 U .ucs2 (utf16Of vs)) ?_
      rw [textOf_of_nulFree hnf, utf16Of_bmp hb]
      intro c hc
      obtain ⟨v, hv, rfl⟩ := List.mem_map.1 hc
      have h1 := h v hv
      have h2 := hb v hv
      unfold Scalar at h1
      rw [BitVec.toNat_ofNat, Nat.mod_eq_of_lt (by omega)]
      exact ⟨⟨h2, h1.2.2⟩, h1.2.2⟩
    rw [hf.2.2.2.2.1 hu, textOf_of_nulFree hnf, Res.bind_ok, h16]

/-- And back: text in another encoding survives the trip through a wide string. -/
theorem C38_w16_round_trip_back {vs : List Nat} (h : ∀ v ∈ vs, Scalar v) :
    ((W16.toWstring8S (utf8Of vs)).bind W16.toUtf8WS = .ok (utf8Of vs)) ∧
    ((W16.toWstring32S (ucs4Of vs)).bind W16.toUcs4WS = .ok (ucs4Of vs)) := by
  have hE : ∀ v ∈ vs, Encodable v := fun v hv => scalar_encodable (h v hv)
  have hU : CharClass := ⟨fun _ => true, fun _ => true, fun _ => true, fun _ => true,
    fun _ => true, fun _ => true, fun _ => true, fun _ => true, fun _ => true, fun _ => true⟩
  have ht := C38_w16_to_partial hU
  have hf := fun s => C38_w16_from_partial hU s
  constructor
  · rw [ht.1, toUtf16From8S_utf8Of h, Res.bind_ok, (hf _).1, toUtf8From16S_utf16Of h]
  · rw [ht.2.1, toUtf16From32S_ucs4Of hE, if_pos, Res.bind_ok, (hf _).2.1,
      toUcs4From16S_utf16Of h]
    intro v hv
    have := h v hv
    unfold Scalar at this
    omega

example : (∀ v ∈ [0x41, 0x20AC, 0x1F600], Scalar v) ∧
    utf16Of [0x41, 0x20AC, 0x1F600] = [0x41, 0x20AC, 0xD83D, 0xDE00] := by decide

/-- Null pointers: as the `char16_t` functions, most wide functions take them for an empty string. -/
theorem C38_w16_null (U : CharClass) :
    W16.isUtf8W U none = .ok true ∧ W16.isUtf16W U none = .ok true ∧
    W16.isUcs2W U none = .ok true ∧ W16.isUcs4W U none = .ok true ∧
    W16.toUtf8W none = .ok [] ∧ W16.toUcs4W none = .ok [] ∧
    W16.toWstring8 none = .ok [] ∧ W16.toWstring32 none = .ok [] :=
  ⟨rfl, rfl, rfl, rfl, rfl, rfl, rfl, rfl⟩

/-- Violation of C38: three functions do not; they accept the null pointer as valid and then copy from
it. -/
theorem C38_w16_null_violated (U : CharClass) :
    W16.toUtf16W U none = .ub ∧ W16.toUcs2W U none = .ub ∧ W16.toWstring16 U none = .ub :=
  ⟨rfl, rfl, rfl⟩

/-! ## C38, 32-bit wchar_t -/

/-- Validating a wide string for UTF-8, UTF-16 or UCS-4 is validating it as UCS-4 for `kUtf16`,
for UCS-2 it is validating it as UCS-4 for `kUcs2`. Whatever the `char32_t` functions reject for
the encoding in question is rejected. -/
theorem C38_w32_is (U : CharClass) (s : List U32) :
    W32.isUtf8WS U s = isUcs4S U s kUtf16 Pred.none ∧
    W32.isUtf16WS U s = isUcs4S U s kUtf16 Pred.none ∧
    W32.isUcs2WS U s = isUcs4S U s kUcs2 Pred.none ∧
    W32.isUcs4WS U s = isUcs4S U s kUtf16 Pred.none ∧
    (W32.isUtf8WS U s = .ok true → isUcs4S U s kUtf8 Pred.none = .ok true) ∧
    (W32.isUcs4WS U s = .ok true → isUcs4S U s kUcs4 Pred.none = .ok true) :=
  ⟨rfl, rfl, rfl, rfl, fun h => C15_isUcs4 U Pred.none s (kUtf16, kUtf8) (by decide) h,
    fun h => C15_isUcs4 U Pred.none s (kUtf8, kUcs4) (by decide)
      (C15_isUcs4 U Pred.none s (kUtf16, kUtf8) (by decide) h)⟩

/-- From wide strings: UTF-8, UTF-16 and UCS-2 are the conversions from UCS-4; UCS-4 is a copy of what
the validator accepts, empty otherwise. Missing from the full property: null pointers
(`C38_w32_null_violated`). -/
theorem C38_w32_from_partial (U : CharClass) (s : List U32) :
    W32.toUtf8WS s = toUtf8From32S s ∧ W32.toUtf16WS s = toUtf16From32S s ∧
    W32.toUcs2WS s = toUcs2From32S s ∧
    (isUcs4S U s kUtf16 Pred.none = .ok true → W32.toUcs4WS U s = .ok (textOf s)) ∧
    (isUcs4S U s kUtf16 Pred.none = .ok false → W32.toUcs4WS U s = .ok []) := by
  have e1 : W32.toUcs4WS U s = (isUcs4S U s kUtf16 Pred.none).bind fun b =>
    if b then stringOfPtr (cStr s) else .ok [] := rfl
  refine ⟨rfl, rfl, rfl, fun h => ?_, fun h => ?_⟩
  · rw [e1, h, stringOfPtr_cStr]; rfl
  · rw [e1, h]; rfl

/-- To wide strings: the result is the UCS-4 the `char32_t` functions give, for every source.
Missing from the full property: null pointers (`C38_w32_null_violated`). -/
theorem C38_w32_to_partial (U : CharClass) :
    (∀ s, W32.toWstring8S s = toUcs4From8S s) ∧ (∀ s, W32.toWstring16S s = toUcs4From16S s) ∧
    (∀ s, isUcs4S U s kUtf16 Pred.none = .ok true → W32.toWstring32S U s = .ok (textOf s)) ∧
    (∀ s, isUcs4S U s kUtf16 Pred.none = .ok false → W32.toWstring32S U s = .ok []) := by
  refine ⟨fun s => ?_, fun s => ?_, fun s h => (C38_w32_from_partial U s).2.2.2.1 h,
    fun s h => (C38_w32_from_partial U s).2.2.2.2 h⟩
  · obtain ⟨vs, h4, he⟩ := chars8 s
    show (toUcs4From8S s).bind _ = _
    rw [h4, Res.bind_ok, stringOfPtr_nulFree (ucs4Of_nulFree he)]
  · obtain ⟨vs, h4, he⟩ := chars16 s
    show (toUcs4From16S s).bind _ = _
    rw [h4, Res.bind_ok,
      stringOfPtr_nulFree (ucs4Of_nulFree fun v hv => scalar_encodable (he v hv))]

/-- Wide strings of Unicode characters survive the trip through each of the other encodings and
back. -/
theorem C38_w32_round_trip (U : CharClass) {vs : List Nat} (h : ∀ v ∈ vs, Scalar v) :
    ((W32.toUtf8WS (ucs4Of vs)).bind W32.toWstring8S = .ok (ucs4Of vs)) ∧
    ((W32.toUtf16WS (ucs4Of vs)).bind W32.toWstring16S = .ok (ucs4Of vs)) ∧
    ((W32.toUcs4WS U (ucs4Of vs)).bind (W32.toWstring32S U) = .ok (ucs4Of vs)) ∧
    ((∀ v ∈ vs, v ≤ 0xFFFF) →
      (W32.toUcs2WS (ucs4Of vs)).bind W32.toWstring16S = .ok (ucs4Of vs)) := by
  have hE : ∀ v ∈ vs, Encodable v := fun v hv => scalar_encodable (h v hv)
  have hle : ∀ v ∈ vs, v ≤ 0x10FFFF := fun v hv => by
    have := h v hv
    unfold Scalar at this
    omega
  have hf := C38_w32_from_partial U (ucs4Of vs)
  have ht := C38_w32_to_partial U
  have hnf := ucs4Of_nulFree hE
  have hacc : isUcs4S U (ucs4Of vs) kUtf16 Pred.none = .ok true := by
    refine ok_true_of (isUcs4S_any U .utf16 Pred.none _) fun c hc => ?_
    rw [textOf_of_nulFree hnf] at hc
    have h1 := h _ (mem_ucs4Of hE c hc)
    unfold Scalar at h1
    refine ⟨h1.2.2, ?_, rfl⟩
    simp only [AccFlags]; omega
  have h32 : W32.toWstring32S U (ucs4Of vs) = .ok (ucs4Of vs) := by
    rw [ht.2.2.1 _ hacc, textOf_of_nulFree hnf]
  refine ⟨?_, ?_, ?_, fun hb => ?_⟩
  · rw [hf.1, toUtf8From32S_ucs4Of hE, Res.bind_ok, ht.1, toUcs4From8S_utf8Of hE]
  · rw [hf.2.1, toUtf16From32S_ucs4Of hE, if_pos hle, Res.bind_ok, ht.2.1,
      toUcs4From16S_utf16Of h]
  · rw [hf.2.2.2.1 hacc, textOf_of_nulFree hnf, Res.bind_ok, h32]
  · rw [hf.2.2.1, toUcs2From32S_ucs4Of hE, if_pos hb, Res.bind_ok, ht.2.1, ← utf16Of_bmp hb,
      toUcs4From16S_utf16Of h]

/-- And back: text in another encoding survives the trip through a wide string. -/
theorem C38_w32_round_trip_back {vs : List Nat} :
    ((∀ v ∈ vs, Encodable v) →
      (W32.toWstring8S (utf8Of vs)).bind W32.toUtf8WS = .ok (utf8Of vs)) ∧
    ((∀ v ∈ vs, Scalar v) →
      (W32.toWstring16S (utf16Of vs)).bind W32.toUtf16WS = .ok (utf16Of vs)) := by
  have hU : CharClass := ⟨fun _ => true, fun _ => true, fun _ => true, fun _ => true,
    fun _ => true, fun _ => true, fun _ => true, fun _ => true, fun _ => true, fun _ => true⟩
  have ht := C38_w32_to_partial hU
  have hf := fun s => C38_w32_from_partial hU s
  constructor
  · intro hE
    rw [ht.1, toUcs4From8S_utf8Of hE, Res.bind_ok, (hf _).1, toUtf8From32S_ucs4Of hE]
  · intro h
    have hE : ∀ v ∈ vs, Encodable v := fun v hv => scalar_encodable (h v hv)
    rw [ht.2.1, toUcs4From16S_utf16Of h, Res.bind_ok, (hf _).2.1, toUtf16From32S_ucs4Of hE, if_pos]
    intro v hv
    have := h v hv
    unfold Scalar at this
    omega

theorem C38_w32_null (U : CharClass) :
    W32.isUtf8W U none = .ok true ∧ W32.isUtf16W U none = .ok true ∧
    W32.isUcs2W U none = .ok true ∧ W32.isUcs4W U none = .ok true ∧
    W32.toUtf8W none = .ok [] ∧ W32.toUtf16W none = .ok [] ∧ W32.toUcs2W none = .ok [] ∧
    W32.toWstring8 none = .ok [] ∧ W32.toWstring16 none = .ok [] :=
  ⟨rfl, rfl, rfl, rfl, rfl, rfl, rfl, rfl, rfl⟩

/-- Violation of C38: two functions accept the null pointer as valid and then copy from it. -/
theorem C38_w32_null_violated (U : CharClass) :
    W32.toUcs4W U none = .ub ∧ W32.toWstring32 U none = .ub := ⟨rfl, rfl⟩

/-- Violation of C38: a wide string accepted for UTF-16 that cannot be converted to UTF-16, and UTF-8
accepted for conversion to a wide string (16-bit) that cannot be converted. -/
theorem C38_accepted_violated (U : CharClass) :
    W32.isUtf16WS U [0x110000] = .ok true ∧ W32.toUtf16WS [0x110000] = .ok [] ∧
    W16.isWstring8S U [0xF4, 0x90, 0x80, 0x80] = .ok true ∧
    W16.toWstring8S [0xF4, 0x90, 0x80, 0x80] = .ok [] := by
  refine ⟨rfl, rfl, (C08_utf8_to_utf16_violated U).1, ?_⟩
  rw [(C38_w16_to_partial U).1]
  exact (C08_utf8_to_utf16_violated U).2

/-! ## C39: TCHAR -/

/-- `_UNICODE`: the result is the UTF-16 of the text. Missing from the full property: a source in
UTF-16 is not checked (see `C39_unicode_violated`), so it must be valid. -/
theorem C39_unicode_partial {vs : List Nat} (h : ∀ v ∈ vs, Scalar v) :
    W16.Tchar.toTstring8S (utf8Of vs) = .ok (utf16Of vs) ∧
    W16.Tchar.toTstring16S (utf16Of vs) = .ok (utf16Of vs) ∧
    W16.Tchar.toTstring32S (ucs4Of vs) = .ok (utf16Of vs) := by
  have hE : ∀ v ∈ vs, Encodable v := fun v hv => scalar_encodable (h v hv)
  have hnf := utf16Of_nulFree h
  refine ⟨?_, stringOfPtr_nulFree hnf, ?_⟩
  · show (toUtf16From8S (utf8Of vs)).bind _ = _
    rw [toUtf16From8S_utf8Of h, Res.bind_ok, stringOfPtr_nulFree hnf]
  · show (toUtf16From32S (ucs4Of vs)).bind _ = _
    rw [toUtf16From32S_ucs4Of hE, if_pos, Res.bind_ok, stringOfPtr_nulFree hnf]
    intro v hv
    have := h v hv
    unfold Scalar at this
    omega

/-- `_UNICODE`: from UTF-8 and UCS-4, `toTstring` is `toWstring`, for every source and for pointers
as well. -/
theorem C39_unicode_toWstring :
    W16.Tchar.toTstring8S = W16.toWstring8S ∧ W16.Tchar.toTstring8 = W16.toWstring8 ∧
    W16.Tchar.toTstring32S = W16.toWstring32S ∧ W16.Tchar.toTstring32 = W16.toWstring32 :=
  ⟨rfl, rfl, rfl, rfl⟩

/-- Violation of C39: with `_UNICODE`, an ill-formed UTF-16 source is returned as it is, where
`toWstring` returns an empty string; a null pointer is undefined behaviour. -/
theorem C39_unicode_violated (U : CharClass) :
    W16.Tchar.toTstring16S [0x41, 0xDC00] = .ok [0x41, 0xDC00] ∧
    isUtf16S U [0x41, 0xDC00] kUtf16 Pred.none = .ok false ∧
    W16.toWstring16S U [0x41, 0xDC00] = .ok [] ∧
    W16.Tchar.toTstring16 none = .ub := ⟨rfl, rfl, rfl, rfl⟩

/-- `_MBCS`: the overloads for pointers return ASCII text as it is. Missing from the full property:
they return nothing for other text although `isTstring` accepts it (`C39_mbcs_accepted_violated`),
and the overloads for strings never return (`C39_mbcs_diverges_violated`). -/
theorem C39_mbcs_partial (U : CharClass) {s : List Nat} (h : ∀ v ∈ s, 1 ≤ v ∧ v ≤ 0x7F) :
    W16.Mbcs.toTstring8 U (cStr (utf8Of s)) = .ok (utf8Of s) ∧
    W16.Mbcs.toTstring16 U (cStr (utf16Of s)) = .ok (utf8Of s) ∧
    W16.Mbcs.toTstring32 U (cStr (ucs4Of s)) = .ok (utf8Of s) := by
  have hS : ∀ v ∈ s, Scalar v := fun v hv => by
    have := h v hv
    unfold Scalar Surrogate
    omega
  have hE : ∀ v ∈ s, Encodable v := fun v hv => scalar_encodable (hS v hv)
  have n8 := utf8Of_nulFree hE
  have n16 := utf16Of_nulFree hS
  have n32 := ucs4Of_nulFree hE
  have a8 : isUtf8S U (utf8Of s) kAscii Pred.none = .ok true := by
    refine ok_true_of (isUtf8S_any U .ascii Pred.none (vs := s) (e := .done) ?_)
      ⟨fun v hv => ⟨?_, rfl⟩, trivial⟩
    · rw [textOf_of_nulFree n8]; exact scan_of_text (text_utf8Of hE)
    · have := h v hv
      simp only [Acc8]; omega
  have a16 : isUtf16S U (utf16Of s) kAscii Pred.none = .ok true := by
    refine ok_true_of (isUtf16S_any U .ascii Pred.none (vs := s) (e := .done) ?_)
      ⟨fun v hv => ⟨?_, rfl⟩, trivial⟩
    · rw [textOf_of_nulFree n16]; exact scan16_done_iff.2 ⟨rfl, hS⟩
    · have := h v hv
      simp only [AccFlags]; omega
  have a32 : isUcs4S U (ucs4Of s) kAscii Pred.none = .ok true := by
    refine ok_true_of (isUcs4S_any U .ascii Pred.none _) fun c hc => ?_
    rw [textOf_of_nulFree n32] at hc
    have h1 := h _ (mem_ucs4Of hE c hc)
    refine ⟨by unfold Surrogate; omega, ?_, rfl⟩
    simp only [AccFlags]; omega
  refine ⟨?_, ?_, ?_⟩
  · show (isUtf8S U (utf8Of s) kAscii Pred.none).bind _ = _
    rw [a8, Res.bind_ok, if_pos rfl, stringOfPtr_nulFree n8]
  · show (isUtf16S U (utf16Of s) kAscii Pred.none).bind (fun b =>
      if b then (toUtf8From16S (utf16Of s)).bind _ else _) = _
    rw [a16, Res.bind_ok, if_pos rfl, toUtf8From16S_utf16Of hS, Res.bind_ok,
      stringOfPtr_nulFree n8]
  · show (isUcs4S U (ucs4Of s) kAscii Pred.none).bind (fun b =>
      if b then (toUtf8From32S (ucs4Of s)).bind _ else _) = _
    rw [a32, Res.bind_ok, if_pos rfl, toUtf8From32S_ucs4Of hE, Res.bind_ok,
      stringOfPtr_nulFree n8]

example : ∀ v ∈ [0x41, 0x7F], 1 ≤ v ∧ v ≤ 0x7F := by decide

/-- Violation of C39: with `_MBCS` the overloads for strings do not return, for any string: however
deep the recursion is allowed to go, there is no result. -/
theorem C39_mbcs_diverges_violated (fuel : Nat) :
    (∀ s, W16.Mbcs.toTstring8S fuel s = none) ∧ (∀ s, W16.Mbcs.toTstring16S fuel s = none) ∧
    (∀ s, W16.Mbcs.toTstring32S fuel s = none) := by
  induction fuel with
  | zero => exact ⟨fun _ => rfl, fun _ => rfl, fun _ => rfl⟩
  | succ n ih =>
    refine ⟨fun s => ?_, fun s => ?_, fun s => ?_⟩
    · unfold W16.Mbcs.toTstring8S
      rw [stringOfPtr_cStr]
      exact ih.1 _
    · unfold W16.Mbcs.toTstring16S
      rw [stringOfPtr_cStr]
      exact ih.2.1 _
    · unfold W16.Mbcs.toTstring32S
      rw [stringOfPtr_cStr]
      exact ih.2.2 _

/-- Violation of C39: `isTstring` accepts "é", but `toTstring` returns nothing for it. -/
theorem C39_mbcs_accepted_violated (U : CharClass) :
    W16.isTstring8 U (cStr [0xC3, 0xA9]) = .ok true ∧
    W16.Mbcs.toTstring8 U (cStr [0xC3, 0xA9]) = .ok [] ∧
    W16.isTstring32 U (cStr [0xE9]) = .ok true ∧
    W16.Mbcs.toTstring32 U (cStr [0xE9]) = .ok [] := by
  have ht : Spec.Utf8Text [0xC3, 0xA9] [0xE9] := text_utf8Of (vs := [0xE9]) (by decide)
  refine ⟨?_, ?_, rfl, rfl⟩
  · exact ok_true_of (isUtf8S_any U .utf16 Pred.none (scan_of_text ht)) (by
      refine ⟨fun v hv => ⟨?_, rfl⟩, trivial⟩
      rw [List.mem_singleton.1 hv]
      decide)
  · have h : isUtf8S U [0xC3, 0xA9] kAscii Pred.none = .ok false :=
      ok_false_of (isUtf8S_any U .ascii Pred.none (scan_of_text ht)) fun hh =>
        absurd (hh.1 0xE9 (List.mem_singleton.2 rfl)).1 (by decide)
    show (isUtf8S U [0xC3, 0xA9] kAscii Pred.none).bind _ = _
    rw [h]
    rfl

/-- Windows: `toUtf8(const char*)` returns valid UTF-8 text as it is, and nothing for other text. -/
theorem C39_toUtf8 (U : CharClass) (s : List Byte) :
    (isUtf8S U s kUtf8 Pred.none = .ok true → W16.toUtf8From8S U s = .ok (textOf s)) ∧
    (isUtf8S U s kUtf8 Pred.none = .ok false → W16.toUtf8From8S U s = .ok []) := by
  have e : W16.toUtf8From8S U s = (isUtf8S U s kUtf8 Pred.none).bind fun b =>
    if b then stringOfPtr (cStr s) else .ok [] := rfl
  constructor
  · intro h; rw [e, h, stringOfPtr_cStr]; rfl
  · intro h; rw [e, h]; rfl

end Ansak.Props
