import Verif.Props.Wide
import Verif.Props.Utf8
import Verif.Props.Safety
import Verif.Props.Exact

/-!
# C38, C39: what isWstring, isTstring and the Windows overloads accept, and bounds
-/

namespace Ansak.Props

open Spec (NulFree textOf Surrogate Scalar Utf8Reads utf16Of ucs2Of ucs4Of Utf16Incomplete
  StaysInBounds)

/-! ## isWstring accepts exactly ... -/

/-- `isWstring` of UTF-8, whatever the width of `wchar_t`: well-formed text, up to a truncated
character at the end. Missing from the full property: the bound is 0x13FFFF where it should be
0x10FFFF (`C38_accepted_violated`). -/
theorem C38_isWstring8_partial (U : CharClass) (s : List Byte) :
    ∃ b, W16.isWstring8S U s = .ok b ∧ W32.isWstring8S U s = .ok b ∧
      (b = true ↔ ∃ vs t, Utf8Reads (textOf s) vs t ∧ (∀ v ∈ vs, v ≤ 0x13FFFF) ∧
        ∀ b ∈ t.head?, b.toNat ≤ 0xF4) := by
  obtain ⟨post, hp⟩ := cStr_text s
  obtain ⟨b, hb, hi⟩ := C02_isUtf8_utf16_partial U (textOf_nulFree s) post
  have e : isUtf8S U s kUtf16 Pred.none = .ok b := by
    unfold isUtf8S; rw [hp]; exact hb
  exact ⟨b, e, e, hi⟩

/-- `isWstring` of UTF-16, whatever the width of `wchar_t`: characters and surrogate pairs, up to half
a pair at the end. -/
theorem C38_isWstring16 (U : CharClass) (s : List U16) :
    ∃ b, W16.isWstring16S U s = .ok b ∧ W32.isWstring16S U s = .ok b ∧
      (b = true ↔ ∃ vs t, textOf s = utf16Of vs ++ t ∧ (∀ v ∈ vs, Scalar v) ∧
        (t = [] ∨ Utf16Incomplete t)) := by
  obtain ⟨b, hb, hi⟩ := C17_isUtf16 U .utf16 s
  have e := (C38_w16_isUtf16 U s).2.2
  refine ⟨b, hb, e.trans hb, hi.trans ?_⟩
  constructor
  · rintro ⟨vs, t, h, hv, ht⟩
    exact ⟨vs, t, h, fun v hm => (hv v hm).1, ht.imp_right And.left⟩
  · rintro ⟨vs, t, h, hv, ht⟩
    exact ⟨vs, t, h, fun v hm => ⟨hv v hm, (hv v hm).2⟩,
      ht.imp_right fun h => ⟨h, by decide⟩⟩

/-- `isWstring` of UCS-4, whatever the width of `wchar_t`. Missing from the full property: the bound is
0x1FFFFF where it should be 0x10FFFF (`C38_isWstring_violated`). -/
theorem C38_isWstring32_partial (U : CharClass) (s : List U32) :
    ∃ b, W16.isWstring32S U s = .ok b ∧ W32.isWstring32S U s = .ok b ∧
      (b = true ↔ ∀ c ∈ textOf s, c.toNat ≤ 0x1FFFFF ∧ ¬ Surrogate c.toNat) := by
  obtain ⟨b, hb, hi⟩ := C18_isUcs4_utf16_partial U s
  exact ⟨b, hb, hb, hi⟩

/-- Violation of C38: UCS-4 accepted for conversion to a (16-bit) wide string that is not converted. -/
theorem C38_isWstring_violated (U : CharClass) :
    W16.isWstring32S U [0x1FFFFF] = .ok true ∧ W16.toWstring32S [0x1FFFFF] = .ok [] := by
  refine ⟨(C08_ucs4_to_utf16_violated U).1, ?_⟩
  rw [(C38_w16_to_partial U).2.1]
  exact (C08_ucs4_to_utf16_violated U).2

/-! ## ... and what it accepts is converted -/

/-- 16-bit `wchar_t`: all complete characters of text that `isWstring` accepts are in the result of
`toWstring`. Missing from the full property: values above 0x10FFFF, accepted by mistake, are
excluded. -/
theorem C38_w16_isWstring_converts_partial (U : CharClass) :
    (∀ s, W16.isWstring8S U s = .ok true →
      (∀ vs t, Utf8Reads (textOf s) vs t → ∀ v ∈ vs, v ≤ 0x10FFFF) →
      ∃ vs t, Utf8Reads (textOf s) vs t ∧ W16.toWstring8S s = .ok (utf16Of vs)) ∧
    (∀ s, W16.isWstring16S U s = .ok true → W16.toWstring16S U s = .ok (textOf s)) ∧
    (∀ s, W16.isWstring32S U s = .ok true → (∀ c ∈ textOf s, c.toNat ≤ 0x10FFFF) →
      W16.toWstring32S s = .ok (utf16Of (vals (textOf s)))) := by
  refine ⟨fun s h hm => ?_, fun s h => (C38_w16_to_partial U).2.2.1 s h, fun s h hm => ?_⟩
  · rw [(C38_w16_to_partial U).1]
    refine C08_utf8_to_utf16_partial U Pred.none s h fun vs t hr v hv => ?_
    have := hm vs t hr v hv
    omega
  · rw [(C38_w16_to_partial U).2.1]
    refine C08_ucs4_to_utf16_partial U Pred.none s h fun c hc => ?_
    have := hm c hc
    omega

/-- 32-bit `wchar_t`: all complete characters of text that `isWstring` accepts are in the result of
`toWstring`. -/
theorem C38_w32_isWstring_converts (U : CharClass) :
    (∀ s, W32.isWstring8S U s = .ok true →
      ∃ vs t, Utf8Reads (textOf s) vs t ∧ W32.toWstring8S s = .ok (ucs4Of vs)) ∧
    (∀ s, W32.isWstring16S U s = .ok true →
      ∃ vs t, textOf s = utf16Of vs ++ t ∧ (∀ v ∈ vs, Scalar v) ∧ (t = [] ∨ Utf16Incomplete t) ∧
        W32.toWstring16S s = .ok (ucs4Of vs)) ∧
    (∀ s, W32.isWstring32S U s = .ok true → W32.toWstring32S U s = .ok (textOf s)) := by
  refine ⟨fun s h => ?_, fun s h => ?_, fun s h => (C38_w32_to_partial U).2.2.1 s h⟩
  · rw [(C38_w32_to_partial U).1]
    exact C08_utf8_to_ucs4 U Pred.none .utf16 s h
  · rw [(C38_w32_to_partial U).2.1]
    obtain ⟨vs, t, h1, h2, h3, _, h5⟩ := C08_utf16_to_utf8_and_ucs4 U Pred.none .ucs4 s h
    exact ⟨vs, t, h1, h2, h3, h5⟩

/-- Complete text of characters up to 0x10FFFF is accepted in every encoding and for both widths. -/
theorem C38_isWstring_text (U : CharClass) {vs : List Nat} (h : ∀ v ∈ vs, Scalar v) :
    W16.isWstring8S U (Spec.utf8Of vs) = .ok true ∧ W32.isWstring8S U (Spec.utf8Of vs) = .ok true ∧
    W16.isWstring16S U (utf16Of vs) = .ok true ∧ W32.isWstring16S U (utf16Of vs) = .ok true ∧
    W16.isWstring32S U (ucs4Of vs) = .ok true ∧ W32.isWstring32S U (ucs4Of vs) = .ok true := by
  have hE : ∀ v ∈ vs, Spec.Encodable v := fun v hv => scalar_encodable (h v hv)
  have hle : ∀ v ∈ vs, v ≤ 0x10FFFF := fun v hv => (h v hv).2.1
  obtain ⟨b8, h8, g8, i8⟩ := C38_isWstring8_partial U (Spec.utf8Of vs)
  obtain ⟨b16, h16, g16, i16⟩ := C38_isWstring16 U (utf16Of vs)
  obtain ⟨b32, h32, g32, i32⟩ := C38_isWstring32_partial U (ucs4Of vs)
  have e8 : b8 = true := i8.2 ⟨vs, [], by
    rw [textOf_of_nulFree (utf8Of_nulFree hE)]
    exact ⟨_, (List.append_nil _).symm, text_utf8Of hE, .inl rfl⟩,
    fun v hv => by have := hle v hv; omega, fun b hb => by cases hb⟩
  have e16 : b16 = true := i16.2 ⟨vs, [], by
    rw [textOf_of_nulFree (utf16Of_nulFree h), List.append_nil], h, .inl rfl⟩
  have e32 : b32 = true := i32.2 fun c hc => by
    rw [textOf_of_nulFree (ucs4Of_nulFree hE)] at hc
    have h1 := h _ (mem_ucs4Of hE c hc)
    exact ⟨by have := h1.2.1; omega, h1.2.2⟩
  subst e8 e16 e32
  exact ⟨h8, g8, h16, g16, h32, g32⟩

example : ∀ v ∈ [0x41, 0x20AC, 0x1F600], Scalar v := by decide

/-! ## Windows -/

/-- `isTstring` accepts exactly what `isWstring` accepts; `toTstring` (`_UNICODE`) converts all complete
characters of it. Missing from the full property: values above 0x10FFFF, accepted by mistake, are
excluded; for `_MBCS` see `C39_mbcs_accepted_violated`. -/
theorem C39_isTstring_partial (U : CharClass) :
    (∀ s, W16.isTstring8S U s = W16.isWstring8S U s) ∧
    (∀ s, W16.isTstring16S U s = W16.isWstring16S U s) ∧
    (∀ s, W16.isTstring32S U s = W16.isWstring32S U s) ∧
    (∀ s, W16.isTstring8S U s = .ok true →
      (∀ vs t, Utf8Reads (textOf s) vs t → ∀ v ∈ vs, v ≤ 0x10FFFF) →
      ∃ vs t, Utf8Reads (textOf s) vs t ∧ W16.Tchar.toTstring8S s = .ok (utf16Of vs)) ∧
    (∀ s, W16.Tchar.toTstring16S s = .ok (textOf s)) ∧
    (∀ s, W16.isTstring32S U s = .ok true → (∀ c ∈ textOf s, c.toNat ≤ 0x10FFFF) →
      W16.Tchar.toTstring32S s = .ok (utf16Of (vals (textOf s)))) := by
  have h := C38_w16_isWstring_converts_partial U
  exact ⟨fun _ => rfl, fun _ => rfl, fun _ => rfl, h.1, fun s => stringOfPtr_cStr s, h.2.2⟩

/-- The Windows overloads that check UTF-8 for a target encoding: what they accept is converted
completely. Missing from the full property: for UTF-16, values above 0x10FFFF, accepted by mistake, are
excluded. -/
theorem C39_windows_is_partial (U : CharClass) (s : List Byte) :
    (W16.isUtf16From8S U s = .ok true →
      (∀ vs t, Utf8Reads (textOf s) vs t → ∀ v ∈ vs, v ≤ 0x10FFFF) →
      ∃ vs t, Utf8Reads (textOf s) vs t ∧ toUtf16From8S s = .ok (utf16Of vs)) ∧
    (W16.isUcs2From8S U s = .ok true →
      ∃ vs t, Utf8Reads (textOf s) vs t ∧ toUcs2From8S s = .ok (ucs2Of vs)) ∧
    (W16.isUcs4From8S U s = .ok true →
      ∃ vs t, Utf8Reads (textOf s) vs t ∧ toUcs4From8S s = .ok (ucs4Of vs)) := by
  refine ⟨fun h hm => ?_, fun h => C08_utf8_to_ucs2 U Pred.none s h,
    fun h => C08_utf8_to_ucs4 U Pred.none .ucs4 s h⟩
  refine C08_utf8_to_utf16_partial U Pred.none s h fun vs t hr v hv => ?_
  have := hm vs t hr v hv
  omega

/-- And what they accept exactly. Missing from the full property: for UTF-16 the bound is 0x13FFFF where
it should be 0x10FFFF. -/
theorem C39_windows_is_exact_partial (U : CharClass) (s : List Byte) :
    (∃ b, W16.isUtf16From8S U s = .ok b ∧ (b = true ↔ ∃ vs t, Utf8Reads (textOf s) vs t ∧
      (∀ v ∈ vs, v ≤ 0x13FFFF) ∧ ∀ b ∈ t.head?, b.toNat ≤ 0xF4)) ∧
    (∃ b, W16.isUcs2From8S U s = .ok b ∧ (b = true ↔ ∃ vs t, Utf8Reads (textOf s) vs t ∧
      (∀ v ∈ vs, Spec.Range.ucs2.Has v) ∧ ∀ b ∈ t.head?, b.toNat ≤ 0xEF)) ∧
    (∃ b, W16.isUcs4From8S U s = .ok b ∧ (b = true ↔ ∃ vs t, Utf8Reads (textOf s) vs t ∧
      (∀ v ∈ vs, Spec.Range.ucs4.Has v) ∧ ∀ b ∈ t.head?, b.toNat ≤ 0xFD)) := by
  obtain ⟨post, hp⟩ := cStr_text s
  refine ⟨?_, ?_, ?_⟩
  · show ∃ b, isUtf8 U (cStr s) kUtf16 Pred.none = .ok b ∧ _
    rw [hp]; exact C02_isUtf8_utf16_partial U (textOf_nulFree s) post
  · show ∃ b, isUtf8 U (cStr s) kUcs2 Pred.none = .ok b ∧ _
    rw [hp]; exact C02_isUtf8_partial U (r := .ucs2) (by decide) (textOf_nulFree s) post
  · show ∃ b, isUtf8 U (cStr s) kUcs4 Pred.none = .ok b ∧ _
    rw [hp]; exact C02_isUtf8_partial U (r := .ucs4) (by decide) (textOf_nulFree s) post

example (U : CharClass) : W16.isUcs2From8S U [0x41] = .ok true ∧ W16.isUtf16From8S U [0x41] = .ok true ∧
    W16.isUcs4From8S U [0x41] = .ok true := by
  have h : ∀ r : Spec.Range, isUtf8S U [0x41] r.code Pred.none = .ok true := fun r =>
    C02_no_false_rejection U r (a := [0x41]) (t := []) (vs := [0x41])
      (text_utf8Of (vs := [0x41]) (by decide)) (by cases r <;> decide) (.inl rfl) []
  exact ⟨h .ucs2, h .utf16, h .ucs4⟩

/-! ## The pointer overloads stay in bounds -/

theorem inBounds_stringOfPtr {w : Nat} : StaysInBounds (stringOfPtr (w := w)) :=
  fun s hs => ⟨s, stringOfPtr_text hs [], fun post => stringOfPtr_text hs post⟩

theorem inBounds_bind {w : Nat} {α β : Type} {f : Ptr (BitVec w) → Res α}
    {g : Ptr (BitVec w) → α → Res β} (hf : StaysInBounds f) (hg : ∀ a, StaysInBounds (g · a)) :
    StaysInBounds (fun p => (f p).bind (g p)) := by
  intro s hs
  obtain ⟨a, ha, ha'⟩ := hf s hs
  obtain ⟨r, hr, hr'⟩ := hg a s hs
  refine ⟨r, ?_, fun post => ?_⟩
  · show (f _).bind _ = _
    rw [ha]; exact hr
  · show (f _).bind _ = _
    rw [ha' post]; exact hr' post

theorem inBounds_const {w : Nat} {β : Type} (x : β) :
    StaysInBounds (fun _ : Ptr (BitVec w) => Res.ok x) := fun _ _ => ⟨x, rfl, fun _ => rfl⟩

theorem inBounds_of_ok {w : Nat} {β : Type} {x : Res β} (h : ∃ r, x = .ok r) :
    StaysInBounds (fun _ : Ptr (BitVec w) => x) := by
  obtain ⟨r, rfl⟩ := h
  exact inBounds_const r

theorem inBounds_copyIf {w : Nat} {f : Ptr (BitVec w) → Res Bool} (hf : StaysInBounds f) :
    StaysInBounds (fun p => (f p).bind fun b => if b then stringOfPtr p else .ok []) := by
  refine inBounds_bind (g := fun p b => if b then stringOfPtr p else .ok []) hf fun b => ?_
  cases b
  · exact inBounds_const []
  · exact inBounds_stringOfPtr

theorem inBounds_recopy {w u : Nat} {f : Ptr (BitVec w) → Res (List (BitVec u))}
    (hf : StaysInBounds f) :
    StaysInBounds (fun p => (f p).bind fun s => stringOfPtr (cStr s)) := by
  refine inBounds_bind (g := fun _ s => stringOfPtr (cStr s)) hf fun s => ?_
  exact inBounds_of_ok ⟨_, stringOfPtr_cStr s⟩

/-- The functions for pointers of a build with 16-bit `wchar_t`. -/
theorem C38_w16_in_bounds (U : CharClass) :
    StaysInBounds (W16.isUtf8W U) ∧ StaysInBounds (W16.isUtf16W U) ∧
    StaysInBounds (W16.isUcs2W U) ∧ StaysInBounds (W16.isUcs4W U) ∧
    StaysInBounds (W16.isWstring8 U) ∧ StaysInBounds (W16.isWstring16 U) ∧
    StaysInBounds (W16.isWstring32 U) ∧
    StaysInBounds W16.toUtf8W ∧ StaysInBounds (W16.toUtf16W U) ∧
    StaysInBounds (W16.toUcs2W U) ∧ StaysInBounds W16.toUcs4W ∧
    StaysInBounds W16.toWstring8 ∧ StaysInBounds (W16.toWstring16 U) ∧
    StaysInBounds W16.toWstring32 :=
  ⟨C10_isUtf16 U _ _, C10_isUtf16 U _ _, C10_isUtf16 U _ _, C10_isUtf16 U _ _,
    C10_isUtf8 U _ _, C10_isUtf16 U _ _, C10_isUcs4 U _ _,
    C10_from_utf16.2, inBounds_copyIf (C10_isUtf16 U _ _), inBounds_copyIf (C10_isUcs2 U _ _),
    C10_from_utf16.1, inBounds_recopy C10_from_utf8.2.1, inBounds_copyIf (C10_isUtf16 U _ _),
    inBounds_recopy C10_from_ucs4.2.1⟩

/-- The functions for pointers of a build with 32-bit `wchar_t`. -/
theorem C38_w32_in_bounds (U : CharClass) :
    StaysInBounds (W32.isUtf8W U) ∧ StaysInBounds (W32.isUtf16W U) ∧
    StaysInBounds (W32.isUcs2W U) ∧ StaysInBounds (W32.isUcs4W U) ∧
    StaysInBounds (W32.isWstring8 U) ∧ StaysInBounds (W32.isWstring16 U) ∧
    StaysInBounds (W32.isWstring32 U) ∧
    StaysInBounds W32.toUtf8W ∧ StaysInBounds W32.toUtf16W ∧
    StaysInBounds W32.toUcs2W ∧ StaysInBounds (W32.toUcs4W U) ∧
    StaysInBounds W32.toWstring8 ∧ StaysInBounds W32.toWstring16 ∧
    StaysInBounds (W32.toWstring32 U) :=
  ⟨C10_isUcs4 U _ _, C10_isUcs4 U _ _, C10_isUcs4 U _ _, C10_isUcs4 U _ _,
    C10_isUtf8 U _ _, C10_isUtf16 U _ _, C10_isUcs4 U _ _,
    C10_from_ucs4.1, C10_from_ucs4.2.1, C10_from_ucs4.2.2, inBounds_copyIf (C10_isUcs4 U _ _),
    inBounds_recopy C10_from_utf8.1, inBounds_recopy C10_from_utf16.1,
    inBounds_copyIf (C10_isUcs4 U _ _)⟩

/-- The overloads for pointers and those for strings agree: on the pointer `p` to the text of the string
`s`, whatever follows its NUL, the results are those of `C38_isWstring8_partial` and so on. -/
theorem C38_isWstring_pointers (U : CharClass) :
    (∀ s post, W16.isWstring8 U (some (textOf s ++ 0 :: post)) = W16.isWstring8S U s ∧
      W32.isWstring8 U (some (textOf s ++ 0 :: post)) = W32.isWstring8S U s ∧
      W16.isTstring8 U (some (textOf s ++ 0 :: post)) = W16.isTstring8S U s) ∧
    (∀ s post, W16.isWstring16 U (some (textOf s ++ 0 :: post)) = W16.isWstring16S U s ∧
      W32.isWstring16 U (some (textOf s ++ 0 :: post)) = W32.isWstring16S U s ∧
      W16.isTstring16 U (some (textOf s ++ 0 :: post)) = W16.isTstring16S U s) ∧
    (∀ s post, W16.isWstring32 U (some (textOf s ++ 0 :: post)) = W16.isWstring32S U s ∧
      W32.isWstring32 U (some (textOf s ++ 0 :: post)) = W32.isWstring32S U s ∧
      W16.isTstring32 U (some (textOf s ++ 0 :: post)) = W16.isTstring32S U s) := by
  have key : ∀ {w : Nat} {f : Ptr (BitVec w) → Res Bool}, StaysInBounds f → ∀ s post,
      f (some (textOf s ++ 0 :: post)) = f (cStr s) := by
    intro w f hf s post
    obtain ⟨post', hp⟩ := cStr_text s
    obtain ⟨r, _, hr⟩ := hf _ (textOf_nulFree s)
    rw [hp, hr, hr]
  refine ⟨fun s post => ⟨?_, ?_, ?_⟩, fun s post => ⟨?_, ?_, ?_⟩, fun s post => ⟨?_, ?_, ?_⟩⟩
  · exact key (C10_isUtf8 U kUtf16 Pred.none) s post
  · exact key (C10_isUtf8 U kUtf16 Pred.none) s post
  · exact key (C10_isUtf8 U kUtf16 Pred.none) s post
  · exact key (C10_isUtf16 U kUtf16 Pred.none) s post
  · exact key (C10_isUtf16 U kUcs4 Pred.none) s post
  · exact key (C10_isUtf16 U kUtf16 Pred.none) s post
  · exact key (C10_isUcs4 U kUtf16 Pred.none) s post
  · exact key (C10_isUcs4 U kUtf16 Pred.none) s post
  · exact key (C10_isUcs4 U kUtf16 Pred.none) s post

/-- The Windows functions for pointers. -/
theorem C39_in_bounds (U : CharClass) :
    StaysInBounds (W16.isUtf16From8 U) ∧ StaysInBounds (W16.isUcs2From8 U) ∧
    StaysInBounds (W16.isUcs4From8 U) ∧ StaysInBounds (W16.isTstring8 U) ∧
    StaysInBounds (W16.isTstring16 U) ∧ StaysInBounds (W16.isTstring32 U) ∧
    StaysInBounds (W16.toUtf8From8 U) ∧
    StaysInBounds (W16.Mbcs.toTstring8 U) ∧ StaysInBounds (W16.Mbcs.toTstring16 U) ∧
    StaysInBounds (W16.Mbcs.toTstring32 U) ∧
    StaysInBounds W16.Tchar.toTstring8 ∧ StaysInBounds W16.Tchar.toTstring16 ∧
    StaysInBounds W16.Tchar.toTstring32 := by
  have m : ∀ {w : Nat} {f : Ptr (BitVec w) → Res Bool} {g : Ptr (BitVec w) → Res (List Byte)},
      StaysInBounds f → StaysInBounds g → StaysInBounds (fun p => (f p).bind fun b =>
        if b then (g p).bind fun s => stringOfPtr (cStr s) else .ok []) := by
    intro w f g hf hg
    refine inBounds_bind (g := fun p b =>
      if b then (g p).bind fun s => stringOfPtr (cStr s) else .ok []) hf fun b => ?_
    cases b
    · exact inBounds_const []
    · exact inBounds_recopy hg
  exact ⟨C10_isUtf8 U _ _, C10_isUtf8 U _ _, C10_isUtf8 U _ _, C10_isUtf8 U _ _,
    C10_isUtf16 U _ _, C10_isUcs4 U _ _, inBounds_copyIf (C10_isUtf8 U _ _),
    inBounds_copyIf (C10_isUtf8 U _ _), m (C10_isUtf16 U _ _) C10_from_utf16.2,
    m (C10_isUcs4 U _ _) C10_from_ucs4.1, inBounds_recopy C10_from_utf8.2.1, inBounds_stringOfPtr,
    inBounds_recopy C10_from_ucs4.2.1⟩

end Ansak.Props
