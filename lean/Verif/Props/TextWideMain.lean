import Verif.Lemmas.Cpp.Returns
import Verif.Lemmas.Cpp.ReturnsWide
import Verif.Props.WideIs

/-!
# C38, C67: calls of the functions for `wchar_t` as they are written

`ReturnsOn w v name args r` is defined in `Verif.Spec.Library`; `w` is `true` if `wchar_t` has 32 bits and `false` if it has 16.
-/

namespace Ansak.Props

open Cpp
open Spec (Arg Runs RunsOn Returns ReturnsOn NulFree textOf Scalar Encodable Surrogate utf8Of utf16Of ucs4Of Utf8Reads
  Utf16Incomplete Text8 Text16 Text32 TextW AllowedW StaysInBounds)

theorem bool_iff {x y : Res Bool} (h : x = y) (b : Bool) : x = .ok b ↔ y = .ok b := by rw [h]

/-! ## C38, 16 bits -/

/-- Validating a wide string for UTF-8, UTF-16 or UCS-4 is validating it as UTF-16, for UCS-2 as UCS-2. -/
theorem C38_text_w16_is (v : Version) (s : List U16) (b : Bool) :
    (ReturnsOn false v (name% "isUtf8") [.wstr16 s] (.bool b) ↔ Returns v (name% "isUtf16") [.str16 s] (.bool b)) ∧
    (ReturnsOn false v (name% "isUtf16") [.wstr16 s] (.bool b) ↔ Returns v (name% "isUtf16") [.str16 s] (.bool b)) ∧
    (ReturnsOn false v (name% "isUcs4") [.wstr16 s] (.bool b) ↔ Returns v (name% "isUtf16") [.str16 s] (.bool b)) ∧
    (ReturnsOn false v (name% "isUcs2") [.wstr16 s] (.bool b) ↔ Returns v (name% "isUcs2") [.str16 s] (.bool b)) := by
  simp only [text_iff]
  obtain ⟨h1, h2, h3⟩ := C38_w16_isUtf16 (Unicode.charClass v) s
  exact ⟨bool_iff h1 b, bool_iff h2 b, bool_iff h3 b, bool_iff (C38_w16_isUcs2 _ s) b⟩

/-- From wide strings: UTF-8 and UCS-4 are the conversions from UTF-16; UTF-16 and UCS-2 are copies of what the validator
accepts, empty otherwise. Missing from C38: null pointers. -/
theorem C38_text_w16_from_partial (v : Version) (s : List U16) :
    (∀ u, ReturnsOn false v (name% "toUtf8") [.wstr16 s] (.str8 u) ↔ Returns v (name% "toUtf8") [.str16 s] (.str8 u)) ∧
    (∀ u, ReturnsOn false v (name% "toUcs4") [.wstr16 s] (.str32 u) ↔ Returns v (name% "toUcs4") [.str16 s] (.str32 u)) ∧
    (∀ b, Returns v (name% "isUtf16") [.str16 s] (.bool b) →
      ReturnsOn false v (name% "toUtf16") [.wstr16 s] (.str16 (if b then textOf s else []))) ∧
    (∀ b, Returns v (name% "isUcs2") [.str16 s] (.bool b) →
      ReturnsOn false v (name% "toUcs2") [.wstr16 s] (.str16 (if b then textOf s else []))) := by
  simp only [text_iff]
  obtain ⟨h1, h2, h3, h4, h5, h6⟩ := C38_w16_from_partial (Unicode.charClass v) s
  refine ⟨fun u => by rw [h1], fun u => by rw [h2], fun b h => ?_, fun b h => ?_⟩
  · cases b
    · exact h4 h
    · exact h3 h
  · cases b
    · exact h6 h
    · exact h5 h

/-- To wide strings: the UTF-16 that the `char16_t` functions give. Missing from C38: null pointers. -/
theorem C38_text_w16_to_partial (v : Version) :
    (∀ s u, ReturnsOn false v (name% "toWstring") [.str8 s] (.wstr16 u) ↔ Returns v (name% "toUtf16") [.str8 s] (.str16 u)) ∧
    (∀ s u, ReturnsOn false v (name% "toWstring") [.str32 s] (.wstr16 u) ↔ Returns v (name% "toUtf16") [.str32 s] (.str16 u)) ∧
    (∀ s b, Returns v (name% "isUtf16") [.str16 s] (.bool b) →
      ReturnsOn false v (name% "toWstring") [.str16 s] (.wstr16 (if b then textOf s else []))) := by
  simp only [text_iff]
  obtain ⟨h1, h2, h3, h4⟩ := C38_w16_to_partial (Unicode.charClass v)
  refine ⟨fun s u => by rw [h1], fun s u => by rw [h2], fun s b h => ?_⟩
  cases b
  · exact h4 s h
  · exact h3 s h

/-- Wide strings of complete UTF-16 survive the trip through each of the other encodings and back. -/
theorem C38_text_w16_round_trip (v : Version) {vs : List Nat} (h : ∀ x ∈ vs, Scalar x) :
    (∃ u, ReturnsOn false v (name% "toUtf8") [.wstr16 (utf16Of vs)] (.str8 u) ∧
      ReturnsOn false v (name% "toWstring") [.str8 u] (.wstr16 (utf16Of vs))) ∧
    (∃ u, ReturnsOn false v (name% "toUcs4") [.wstr16 (utf16Of vs)] (.str32 u) ∧
      ReturnsOn false v (name% "toWstring") [.str32 u] (.wstr16 (utf16Of vs))) ∧
    (∃ u, ReturnsOn false v (name% "toUtf16") [.wstr16 (utf16Of vs)] (.str16 u) ∧
      ReturnsOn false v (name% "toWstring") [.str16 u] (.wstr16 (utf16Of vs))) ∧
    ((∀ x ∈ vs, x ≤ 0xFFFF) → ∃ u, ReturnsOn false v (name% "toUcs2") [.wstr16 (utf16Of vs)] (.str16 u) ∧
      ReturnsOn false v (name% "toWstring") [.str16 u] (.wstr16 (utf16Of vs))) := by
  simp only [text_iff]
  obtain ⟨h1, h2, h3, h4⟩ := C38_w16_round_trip (Unicode.charClass v) h
  exact ⟨bind_eq_ok h1, bind_eq_ok h2, bind_eq_ok h3, fun hb => bind_eq_ok (h4 hb)⟩

/-- Text in the other encodings survives the trip through a wide string. -/
theorem C38_text_w16_round_trip_back (v : Version) {vs : List Nat} (h : ∀ x ∈ vs, Scalar x) :
    (∃ u, ReturnsOn false v (name% "toWstring") [.str8 (utf8Of vs)] (.wstr16 u) ∧
      ReturnsOn false v (name% "toUtf8") [.wstr16 u] (.str8 (utf8Of vs))) ∧
    (∃ u, ReturnsOn false v (name% "toWstring") [.str32 (ucs4Of vs)] (.wstr16 u) ∧
      ReturnsOn false v (name% "toUcs4") [.wstr16 u] (.str32 (ucs4Of vs))) := by
  simp only [text_iff]
  obtain ⟨h1, h2⟩ := C38_w16_round_trip_back h
  exact ⟨bind_eq_ok h1, bind_eq_ok h2⟩

/-- Null pointers to functions that do not change the encoding. -/
theorem C38_text_w16_null_violated (v : Version) :
    RunsOn false v (name% "toUtf16") [.wptr16 none] .ub ∧ RunsOn false v (name% "toUcs2") [.wptr16 none] .ub ∧
    RunsOn false v (name% "toWstring") [.ptr16 none] .ub := by
  simp only [text_iff]
  exact C38_w16_null_violated _

/-! ## C38, 32 bits -/

/-- Validating a wide string for UTF-8, UTF-16 or UCS-4 is validating it as UCS-4 for `kUtf16`, for UCS-2 it is validating
it as UCS-4 for `kUcs2`. -/
theorem C38_text_w32_is (v : Version) (s : List U32) (b : Bool) :
    (ReturnsOn true v (name% "isUtf8") [.wstr s] (.bool b) ↔
      Returns v (name% "isUcs4") [.str32 s, .range kUtf16] (.bool b)) ∧
    (ReturnsOn true v (name% "isUtf16") [.wstr s] (.bool b) ↔
      Returns v (name% "isUcs4") [.str32 s, .range kUtf16] (.bool b)) ∧
    (ReturnsOn true v (name% "isUcs4") [.wstr s] (.bool b) ↔
      Returns v (name% "isUcs4") [.str32 s, .range kUtf16] (.bool b)) ∧
    (ReturnsOn true v (name% "isUcs2") [.wstr s] (.bool b) ↔
      Returns v (name% "isUcs4") [.str32 s, .range kUcs2] (.bool b)) := by
  simp only [text_iff]
  obtain ⟨h1, h2, h3, h4, _⟩ := C38_w32_is (Unicode.charClass v) s
  exact ⟨bool_iff h1 b, bool_iff h2 b, bool_iff h4 b, bool_iff h3 b⟩

/-- From wide strings: UTF-8, UTF-16 and UCS-2 are the conversions from UCS-4; UCS-4 is a copy of what the validator
accepts, empty otherwise. Missing from C38: null pointers. -/
theorem C38_text_w32_from_partial (v : Version) (s : List U32) :
    (∀ u, ReturnsOn true v (name% "toUtf8") [.wstr s] (.str8 u) ↔ Returns v (name% "toUtf8") [.str32 s] (.str8 u)) ∧
    (∀ u, ReturnsOn true v (name% "toUtf16") [.wstr s] (.str16 u) ↔ Returns v (name% "toUtf16") [.str32 s] (.str16 u)) ∧
    (∀ u, ReturnsOn true v (name% "toUcs2") [.wstr s] (.str16 u) ↔ Returns v (name% "toUcs2") [.str32 s] (.str16 u)) ∧
    (∀ b, Returns v (name% "isUcs4") [.str32 s, .range kUtf16] (.bool b) →
      ReturnsOn true v (name% "toUcs4") [.wstr s] (.str32 (if b then textOf s else []))) := by
  simp only [text_iff]
  obtain ⟨h1, h2, h3, h4, h5⟩ := C38_w32_from_partial (Unicode.charClass v) s
  refine ⟨fun u => by rw [h1], fun u => by rw [h2], fun u => by rw [h3], fun b h => ?_⟩
  cases b
  · exact h5 h
  · exact h4 h

/-- To wide strings: the UCS-4 that the `char32_t` functions give. Missing from C38: null pointers. -/
theorem C38_text_w32_to_partial (v : Version) :
    (∀ s u, ReturnsOn true v (name% "toWstring") [.str8 s] (.wstr u) ↔ Returns v (name% "toUcs4") [.str8 s] (.str32 u)) ∧
    (∀ s u, ReturnsOn true v (name% "toWstring") [.str16 s] (.wstr u) ↔ Returns v (name% "toUcs4") [.str16 s] (.str32 u)) ∧
    (∀ s b, Returns v (name% "isUcs4") [.str32 s, .range kUtf16] (.bool b) →
      ReturnsOn true v (name% "toWstring") [.str32 s] (.wstr (if b then textOf s else []))) := by
  simp only [text_iff]
  obtain ⟨h1, h2, h3, h4⟩ := C38_w32_to_partial (Unicode.charClass v)
  refine ⟨fun s u => by rw [h1], fun s u => by rw [h2], fun s b h => ?_⟩
  cases b
  · exact h4 s h
  · exact h3 s h

/-- Wide strings of Unicode characters survive the trip through each of the other encodings and back. -/
theorem C38_text_w32_round_trip (v : Version) {vs : List Nat} (h : ∀ x ∈ vs, Scalar x) :
    (∃ u, ReturnsOn true v (name% "toUtf8") [.wstr (ucs4Of vs)] (.str8 u) ∧
      ReturnsOn true v (name% "toWstring") [.str8 u] (.wstr (ucs4Of vs))) ∧
    (∃ u, ReturnsOn true v (name% "toUtf16") [.wstr (ucs4Of vs)] (.str16 u) ∧
      ReturnsOn true v (name% "toWstring") [.str16 u] (.wstr (ucs4Of vs))) ∧
    (∃ u, ReturnsOn true v (name% "toUcs4") [.wstr (ucs4Of vs)] (.str32 u) ∧
      ReturnsOn true v (name% "toWstring") [.str32 u] (.wstr (ucs4Of vs))) ∧
    ((∀ x ∈ vs, x ≤ 0xFFFF) → ∃ u, ReturnsOn true v (name% "toUcs2") [.wstr (ucs4Of vs)] (.str16 u) ∧
      ReturnsOn true v (name% "toWstring") [.str16 u] (.wstr (ucs4Of vs))) := by
  simp only [text_iff]
  obtain ⟨h1, h2, h3, h4⟩ := C38_w32_round_trip (Unicode.charClass v) h
  exact ⟨bind_eq_ok h1, bind_eq_ok h2, bind_eq_ok h3, fun hb => bind_eq_ok (h4 hb)⟩

/-- Text in the other encodings survives the trip through a wide string. -/
theorem C38_text_w32_round_trip_back (v : Version) {vs : List Nat} :
    ((∀ x ∈ vs, Encodable x) → ∃ u, ReturnsOn true v (name% "toWstring") [.str8 (utf8Of vs)] (.wstr u) ∧
      ReturnsOn true v (name% "toUtf8") [.wstr u] (.str8 (utf8Of vs))) ∧
    ((∀ x ∈ vs, Scalar x) → ∃ u, ReturnsOn true v (name% "toWstring") [.str16 (utf16Of vs)] (.wstr u) ∧
      ReturnsOn true v (name% "toUtf16") [.wstr u] (.str16 (utf16Of vs))) := by
  simp only [text_iff]
  exact ⟨fun h => bind_eq_ok (C38_w32_round_trip_back.1 h), fun h => bind_eq_ok (C38_w32_round_trip_back.2 h)⟩

theorem C38_text_w32_null_violated (v : Version) :
    RunsOn true v (name% "toUcs4") [.wptr none] .ub ∧ RunsOn true v (name% "toWstring") [.ptr32 none] .ub := by
  simp only [text_iff]
  exact C38_w32_null_violated _

/-! ## C38, both -/

/-- Accepted as UTF-16 and not converted to UTF-16; accepted for a wide string and not converted to one. -/
theorem C38_text_accepted_violated (v : Version) :
    ReturnsOn true v (name% "isUtf16") [.wstr [0x110000]] (.bool true) ∧
    ReturnsOn true v (name% "toUtf16") [.wstr [0x110000]] (.str16 []) ∧
    ReturnsOn false v (name% "isWstring") [.str8 [0xF4, 0x90, 0x80, 0x80]] (.bool true) ∧
    ReturnsOn false v (name% "toWstring") [.str8 [0xF4, 0x90, 0x80, 0x80]] (.wstr16 []) := by
  have h := C38_accepted_violated (Unicode.charClass v)
  exact ⟨returns_w32_isUtf16_SW.2 h.1, returns_w32_toUtf16_SW.2 h.2.1, returns_w16_isWstring_S8.2 h.2.2.1,
    returns_w16_toWstring_S8.2 h.2.2.2⟩

/-- `isWstring` accepts the same on both platforms: UTF-8 below 0x140000, UTF-16, and UCS-4 below 0x200000 without
surrogates. Missing from C38: what is above U+10FFFF should not be accepted. -/
theorem C38_text_isWstring_partial (v : Version) (w : Bool) :
    (∀ s, ∃ b, ReturnsOn w v (name% "isWstring") [.str8 s] (.bool b) ∧
      (b = true ↔ ∃ vs t, Utf8Reads (textOf s) vs t ∧ (∀ x ∈ vs, x ≤ 0x13FFFF) ∧ ∀ b ∈ t.head?, b.toNat ≤ 0xF4)) ∧
    (∀ s, ∃ b, ReturnsOn w v (name% "isWstring") [.str16 s] (.bool b) ∧
      (b = true ↔ ∃ vs t, textOf s = utf16Of vs ++ t ∧ (∀ x ∈ vs, Scalar x) ∧ (t = [] ∨ Utf16Incomplete t))) ∧
    (∀ s, ∃ b, ReturnsOn w v (name% "isWstring") [.str32 s] (.bool b) ∧
      (b = true ↔ ∀ c ∈ textOf s, c.toNat ≤ 0x1FFFFF ∧ ¬ Surrogate c.toNat)) := by
  refine ⟨fun s => ?_, fun s => ?_, fun s => ?_⟩
  · obtain ⟨b, h1, h2, h⟩ := C38_isWstring8_partial (Unicode.charClass v) s
    refine ⟨b, ?_, h⟩
    cases w
    · exact returns_w16_isWstring_S8.2 h1
    · exact returns_w32_isWstring_S8.2 h2
  · obtain ⟨b, h1, h2, h⟩ := C38_isWstring16 (Unicode.charClass v) s
    refine ⟨b, ?_, h⟩
    cases w
    · exact returns_w16_isWstring_S16.2 h1
    · exact returns_w32_isWstring_S16.2 h2
  · obtain ⟨b, h1, h2, h⟩ := C38_isWstring32_partial (Unicode.charClass v) s
    refine ⟨b, ?_, h⟩
    cases w
    · exact returns_w16_isWstring_S32.2 h1
    · exact returns_w32_isWstring_S32.2 h2

example (v : Version) : ∃ u, ReturnsOn false v (name% "toUtf8") [.wstr16 [0x41, 0xD83D, 0xDE00]] (.str8 u) ∧
    ReturnsOn false v (name% "toWstring") [.str8 u] (.wstr16 [0x41, 0xD83D, 0xDE00]) :=
  (C38_text_w16_round_trip v (vs := [0x41, 0x1F600]) (by decide)).1

example (v : Version) : ∃ u, ReturnsOn true v (name% "toUtf16") [.wstr [0x41, 0x1F600]] (.str16 u) ∧
    ReturnsOn true v (name% "toWstring") [.str16 u] (.wstr [0x41, 0x1F600]) :=
  (C38_text_w32_round_trip v (vs := [0x41, 0x1F600]) (by decide)).2.1

/-! ## C67: no undefined behaviour -/

theorem runsOn_ok {α : Type} {w : Bool} {v : Version} {name : Nat} {args : List Arg} {x : Res α} {f : α → Arg}
    (h : RunsOn w v name args (x.map f)) (hx : ∃ a, x = .ok a) : ∃ r, ReturnsOn w v name args r := by
  obtain ⟨a, rfl⟩ := hx
  exact ⟨f a, h⟩

/-- Every call that is allowed terminates and returns a value. -/
theorem C67_wide_defined (v : Version) {w : Bool} {name : Nat} {args : List Arg} (h : AllowedW w name args) :
    ∃ r, ReturnsOn w v name args r := by
  obtain ⟨a_isUtf8, a_isUtf16, a_isUcs2, a_isUcs4, a_isWstring8, a_isWstring16, a_isWstring32, a_toUtf8, a_toUtf16, a_toUcs2, a_toUcs4, a_toWstring8, a_toWstring16, a_toWstring32⟩ := C38_w16_in_bounds (Unicode.charClass v)
  obtain ⟨b_isUtf8, b_isUtf16, b_isUcs2, b_isUcs4, b_isWstring8, b_isWstring16, b_isWstring32, b_toUtf8, b_toUtf16, b_toUcs2, b_toUcs4, b_toWstring8, b_toWstring16, b_toWstring32⟩ := C38_w32_in_bounds (Unicode.charClass v)
  cases h with
  | isUtf8 ha =>
    cases ha with
    | string32 s => exact runsOn_ok (C67_w32_isUtf8_SW v s) (defined_string b_isUtf8 s)
    | string16 s => exact runsOn_ok (C67_w16_isUtf8_SW v s) (defined_string a_isUtf8 s)
    | null32 => exact runsOn_ok (C67_w32_isUtf8_PW v none) ⟨_, rfl⟩
    | null16 => exact runsOn_ok (C67_w16_isUtf8_PW v none) ⟨_, rfl⟩
    | buffer32 h => exact runsOn_ok (C67_w32_isUtf8_PW v _) (defined_buffer b_isUtf8 h)
    | buffer16 h => exact runsOn_ok (C67_w16_isUtf8_PW v _) (defined_buffer a_isUtf8 h)
  | isUtf16 ha =>
    cases ha with
    | string32 s => exact runsOn_ok (C67_w32_isUtf16_SW v s) (defined_string b_isUtf16 s)
    | string16 s => exact runsOn_ok (C67_w16_isUtf16_SW v s) (defined_string a_isUtf16 s)
    | null32 => exact runsOn_ok (C67_w32_isUtf16_PW v none) ⟨_, rfl⟩
    | null16 => exact runsOn_ok (C67_w16_isUtf16_PW v none) ⟨_, rfl⟩
    | buffer32 h => exact runsOn_ok (C67_w32_isUtf16_PW v _) (defined_buffer b_isUtf16 h)
    | buffer16 h => exact runsOn_ok (C67_w16_isUtf16_PW v _) (defined_buffer a_isUtf16 h)
  | isUcs2 ha =>
    cases ha with
    | string32 s => exact runsOn_ok (C67_w32_isUcs2_SW v s) (defined_string b_isUcs2 s)
    | string16 s => exact runsOn_ok (C67_w16_isUcs2_SW v s) (defined_string a_isUcs2 s)
    | null32 => exact runsOn_ok (C67_w32_isUcs2_PW v none) ⟨_, rfl⟩
    | null16 => exact runsOn_ok (C67_w16_isUcs2_PW v none) ⟨_, rfl⟩
    | buffer32 h => exact runsOn_ok (C67_w32_isUcs2_PW v _) (defined_buffer b_isUcs2 h)
    | buffer16 h => exact runsOn_ok (C67_w16_isUcs2_PW v _) (defined_buffer a_isUcs2 h)
  | isUcs4 ha =>
    cases ha with
    | string32 s => exact runsOn_ok (C67_w32_isUcs4_SW v s) (defined_string b_isUcs4 s)
    | string16 s => exact runsOn_ok (C67_w16_isUcs4_SW v s) (defined_string a_isUcs4 s)
    | null32 => exact runsOn_ok (C67_w32_isUcs4_PW v none) ⟨_, rfl⟩
    | null16 => exact runsOn_ok (C67_w16_isUcs4_PW v none) ⟨_, rfl⟩
    | buffer32 h => exact runsOn_ok (C67_w32_isUcs4_PW v _) (defined_buffer b_isUcs4 h)
    | buffer16 h => exact runsOn_ok (C67_w16_isUcs4_PW v _) (defined_buffer a_isUcs4 h)
  | isWstring8 ha =>
    cases w
    · cases ha with
      | string s => exact runsOn_ok (C67_w16_isWstring_S8 v s) (defined_string a_isWstring8 s)
      | null => exact runsOn_ok (C67_w16_isWstring_P8 v none) ⟨_, rfl⟩
      | buffer h => exact runsOn_ok (C67_w16_isWstring_P8 v _) (defined_buffer a_isWstring8 h)
    · cases ha with
      | string s => exact runsOn_ok (C67_w32_isWstring_S8 v s) (defined_string b_isWstring8 s)
      | null => exact runsOn_ok (C67_w32_isWstring_P8 v none) ⟨_, rfl⟩
      | buffer h => exact runsOn_ok (C67_w32_isWstring_P8 v _) (defined_buffer b_isWstring8 h)
  | isWstring16 ha =>
    cases w
    · cases ha with
      | string s => exact runsOn_ok (C67_w16_isWstring_S16 v s) (defined_string a_isWstring16 s)
      | null => exact runsOn_ok (C67_w16_isWstring_P16 v none) ⟨_, rfl⟩
      | buffer h => exact runsOn_ok (C67_w16_isWstring_P16 v _) (defined_buffer a_isWstring16 h)
    · cases ha with
      | string s => exact runsOn_ok (C67_w32_isWstring_S16 v s) (defined_string b_isWstring16 s)
      | null => exact runsOn_ok (C67_w32_isWstring_P16 v none) ⟨_, rfl⟩
      | buffer h => exact runsOn_ok (C67_w32_isWstring_P16 v _) (defined_buffer b_isWstring16 h)
  | isWstring32 ha =>
    cases w
    · cases ha with
      | string s => exact runsOn_ok (C67_w16_isWstring_S32 v s) (defined_string a_isWstring32 s)
      | null => exact runsOn_ok (C67_w16_isWstring_P32 v none) ⟨_, rfl⟩
      | buffer h => exact runsOn_ok (C67_w16_isWstring_P32 v _) (defined_buffer a_isWstring32 h)
    · cases ha with
      | string s => exact runsOn_ok (C67_w32_isWstring_S32 v s) (defined_string b_isWstring32 s)
      | null => exact runsOn_ok (C67_w32_isWstring_P32 v none) ⟨_, rfl⟩
      | buffer h => exact runsOn_ok (C67_w32_isWstring_P32 v _) (defined_buffer b_isWstring32 h)
  | toUtf8 ha =>
    cases ha with
    | string32 s => exact runsOn_ok (C67_w32_toUtf8_SW v s) (defined_string b_toUtf8 s)
    | string16 s => exact runsOn_ok (C67_w16_toUtf8_SW v s) (defined_string a_toUtf8 s)
    | null32 => exact runsOn_ok (C67_w32_toUtf8_PW v none) ⟨_, rfl⟩
    | null16 => exact runsOn_ok (C67_w16_toUtf8_PW v none) ⟨_, rfl⟩
    | buffer32 h => exact runsOn_ok (C67_w32_toUtf8_PW v _) (defined_buffer b_toUtf8 h)
    | buffer16 h => exact runsOn_ok (C67_w16_toUtf8_PW v _) (defined_buffer a_toUtf8 h)
  | toUtf16 ha hn =>
    cases ha with
    | string32 s => exact runsOn_ok (C67_w32_toUtf16_SW v s) (defined_string b_toUtf16 s)
    | string16 s => exact runsOn_ok (C67_w16_toUtf16_SW v s) (defined_string a_toUtf16 s)
    | null32 => exact runsOn_ok (C67_w32_toUtf16_PW v none) ⟨_, rfl⟩
    | null16 => exact absurd rfl (hn rfl)
    | buffer32 h => exact runsOn_ok (C67_w32_toUtf16_PW v _) (defined_buffer b_toUtf16 h)
    | buffer16 h => exact runsOn_ok (C67_w16_toUtf16_PW v _) (defined_buffer a_toUtf16 h)
  | toUcs2 ha hn =>
    cases ha with
    | string32 s => exact runsOn_ok (C67_w32_toUcs2_SW v s) (defined_string b_toUcs2 s)
    | string16 s => exact runsOn_ok (C67_w16_toUcs2_SW v s) (defined_string a_toUcs2 s)
    | null32 => exact runsOn_ok (C67_w32_toUcs2_PW v none) ⟨_, rfl⟩
    | null16 => exact absurd rfl (hn rfl)
    | buffer32 h => exact runsOn_ok (C67_w32_toUcs2_PW v _) (defined_buffer b_toUcs2 h)
    | buffer16 h => exact runsOn_ok (C67_w16_toUcs2_PW v _) (defined_buffer a_toUcs2 h)
  | toUcs4 ha hn =>
    cases ha with
    | string32 s => exact runsOn_ok (C67_w32_toUcs4_SW v s) (defined_string b_toUcs4 s)
    | string16 s => exact runsOn_ok (C67_w16_toUcs4_SW v s) (defined_string a_toUcs4 s)
    | null32 => exact absurd rfl (hn rfl)
    | null16 => exact runsOn_ok (C67_w16_toUcs4_PW v none) ⟨_, rfl⟩
    | buffer32 h => exact runsOn_ok (C67_w32_toUcs4_PW v _) (defined_buffer b_toUcs4 h)
    | buffer16 h => exact runsOn_ok (C67_w16_toUcs4_PW v _) (defined_buffer a_toUcs4 h)
  | toWstring8 ha =>
    cases w
    · cases ha with
      | string s => exact runsOn_ok (C67_w16_toWstring_S8 v s) (defined_string a_toWstring8 s)
      | null => exact runsOn_ok (C67_w16_toWstring_P8 v none) ⟨_, rfl⟩
      | buffer h => exact runsOn_ok (C67_w16_toWstring_P8 v _) (defined_buffer a_toWstring8 h)
    · cases ha with
      | string s => exact runsOn_ok (C67_w32_toWstring_S8 v s) (defined_string b_toWstring8 s)
      | null => exact runsOn_ok (C67_w32_toWstring_P8 v none) ⟨_, rfl⟩
      | buffer h => exact runsOn_ok (C67_w32_toWstring_P8 v _) (defined_buffer b_toWstring8 h)
  | toWstring16 ha hn =>
    cases w
    · cases ha with
      | string s => exact runsOn_ok (C67_w16_toWstring_S16 v s) (defined_string a_toWstring16 s)
      | null => exact absurd rfl (hn rfl)
      | buffer h => exact runsOn_ok (C67_w16_toWstring_P16 v _) (defined_buffer a_toWstring16 h)
    · cases ha with
      | string s => exact runsOn_ok (C67_w32_toWstring_S16 v s) (defined_string b_toWstring16 s)
      | null => exact runsOn_ok (C67_w32_toWstring_P16 v none) ⟨_, rfl⟩
      | buffer h => exact runsOn_ok (C67_w32_toWstring_P16 v _) (defined_buffer b_toWstring16 h)
  | toWstring32 ha hn =>
    cases w
    · cases ha with
      | string s => exact runsOn_ok (C67_w16_toWstring_S32 v s) (defined_string a_toWstring32 s)
      | null => exact runsOn_ok (C67_w16_toWstring_P32 v none) ⟨_, rfl⟩
      | buffer h => exact runsOn_ok (C67_w16_toWstring_P32 v _) (defined_buffer a_toWstring32 h)
    · cases ha with
      | string s => exact runsOn_ok (C67_w32_toWstring_S32 v s) (defined_string b_toWstring32 s)
      | null => exact absurd rfl (hn rfl)
      | buffer h => exact runsOn_ok (C67_w32_toWstring_P32 v _) (defined_buffer b_toWstring32 h)

example : AllowedW false (name% "toUtf8") [.wptr16 (some [0x41, 0xD83D, 0, 0x42])] ∧
    AllowedW true (name% "toWstring") [.ptr16 none] :=
  ⟨.toUtf8 (.buffer16 (by decide)), .toWstring16 .null (fun h => nomatch h)⟩

end Ansak.Props
