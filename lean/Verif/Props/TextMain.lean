import Verif.Lemmas.Cpp.Returns
import Verif.Props.Utf8
import Verif.Props.Convert
import Verif.Props.Validate
import Verif.Props.Count
import Verif.Props.Unicode
import Verif.Props.LowerText

/-!
# The properties of the functions as they are written

The theorems of the other files speak of the hand-written model. Those here speak of calls of the text of the library,
linked with the text of the tables of a version of Unicode: `Returns v name args r` is defined in `Verif.Spec.Library`.
-/

namespace Ansak.Props

open Spec (Arg Runs RunsMember Returns NulFree Utf8Text Encodable Scalar Bmp Utf8Incomplete Utf8Reads Truncated
  Malformed Surrogate utf8Of ucs4Of utf16Of ucs2Of textOf Utf16Incomplete Lang Turkic)

/-! ## C01 to C09: encodings -/

/-- `toUcs4(const char*)` of a buffer with a NUL. -/
theorem C01_text (v : Version) {s : List Byte} (hs : NulFree s) (post : List Byte) :
    (∀ vs t, Utf8Reads s vs t → Returns v (name% "toUcs4") [.ptr8 (some (s ++ 0 :: post))] (.str32 (ucs4Of vs))) ∧
    ((¬ ∃ vs t, Utf8Reads s vs t) → Returns v (name% "toUcs4") [.ptr8 (some (s ++ 0 :: post))] (.str32 [])) := by
  simp only [text_iff]
  exact C01_toUcs4_exact hs post

/-- `isUtf8(const char*, RangeType)` of a buffer with a NUL. -/
theorem C02_text_partial (v : Version) {r : Spec.Range} (hr : r ≠ .utf16) {s : List Byte} (hs : NulFree s)
    (post : List Byte) :
    ∃ b, Returns v (name% "isUtf8") [.ptr8 (some (s ++ 0 :: post)), .range r.code] (.bool b) ∧
      (b = true ↔ ∃ vs t, Utf8Reads s vs t ∧ (∀ v ∈ vs, r.Has v) ∧ ∀ b ∈ t.head?, b.toNat ≤ r.maxLead) := by
  simp only [text_iff]
  exact C02_isUtf8_partial _ hr hs post

theorem C02_text_utf16_partial (v : Version) {s : List Byte} (hs : NulFree s) (post : List Byte) :
    ∃ b, Returns v (name% "isUtf8") [.ptr8 (some (s ++ 0 :: post)), .range Spec.Range.utf16.code] (.bool b) ∧
      (b = true ↔ ∃ vs t, Utf8Reads s vs t ∧ (∀ v ∈ vs, v ≤ 0x13FFFF) ∧ ∀ b ∈ t.head?, b.toNat ≤ 0xF4) := by
  simp only [text_iff]
  exact C02_isUtf8_utf16_partial _ hs post

/-- Not the character of four bytes but one beyond Unicode, and it is accepted as UTF-16. -/
theorem C02_text_utf16_violated (v : Version) :
    Utf8Text [0xF4, 0x90, 0x80, 0x80] [0x110000] ∧ ¬ Spec.Range.utf16.Has 0x110000 ∧
    Returns v (name% "isUtf8") [.ptr8 (some [0xF4, 0x90, 0x80, 0x80, 0]), .range kUtf16] (.bool true) := by
  simp only [text_iff]
  exact C02_utf16_violated _

theorem C03_text (v : Version) {s : List U32} (h : ∀ c ∈ s, Encodable c.toNat) :
    ∃ u, Returns v (name% "toUtf8") [.str32 s] (.str8 u) ∧ Returns v (name% "toUcs4") [.str8 u] (.str32 s) := by
  simp only [text_iff]
  exact bind_eq_ok (C03_ucs4_roundtrip h)

theorem C04_text (v : Version) {vs : List Nat} (h : ∀ v ∈ vs, Encodable v) :
    ∃ u, Returns v (name% "toUcs4") [.str8 (utf8Of vs)] (.str32 u) ∧
      Returns v (name% "toUtf8") [.str32 u] (.str8 (utf8Of vs)) := by
  simp only [text_iff]
  exact bind_eq_ok (C04_canonical_roundtrip h)

/-- A text that `isUtf8` accepts, and its characters in their standard form. -/
theorem C04_text_canonicalises (v : Version) {s : List Byte} (hs : NulFree s)
    (h : Returns v (name% "isUtf8") [.str8 s] (.bool true)) :
    ∃ vs t u, Utf8Reads s vs t ∧ Returns v (name% "toUcs4") [.str8 s] (.str32 u) ∧
      Returns v (name% "toUtf8") [.str32 u] (.str8 (utf8Of vs)) := by
  simp only [text_iff] at h ⊢
  obtain ⟨vs, t, hr, h1, _⟩ := C04_canonicalises _ hs h
  obtain ⟨u, hu⟩ := bind_eq_ok h1
  exact ⟨vs, t, u, hr, hu⟩

theorem C05_text (v : Version) {vs : List Nat} (h : ∀ v ∈ vs, Scalar v) :
    (∃ u, Returns v (name% "toUtf8") [.str16 (utf16Of vs)] (.str8 u) ∧
      Returns v (name% "toUtf16") [.str8 u] (.str16 (utf16Of vs))) ∧
    (∃ u, Returns v (name% "toUcs4") [.str16 (utf16Of vs)] (.str32 u) ∧
      Returns v (name% "toUtf16") [.str32 u] (.str16 (utf16Of vs))) := by
  simp only [text_iff]
  exact ⟨bind_eq_ok (C05_utf16_via_utf8 h), bind_eq_ok (C05_utf16_via_ucs4 h)⟩

theorem C06_text (v : Version) {s : List U16} (h : ∀ c ∈ s, Bmp c.toNat) :
    (∃ u, Returns v (name% "toUtf8") [.str16 s] (.str8 u) ∧ Returns v (name% "toUcs2") [.str8 u] (.str16 s)) ∧
    (∃ u, Returns v (name% "toUcs4") [.str16 s] (.str32 u) ∧ Returns v (name% "toUcs2") [.str32 u] (.str16 s)) := by
  simp only [text_iff]
  exact ⟨bind_eq_ok (C06_ucs2_via_utf8 h), bind_eq_ok (C06_ucs2_via_ucs4 h)⟩

/-- Directly from UTF-8 to UTF-16 or UCS-2, or by way of UCS-4. -/
theorem C07_text (v : Version) (s : List Byte) :
    ∃ u, Returns v (name% "toUcs4") [.str8 s] (.str32 u) ∧
      (∀ t, Returns v (name% "toUtf16") [.str8 s] (.str16 t) ↔ Returns v (name% "toUtf16") [.str32 u] (.str16 t)) ∧
      (∀ t, Returns v (name% "toUcs2") [.str8 s] (.str16 t) ↔ Returns v (name% "toUcs2") [.str32 u] (.str16 t)) := by
  simp only [text_iff]
  obtain ⟨u, hu⟩ := defined_string C10_from_utf8.1 s
  have hu : toUcs4From8S s = .ok u := hu
  refine ⟨u, hu, fun t => ?_, fun t => ?_⟩
  · rw [C07_utf8_to_utf16, hu, Res.bind_ok]
  · rw [C07_utf8_to_ucs2, hu, Res.bind_ok]

theorem C07_text_utf16 (v : Version) (r : Spec.Range) (q : Pred) (s : List U16)
    (h : Returns v (name% "isUtf16") [.str16 s, .range r.code, .pred q] (.bool true)) :
    ∃ u, Returns v (name% "toUcs4") [.str16 s] (.str32 u) ∧
      ∀ t, Returns v (name% "toUtf8") [.str16 s] (.str8 t) ↔ Returns v (name% "toUtf8") [.str32 u] (.str8 t) := by
  simp only [text_iff] at h ⊢
  obtain ⟨u, hu⟩ := defined_string C10_from_utf16.1 s
  have hu : toUcs4From16S s = .ok u := hu
  refine ⟨u, hu, fun t => ?_⟩
  rw [C07_utf16_to_utf8 _ r q s h, hu, Res.bind_ok]

theorem C08_text_utf8 (v : Version) (q : Pred) (s : List Byte) :
    (Returns v (name% "isUtf8") [.str8 s, .range kUcs2, .pred q] (.bool true) →
      ∃ vs t, Utf8Reads (textOf s) vs t ∧ Returns v (name% "toUcs2") [.str8 s] (.str16 (ucs2Of vs))) ∧
    (∀ r : Spec.Range, Returns v (name% "isUtf8") [.str8 s, .range r.code, .pred q] (.bool true) →
      ∃ vs t, Utf8Reads (textOf s) vs t ∧ Returns v (name% "toUcs4") [.str8 s] (.str32 (ucs4Of vs))) ∧
    (Returns v (name% "isUtf8") [.str8 s, .range kUnicode, .pred q] (.bool true) →
      ∃ vs t, Utf8Reads (textOf s) vs t ∧ Returns v (name% "toUtf16") [.str8 s] (.str16 (utf16Of vs))) := by
  simp only [text_iff]
  exact ⟨C08_utf8_to_ucs2 _ q s, fun r => C08_utf8_to_ucs4 _ q r s, C08_utf8_to_utf16_unicode _ q s⟩

theorem C08_text_utf16 (v : Version) (q : Pred) (r : Spec.Range) (s : List U16)
    (h : Returns v (name% "isUtf16") [.str16 s, .range r.code, .pred q] (.bool true)) :
    ∃ vs t, textOf s = utf16Of vs ++ t ∧ (∀ v ∈ vs, Scalar v) ∧ (t = [] ∨ Utf16Incomplete t) ∧
      Returns v (name% "toUtf8") [.str16 s] (.str8 (utf8Of vs)) ∧
      Returns v (name% "toUcs4") [.str16 s] (.str32 (ucs4Of vs)) := by
  simp only [text_iff] at h ⊢
  exact C08_utf16_to_utf8_and_ucs4 _ q r s h

theorem C08_text_ucs4 (v : Version) (q : Pred) (s : List U32) :
    (Returns v (name% "isUcs4") [.str32 s, .range kUtf8, .pred q] (.bool true) →
      Returns v (name% "toUtf8") [.str32 s] (.str8 (utf8Of (vals (textOf s))))) ∧
    (Returns v (name% "isUcs4") [.str32 s, .range kUcs2, .pred q] (.bool true) →
      Returns v (name% "toUcs2") [.str32 s] (.str16 (ucs2Of (vals (textOf s))))) ∧
    (Returns v (name% "isUcs4") [.str32 s, .range kUnicode, .pred q] (.bool true) →
      Returns v (name% "toUtf16") [.str32 s] (.str16 (utf16Of (vals (textOf s))))) := by
  simp only [text_iff]
  exact ⟨C08_ucs4_to_utf8 _ q s, C08_ucs4_to_ucs2 _ q s, C08_ucs4_to_utf16_unicode _ q s⟩

/-- Accepted as UTF-16 and yet not converted to it. -/
theorem C08_text_utf16_violated (v : Version) :
    Returns v (name% "isUtf8") [.str8 [0xF4, 0x90, 0x80, 0x80], .range kUtf16] (.bool true) ∧
    Returns v (name% "toUtf16") [.str8 [0xF4, 0x90, 0x80, 0x80]] (.str16 []) ∧
    Returns v (name% "isUcs4") [.str32 [0x1FFFFF], .range kUtf16] (.bool true) ∧
    Returns v (name% "toUtf16") [.str32 [0x1FFFFF]] (.str16 []) := by
  simp only [text_iff]
  have h := C08_utf8_to_utf16_violated (Unicode.charClass v)
  have h' := C08_ucs4_to_utf16_violated (Unicode.charClass v)
  exact ⟨h.1, h.2, h'.1, h'.2⟩

/-- What a conversion returns is accepted. -/
theorem C09_text (v : Version) :
    (∀ s : List U32, ∃ o, Returns v (name% "toUtf8") [.str32 s] (.str8 o) ∧
      Returns v (name% "isUtf8") [.str8 o] (.bool true)) ∧
    (∀ s : List Byte, ∃ o, Returns v (name% "toUtf16") [.str8 s] (.str16 o) ∧
      Returns v (name% "isUtf16") [.str16 o] (.bool true)) ∧
    (∀ s : List U32, ∃ o, Returns v (name% "toUtf16") [.str32 s] (.str16 o) ∧
      Returns v (name% "isUtf16") [.str16 o] (.bool true)) ∧
    (∀ s : List Byte, ∃ o, Returns v (name% "toUcs2") [.str8 s] (.str16 o) ∧
      Returns v (name% "isUcs2") [.str16 o] (.bool true)) ∧
    (∀ s : List U32, ∃ o, Returns v (name% "toUcs2") [.str32 s] (.str16 o) ∧
      Returns v (name% "isUcs2") [.str16 o] (.bool true)) ∧
    (∀ s : List Byte, ∃ o, Returns v (name% "toUcs4") [.str8 s] (.str32 o) ∧
      Returns v (name% "isUcs4") [.str32 o] (.bool true)) ∧
    (∀ s : List U16, ∃ o, Returns v (name% "toUcs4") [.str16 s] (.str32 o) ∧
      Returns v (name% "isUcs4") [.str32 o] (.bool true)) := by
  simp only [text_iff]
  exact ⟨C09_ucs4_to_utf8 _, C09_utf8_to_utf16 _, C09_ucs4_to_utf16 _, C09_utf8_to_ucs2 _, C09_ucs4_to_ucs2 _,
    C09_utf8_to_ucs4 _, C09_utf16_to_ucs4 _⟩

/-- A second half alone becomes three bytes that are not accepted. -/
theorem C09_text_utf16_to_utf8_violated (v : Version) :
    Returns v (name% "toUtf8") [.str16 [0xDC00]] (.str8 [0xED, 0xB0, 0x80]) ∧
    Returns v (name% "isUtf8") [.str8 [0xED, 0xB0, 0x80]] (.bool false) := by
  simp only [text_iff]
  exact C09_utf16_to_utf8_violated _

/-! ## C10 to C14: bounds, NULs and null pointers -/

/-- Memory after the NUL changes nothing. -/
theorem C10_text (v : Version) {s : List Byte} (hs : NulFree s) (post : List Byte) (t : Int) (q : Pred) :
    (∃ b, Returns v (name% "isUtf8") [.ptr8 (some (s ++ [0])), .range t, .pred q] (.bool b) ∧
      Returns v (name% "isUtf8") [.ptr8 (some (s ++ 0 :: post)), .range t, .pred q] (.bool b)) ∧
    (∃ u, Returns v (name% "toUcs4") [.ptr8 (some (s ++ [0]))] (.str32 u) ∧
      Returns v (name% "toUcs4") [.ptr8 (some (s ++ 0 :: post))] (.str32 u)) ∧
    (∃ u, Returns v (name% "toUtf16") [.ptr8 (some (s ++ [0]))] (.str16 u) ∧
      Returns v (name% "toUtf16") [.ptr8 (some (s ++ 0 :: post))] (.str16 u)) ∧
    (∃ u, Returns v (name% "toUcs2") [.ptr8 (some (s ++ [0]))] (.str16 u) ∧
      Returns v (name% "toUcs2") [.ptr8 (some (s ++ 0 :: post))] (.str16 u)) ∧
    (∃ n, Returns v (name% "unicodeLength") [.ptr8 (some (s ++ [0]))] (.uint n) ∧
      Returns v (name% "unicodeLength") [.ptr8 (some (s ++ 0 :: post))] (.uint n)) := by
  simp only [text_iff]
  have key {β : Type} {f : Ptr Byte → Res β} (h : Spec.StaysInBounds f) :
      ∃ r, f (some (s ++ [0])) = .ok r ∧ f (some (s ++ 0 :: post)) = .ok r :=
    (h s hs).imp fun _ h => ⟨h.1, h.2 post⟩
  exact ⟨key (C10_isUtf8 _ t q), key C10_from_utf8.1, key C10_from_utf8.2.1, key C10_from_utf8.2.2,
    key C10_unicodeLength.1⟩

/-- With a length the functions can read one element further than it says. -/
theorem C11_text_violated (v : Version) :
    Runs v (name% "isUtf8") [.ptr8 (some [0xE0, 0xA0]), .uint 2] .ub ∧
    Runs v (name% "unicodeLength") [.ptr8 (some [0xE0, 0xA0]), .uint 2] .ub ∧
    Runs v (name% "unicodeLength") [.ptr16 (some [0x41]), .uint 1] .ub := by
  simp only [text_iff]
  exact C11_violated _ _

/-- If there is one element more, then they do not. -/
theorem C11_text_partial (v : Version) {n : U32} (hn : n ≠ 0) (q : Pred) :
    (∀ p : List Byte, n.toNat = p.length → ∃ b, ∀ x, x ≠ [] →
      Returns v (name% "isUtf8") [.ptr8 (some (p ++ x)), .uint n, .pred q] (.bool b)) ∧
    (∀ p : List Byte, n.toNat = p.length → ∃ m, ∀ x, x ≠ [] →
      Returns v (name% "unicodeLength") [.ptr8 (some (p ++ x)), .uint n] (.uint m)) ∧
    (∀ p : List U16, n.toNat = p.length → ∃ m, ∀ x, x ≠ [] →
      Returns v (name% "unicodeLength") [.ptr16 (some (p ++ x)), .uint n] (.uint m)) ∧
    (∀ p : List U32, n.toNat = p.length → ∃ m, ∀ x,
      Returns v (name% "unicodeLength") [.ptr32 (some (p ++ x)), .uint n] (.uint m)) := by
  simp only [text_iff]
  refine ⟨fun p hp => ?_, fun p hp => ?_, fun p hp => ?_, fun p hp => C11_unicodeLength32 hn hp⟩
  · exact (C11_isUtf8_partial _ q hn hp).imp fun _ h x hx => h x fun _ => hx
  · exact (C11_unicodeLength8_partial hn hp).imp fun _ h x hx => h x fun _ => hx
  · exact (C11_unicodeLength16_partial hn hp).imp fun _ h x hx => h x fun _ => hx

/-- What is after the first NUL of a string changes nothing. -/
theorem C12_text (v : Version) (s : List Byte) (s16 : List U16) (s32 : List U32) (t : Int) (q : Pred) (x : Res Arg) :
    (Runs v (name% "isUtf8") [.str8 s, .range t, .pred q] x ↔
      Runs v (name% "isUtf8") [.str8 (textOf s), .range t, .pred q] x) ∧
    (Runs v (name% "isUtf16") [.str16 s16, .range t, .pred q] x ↔
      Runs v (name% "isUtf16") [.str16 (textOf s16), .range t, .pred q] x) ∧
    (Runs v (name% "isUcs2") [.str16 s16, .range t, .pred q] x ↔
      Runs v (name% "isUcs2") [.str16 (textOf s16), .range t, .pred q] x) ∧
    (Runs v (name% "isUcs4") [.str32 s32, .range t, .pred q] x ↔
      Runs v (name% "isUcs4") [.str32 (textOf s32), .range t, .pred q] x) ∧
    (Runs v (name% "toUtf16") [.str8 s] x ↔ Runs v (name% "toUtf16") [.str8 (textOf s)] x) ∧
    (Runs v (name% "toUcs2") [.str8 s] x ↔ Runs v (name% "toUcs2") [.str8 (textOf s)] x) ∧
    (Runs v (name% "toUcs4") [.str8 s] x ↔ Runs v (name% "toUcs4") [.str8 (textOf s)] x) ∧
    (Runs v (name% "toUtf8") [.str16 s16] x ↔ Runs v (name% "toUtf8") [.str16 (textOf s16)] x) ∧
    (Runs v (name% "toUcs4") [.str16 s16] x ↔ Runs v (name% "toUcs4") [.str16 (textOf s16)] x) ∧
    (Runs v (name% "toUtf8") [.str32 s32] x ↔ Runs v (name% "toUtf8") [.str32 (textOf s32)] x) ∧
    (Runs v (name% "toUtf16") [.str32 s32] x ↔ Runs v (name% "toUtf16") [.str32 (textOf s32)] x) ∧
    (Runs v (name% "toUcs2") [.str32 s32] x ↔ Runs v (name% "toUcs2") [.str32 (textOf s32)] x) ∧
    (Runs v (name% "unicodeLength") [.str8 s] x ↔ Runs v (name% "unicodeLength") [.str8 (textOf s)] x) ∧
    (Runs v (name% "unicodeLength") [.str16 s16] x ↔ Runs v (name% "unicodeLength") [.str16 (textOf s16)] x) ∧
    (Runs v (name% "unicodeLength") [.str32 s32] x ↔ Runs v (name% "unicodeLength") [.str32 (textOf s32)] x) := by
  have key {α : Type} {n n' : Nat} {as bs : List Arg} {y z : Res α} {f : α → Arg} (hy : Runs v n as (y.map f))
      (hz : Runs v n' bs (z.map f)) (e : y = z) : Runs v n as x ↔ Runs v n' bs x := by
    subst e
    exact ⟨fun h => C67_unique hy h ▸ hz, fun h => C67_unique hz h ▸ hy⟩
  have hv := C12_validators (Unicode.charClass v) t q
  have hc := C12_conversions
  have hl := C12_unicodeLength
  exact ⟨key (C67_isUtf8_S3 v _ t q) (C67_isUtf8_S3 v _ t q) (hv.1 s),
    key (C67_isUtf16_S3 v _ t q) (C67_isUtf16_S3 v _ t q) (hv.2.1 s16),
    key (C67_isUcs2_S3 v _ t q) (C67_isUcs2_S3 v _ t q) (hv.2.2.1 s16),
    key (C67_isUcs4_S3 v _ t q) (C67_isUcs4_S3 v _ t q) (hv.2.2.2 s32),
    key (C67_toUtf16_S8 v _) (C67_toUtf16_S8 v _) (hc.2.1 s),
    key (C67_toUcs2_S8 v _) (C67_toUcs2_S8 v _) (hc.2.2.1 s),
    key (C67_toUcs4_S8 v _) (C67_toUcs4_S8 v _) (hc.1 s),
    key (C67_toUtf8_S16 v _) (C67_toUtf8_S16 v _) (hc.2.2.2.2.1 s16),
    key (C67_toUcs4_S16 v _) (C67_toUcs4_S16 v _) (hc.2.2.2.1 s16),
    key (C67_toUtf8_S32 v _) (C67_toUtf8_S32 v _) (hc.2.2.2.2.2.1 s32),
    key (C67_toUtf16_S32 v _) (C67_toUtf16_S32 v _) (hc.2.2.2.2.2.2.1 s32),
    key (C67_toUcs2_S32 v _) (C67_toUcs2_S32 v _) (hc.2.2.2.2.2.2.2 s32),
    key (C67_unicodeLength_S8 v _) (C67_unicodeLength_S8 v _) (hl.1 s),
    key (C67_unicodeLength_S16 v _) (C67_unicodeLength_S16 v _) (hl.2.1 s16),
    key (C67_unicodeLength_S32 v _) (C67_unicodeLength_S32 v _) (hl.2.2 s32)⟩

theorem C13_text (v : Version) (r : Spec.Range) (q : Pred) :
    Returns v (name% "isUtf8") [.ptr8 none, .range r.code, .pred q] (.bool true) ∧
    Returns v (name% "isUtf16") [.ptr16 none, .range r.code, .pred q] (.bool true) ∧
    Returns v (name% "isUcs2") [.ptr16 none, .range r.code, .pred q] (.bool true) ∧
    Returns v (name% "isUcs4") [.ptr32 none, .range r.code, .pred q] (.bool true) ∧
    Returns v (name% "toUtf8") [.ptr16 none] (.str8 []) ∧ Returns v (name% "toUtf8") [.ptr32 none] (.str8 []) ∧
    Returns v (name% "toUcs2") [.ptr8 none] (.str16 []) ∧ Returns v (name% "toUcs2") [.ptr32 none] (.str16 []) ∧
    Returns v (name% "toUtf16") [.ptr8 none] (.str16 []) ∧ Returns v (name% "toUtf16") [.ptr32 none] (.str16 []) ∧
    Returns v (name% "toUcs4") [.ptr8 none] (.str32 []) ∧ Returns v (name% "toUcs4") [.ptr16 none] (.str32 []) ∧
    Returns v (name% "unicodeLength") [.ptr8 none] (.uint 0) := by
  simp only [text_iff]
  have h := C13_validators (Unicode.charClass v) r q
  exact ⟨h.1.1, h.2.1.1, h.2.2.1.1, h.2.2.2.1, rfl, rfl, rfl, rfl, rfl, rfl, rfl, rfl, rfl⟩

/-- `unicodeLength` of a null pointer, except for `const char*`. -/
theorem C13_text_violated (v : Version) (n : U32) :
    Runs v (name% "unicodeLength") [.ptr16 none, .uint n] .ub ∧
    Runs v (name% "unicodeLength") [.ptr32 none, .uint n] .ub ∧
    Runs v (name% "unicodeLength") [.ptr16 none] .ub ∧ Runs v (name% "unicodeLength") [.ptr32 none] .ub := by
  simp only [text_iff]
  have h := C13_unicodeLength_violated
  exact ⟨h.1 n, h.2 n, h.1 0, h.2 0⟩

theorem C14_text (v : Version) {t : Int} (h : t < 0 ∨ t > 5) (q : Pred) :
    (∀ p, Returns v (name% "isUtf8") [.ptr8 p, .range t, .pred q] (.bool false)) ∧
    (∀ p, Returns v (name% "isUtf16") [.ptr16 p, .range t, .pred q] (.bool false)) ∧
    (∀ p, Returns v (name% "isUcs2") [.ptr16 p, .range t, .pred q] (.bool false)) ∧
    (∀ p, Returns v (name% "isUcs4") [.ptr32 p, .range t, .pred q] (.bool false)) := by
  simp only [text_iff]
  exact C14_illegal_range _ q h

/-! ## C15 to C19, C23: what is accepted -/

theorem C15_text (v : Version) (q : Pred) : ∀ t ∈ nested,
    (∀ s, Returns v (name% "isUtf8") [.str8 s, .range t.1, .pred q] (.bool true) →
      Returns v (name% "isUtf8") [.str8 s, .range t.2, .pred q] (.bool true)) ∧
    (∀ s, Returns v (name% "isUtf16") [.str16 s, .range t.1, .pred q] (.bool true) →
      Returns v (name% "isUtf16") [.str16 s, .range t.2, .pred q] (.bool true)) ∧
    (∀ s, Returns v (name% "isUcs2") [.str16 s, .range t.1, .pred q] (.bool true) →
      Returns v (name% "isUcs2") [.str16 s, .range t.2, .pred q] (.bool true)) ∧
    (∀ s, Returns v (name% "isUcs4") [.str32 s, .range t.1, .pred q] (.bool true) →
      Returns v (name% "isUcs4") [.str32 s, .range t.2, .pred q] (.bool true)) := by
  simp only [text_iff]
  exact fun t ht => ⟨fun s => C15_isUtf8 _ q s t ht, fun s => C15_isUtf16 _ q s t ht, fun s => C15_isUcs2 _ q s t ht,
    fun s => C15_isUcs4 _ q s t ht⟩

theorem C16_text (v : Version) (r : Spec.Range) (q : Pred) {a b : List Byte} {vs : List Nat} (ha : Utf8Text a vs)
    (hb : Malformed b) (hs : NulFree (a ++ b)) (post : List Byte) :
    Returns v (name% "isUtf8") [.ptr8 (some (a ++ b ++ 0 :: post)), .range r.code, .pred q] (.bool false) ∧
    Returns v (name% "toUcs4") [.ptr8 (some (a ++ b ++ 0 :: post))] (.str32 []) ∧
    Returns v (name% "toUtf16") [.ptr8 (some (a ++ b ++ 0 :: post))] (.str16 []) ∧
    Returns v (name% "toUcs2") [.ptr8 (some (a ++ b ++ 0 :: post))] (.str16 []) ∧
    Returns v (name% "unicodeLength") [.ptr8 (some (a ++ b ++ 0 :: post))] (.uint 0) := by
  simp only [text_iff]
  exact C16_malformed_rejected _ r q ha hb hs post

theorem C17_text (v : Version) (r : Spec.Range) (s : List U16) :
    ∃ b, Returns v (name% "isUtf16") [.str16 s, .range r.code] (.bool b) ∧
      (b = true ↔ ∃ vs t, textOf s = utf16Of vs ++ t ∧ (∀ v ∈ vs, Scalar v ∧ r.Has v) ∧
        (t = [] ∨ (Utf16Incomplete t ∧ r.Has 0x10000))) := by
  simp only [text_iff]
  exact C17_isUtf16 _ r s

theorem C17_text_toUcs4 (v : Version) (s : List U16) :
    (∀ vs t, textOf s = utf16Of vs ++ t → (∀ v ∈ vs, Scalar v) → (t = [] ∨ Utf16Incomplete t) →
      Returns v (name% "toUcs4") [.str16 s] (.str32 (ucs4Of vs))) ∧
    ((¬ ∃ vs t, textOf s = utf16Of vs ++ t ∧ (∀ v ∈ vs, Scalar v) ∧ (t = [] ∨ Utf16Incomplete t)) →
      Returns v (name% "toUcs4") [.str16 s] (.str32 [])) := by
  simp only [text_iff]
  exact C17_toUcs4 s

theorem C18_text_ucs2 (v : Version) (r : Spec.Range) (s : List U16) :
    ∃ b, Returns v (name% "isUcs2") [.str16 s, .range r.code] (.bool b) ∧
      (b = true ↔ ∀ c ∈ textOf s, r.Has c.toNat ∧ ¬ Surrogate c.toNat) := by
  simp only [text_iff]
  exact C18_isUcs2 _ r s

theorem C18_text_ucs4_partial (v : Version) (r : Spec.Range) (hr : r ≠ .utf16) (s : List U32) :
    ∃ b, Returns v (name% "isUcs4") [.str32 s, .range r.code] (.bool b) ∧
      (b = true ↔ ∀ c ∈ textOf s, r.Has c.toNat ∧ ¬ Surrogate c.toNat) := by
  simp only [text_iff]
  exact C18_isUcs4_partial _ r hr s

theorem C18_text_ucs4_violated (v : Version) :
    Returns v (name% "isUcs4") [.str32 [0x110000], .range kUtf16] (.bool true) ∧ ¬ Spec.Range.utf16.Has 0x110000 := by
  simp only [text_iff]
  exact C18_isUcs4_violated _

/-- The same text counts the same in all three encodings. -/
theorem C19_text (v : Version) {vs : List Nat} (hv : ∀ v ∈ vs, Scalar v) (hlen : vs.length < 4294967296) :
    ∃ r : U32, r.toNat = vs.length ∧ Returns v (name% "unicodeLength") [.str8 (utf8Of vs)] (.uint r) ∧
      Returns v (name% "unicodeLength") [.str16 (utf16Of vs)] (.uint r) ∧
      Returns v (name% "unicodeLength") [.str32 (ucs4Of vs)] (.uint r) := by
  simp only [text_iff]
  exact C19_agree hv hlen

/-- The count of a text that ends with an incomplete character is one too low. -/
theorem C20_text_violated (v : Version) :
    Returns v (name% "unicodeLength") [.str8 [0x41, 0xC3]] (.uint 0) ∧
    Returns v (name% "unicodeLength") [.str8 [0xC3]] (.uint 0xFFFFFFFF) ∧
    Returns v (name% "unicodeLength") [.str16 [0x41, 0xD83D]] (.uint 0) ∧
    Returns v (name% "unicodeLength") [.str16 [0xD83D]] (.uint 0xFFFFFFFF) := by
  simp only [text_iff]
  exact C20_nul_terminated_violated

theorem C21_text (v : Version) (q : Pred) {p : List Byte} {vs : List Nat} (hp : Utf8Text p vs) (hne : p ≠ []) {n : U32}
    (hlen : n.toNat = p.length) (x : List Byte) (b : Bool) :
    Returns v (name% "isUtf8") [.ptr8 (some (p ++ x)), .uint n, .pred q] (.bool b) ↔
      Returns v (name% "isUtf8") [.str8 p, .pred q] (.bool b) := by
  simp only [text_iff]
  rw [(C21_complete _ q hp hne hlen x).1]
  rfl

/-- A text without a NUL that is accepted with its length and rejected without. -/
theorem C21_text_violated (v : Version) :
    Returns v (name% "isUtf8") [.ptr8 (some [0xED, 0x20, 0x80, 0x00]), .uint 3] (.bool true) ∧
    Returns v (name% "isUtf8") [.str8 [0xED, 0x20, 0x80]] (.bool false) := by
  simp only [text_iff]
  exact (C21_agrees_violated _).1

theorem C22_text (v : Version) {p : List Byte} {vs : List Nat} (hp : Utf8Text p vs) (hne : p ≠ [])
    (hv : ∀ v ∈ vs, v ≤ 0x10FFFF) {n : U32} (hlen : n.toNat = p.length) (x : List Byte) :
    ∃ r : U32, Returns v (name% "unicodeLength") [.ptr8 (some (p ++ x)), .uint n] (.uint r) ∧ r.toNat = vs.length ∧
      Returns v (name% "unicodeLength") [.str8 p] (.uint r) := by
  simp only [text_iff]
  exact C22_utf8_complete hp hne hv hlen x

/-! ## C28 to C30: lower case -/

theorem C28_text (v : Version) {lang : Lang} (h : Turkic lang) (c : U32) :
    ∃ d, Returns v (name% "toLower") [.str32 [c], .ptr8 (langPtr lang)] (.str32 [d]) ∧
      (c = 0x49 → d = 0x131) ∧ (c = 0x130 → d = 0x69) ∧
      (c ≠ 0x49 → c ≠ 0x130 → Returns v (name% "toLower") [.str32 [c]] (.str32 [d])) := by
  simp only [text_iff]
  rw [C28_turkic v h c]
  by_cases h1 : c = 0x49
  · exact ⟨_, if_pos h1, fun _ => rfl, fun h2 => absurd (h1.symm.trans h2) (by decide), fun h _ => absurd h1 h⟩
  by_cases h2 : c = 0x130
  · rw [if_neg h1, if_pos h2]
    exact ⟨_, rfl, fun h => absurd h h1, fun _ => rfl, fun _ h => absurd h2 h⟩
  · rw [if_neg h1, if_neg h2]
    obtain ⟨t, ht, hl, _⟩ := C30_ucs4_pointwise v none [c]
    obtain ⟨d, rfl⟩ : ∃ d, t = [d] := List.length_eq_one_iff.1 hl
    exact ⟨d, ht, fun h => absurd h h1, fun h => absurd h h2, fun _ _ => ht⟩

theorem C28_text_other (v : Version) {lang : Lang} (h : ¬ Turkic lang) :
    (∀ s t, Returns v (name% "toLower") [.str32 s, .ptr8 (langPtr lang)] (.str32 t) ↔
      Returns v (name% "toLower") [.str32 s] (.str32 t)) ∧
    (∀ s t, Returns v (name% "toLower") [.str8 s, .ptr8 (langPtr lang)] (.str8 t) ↔
      Returns v (name% "toLower") [.str8 s] (.str8 t)) ∧
    (∀ s t, Returns v (name% "toLower") [.str16 s, .ptr8 (langPtr lang)] (.str16 t) ↔
      Returns v (name% "toLower") [.str16 s] (.str16 t)) := by
  simp only [text_iff]
  have h := C28_other v h
  exact ⟨fun s t => by rw [h.1], fun s t => by rw [h.2.1], fun s t => by rw [h.2.2]⟩

theorem C29_text (v : Version) (lang : Lang) :
    (∀ s, ∃ t, Returns v (name% "toLower") [.str32 s, .ptr8 (langPtr lang)] (.str32 t) ∧
      Returns v (name% "toLower") [.str32 t, .ptr8 (langPtr lang)] (.str32 t)) ∧
    (∀ s, ∃ t, Returns v (name% "toLower") [.str8 s, .ptr8 (langPtr lang)] (.str8 t) ∧
      Returns v (name% "toLower") [.str8 t, .ptr8 (langPtr lang)] (.str8 t)) ∧
    (∀ s, ∃ t, Returns v (name% "toLower") [.str16 s, .ptr8 (langPtr lang)] (.str16 t) ∧
      Returns v (name% "toLower") [.str16 t, .ptr8 (langPtr lang)] (.str16 t)) := by
  simp only [text_iff]
  exact ⟨C29_ucs4 v lang, C29_utf8 v lang, C29_utf16 v lang⟩

/-- Lower-casing UTF-8 is lower-casing its UCS-4 form. -/
theorem C30_text (v : Version) (lang : Lang) (s : List Byte) :
    ∃ u l t, Returns v (name% "toUcs4") [.str8 s] (.str32 u) ∧
      Returns v (name% "toLower") [.str32 u, .ptr8 (langPtr lang)] (.str32 l) ∧
      Returns v (name% "toLower") [.str8 s, .ptr8 (langPtr lang)] (.str8 t) ∧
      Returns v (name% "toUtf8") [.str32 l] (.str8 t) ∧ Returns v (name% "toUcs4") [.str8 t] (.str32 l) := by
  simp only [text_iff]
  obtain ⟨u, hu⟩ := defined_string C10_from_utf8.1 s
  have hu : toUcs4From8S s = .ok u := hu
  obtain ⟨l, hl⟩ : ∃ l, toLower32S v u (langPtr lang) = .ok l := ⟨_, toLower32S_eq v u lang⟩
  obtain ⟨t, ht, _⟩ := C29_utf8 v lang s
  refine ⟨u, l, t, hu, hl, ht, ?_, ?_⟩
  · have := C30_utf8_encodes v lang s
    rw [hu, Res.bind_ok, hl, Res.bind_ok] at this
    rw [← this, ht]
  · have := C30_utf8_commutes v lang s
    rw [hu, Res.bind_ok, hl, ht, Res.bind_ok] at this
    exact this

theorem C30_text_utf16 (v : Version) (lang : Lang) (s : List U16) :
    ∃ u l t, Returns v (name% "toUcs4") [.str16 s] (.str32 u) ∧
      Returns v (name% "toLower") [.str32 u, .ptr8 (langPtr lang)] (.str32 l) ∧
      Returns v (name% "toLower") [.str16 s, .ptr8 (langPtr lang)] (.str16 t) ∧
      Returns v (name% "toUtf16") [.str32 l] (.str16 t) ∧ Returns v (name% "toUcs4") [.str16 t] (.str32 l) := by
  simp only [text_iff]
  obtain ⟨u, hu⟩ := defined_string C10_from_utf16.1 s
  have hu : toUcs4From16S s = .ok u := hu
  obtain ⟨l, hl⟩ : ∃ l, toLower32S v u (langPtr lang) = .ok l := ⟨_, toLower32S_eq v u lang⟩
  obtain ⟨t, ht, _⟩ := C29_utf16 v lang s
  refine ⟨u, l, t, hu, hl, ht, ?_, ?_⟩
  · have := C30_utf16_encodes v lang s
    rw [hu, Res.bind_ok, hl, Res.bind_ok] at this
    rw [← this, ht]
  · have := C30_utf16_commutes v lang s
    rw [hu, Res.bind_ok, hl, ht, Res.bind_ok] at this
    exact this

/-! ## Texts that the theorems speak of -/

/-- "aé" is accepted, in every version and with both kinds of `char`. -/
example (v : Version) : Returns v (name% "isUtf8") [.str8 [0x61, 0xC3, 0xA9]] (.bool true) ∧
    NulFree ([0x61, 0xC3, 0xA9] : List Byte) := by
  simp only [text_iff]
  exact ⟨by cases v <;> decide +kernel, by unfold NulFree; decide⟩

/-- U+1F600 is accepted as UTF-16 and as UCS-4, and it is converted. -/
example (v : Version) : Returns v (name% "isUtf16") [.str16 [0xD83D, 0xDE00], .range kUnicode] (.bool true) ∧
    Returns v (name% "isUcs4") [.str32 [0x1F600], .range kUnicode] (.bool true) ∧
    Returns v (name% "toUtf8") [.str32 [0x1F600]] (.str8 [0xF0, 0x9F, 0x98, 0x80]) ∧
    Returns v (name% "toUcs4") [.str16 [0xD83D, 0xDE00]] (.str32 [0x1F600]) := by
  simp only [text_iff]
  exact ⟨by cases v <;> decide +kernel, by cases v <;> decide +kernel, by decide +kernel, by decide +kernel⟩

end Ansak.Props
