import Verif.Props.TextWindows
import Verif.Props.WideIs
import Verif.Lemmas.Cpp.Returns

/-!
# C39 for the text of the library

The theorems of `Verif.Props.Wide` about Windows, stated for what is written in `interface/string.hxx`. `RunsWindows t` is a
call in a build for Windows where `TCHAR` is as `t` says.
-/

namespace Ansak.Props

open Cpp
open Cpp.Source (Tchar)
open Spec (Arg Runs Returns RunsOn ReturnsOn RunsWindows ReturnsWindows NeverReturns utf8Of utf16Of ucs4Of Scalar Utf8Reads
  StaysInBounds Surrogate textOf NulFree)

/-! ## `char` for `wchar_t` -/

/-- The functions that validate wide strings also take strings of `char`, with the same meaning: they validate UTF-8 for the
encoding in their name. `toUtf8` copies what is valid. -/
theorem C39_text_char (t : Tchar) (v : Version) (out : Bool) (s : List Byte) (p : Ptr Byte) :
    (ReturnsWindows t v (name% "isUtf16") [.str8 s] (.bool out) ↔ Returns v (name% "isUtf8") [.str8 s, .range kUtf16] (.bool out)) ∧
    (ReturnsWindows t v (name% "isUcs2") [.str8 s] (.bool out) ↔ Returns v (name% "isUtf8") [.str8 s, .range kUcs2] (.bool out)) ∧
    (ReturnsWindows t v (name% "isUcs4") [.str8 s] (.bool out) ↔ Returns v (name% "isUtf8") [.str8 s, .range kUcs4] (.bool out)) ∧
    (ReturnsWindows t v (name% "isUtf16") [.ptr8 p] (.bool out) ↔ Returns v (name% "isUtf8") [.ptr8 p, .range kUtf16] (.bool out)) ∧
    (ReturnsWindows t v (name% "isUcs2") [.ptr8 p] (.bool out) ↔ Returns v (name% "isUtf8") [.ptr8 p, .range kUcs2] (.bool out)) ∧
    (ReturnsWindows t v (name% "isUcs4") [.ptr8 p] (.bool out) ↔ Returns v (name% "isUtf8") [.ptr8 p, .range kUcs4] (.bool out)) := by
  simp only [text_iff]
  exact ⟨Iff.rfl, Iff.rfl, Iff.rfl, Iff.rfl, Iff.rfl, Iff.rfl⟩

/-- `toUtf8` for strings of `char` returns valid UTF-8 text as it is, and nothing for other text. -/
theorem C39_text_toUtf8 (t : Tchar) (v : Version) (s : List Byte) (b : Bool)
    (h : Returns v (name% "isUtf8") [.str8 s] (.bool b)) :
    ReturnsWindows t v (name% "toUtf8") [.str8 s] (.str8 (if b then textOf s else [])) := by
  simp only [text_iff] at h ⊢
  cases b
  · exact (C39_toUtf8 _ s).2 h
  · exact (C39_toUtf8 _ s).1 h

example : Returns .v11 (name% "isUtf8") [.str8 [0x41, 0xC3, 0xA9]] (.bool true) ∧
    Returns .v11 (name% "isUtf8") [.str8 [0x41, 0xA9]] (.bool false) := by
  simp only [text_iff]
  decide +kernel

/-- A null pointer is valid, and then `toUtf8` makes a string from it. -/
theorem C39_text_toUtf8_null_violated (t : Tchar) (v : Version) :
    Returns v (name% "isUtf8") [.ptr8 none] (.bool true) ∧ RunsWindows t v (name% "toUtf8") [.ptr8 none] .ub := by
  simp only [text_iff]
  exact ⟨rfl, rfl⟩

/-! ## `isTstring` -/

/-- In both builds `isTstring` accepts what `isWstring` accepts. -/
theorem C39_text_isTstring (t : Tchar) (ht : t ≠ .none) (v : Version) (b : Bool) :
    (∀ s, ReturnsWindows t v (name% "isTstring") [.str8 s] (.bool b) ↔ ReturnsOn false v (name% "isWstring") [.str8 s] (.bool b)) ∧
    (∀ s, ReturnsWindows t v (name% "isTstring") [.str16 s] (.bool b) ↔ ReturnsOn false v (name% "isWstring") [.str16 s] (.bool b)) ∧
    (∀ s, ReturnsWindows t v (name% "isTstring") [.str32 s] (.bool b) ↔ ReturnsOn false v (name% "isWstring") [.str32 s] (.bool b)) ∧
    (∀ p, ReturnsWindows t v (name% "isTstring") [.ptr8 p] (.bool b) ↔ ReturnsOn false v (name% "isWstring") [.ptr8 p] (.bool b)) ∧
    (∀ p, ReturnsWindows t v (name% "isTstring") [.ptr16 p] (.bool b) ↔ ReturnsOn false v (name% "isWstring") [.ptr16 p] (.bool b)) ∧
    (∀ p, ReturnsWindows t v (name% "isTstring") [.ptr32 p] (.bool b) ↔ ReturnsOn false v (name% "isWstring") [.ptr32 p] (.bool b)) := by
  cases t
  · exact absurd rfl ht
  all_goals
    simp only [text_iff]
    exact ⟨fun _ => Iff.rfl, fun _ => Iff.rfl, fun _ => Iff.rfl, fun _ => Iff.rfl, fun _ => Iff.rfl, fun _ => Iff.rfl⟩

example : Tchar.mbcs ≠ .none ∧ Tchar.unicode ≠ .none := ⟨nofun, nofun⟩

/-- `_UNICODE`: `toTstring` converts all complete characters of what `isTstring` accepts. Missing from C39: values above
0x10FFFF, accepted by mistake, are excluded; for `_MBCS` see `C39_text_mbcs_accepted_violated`. -/
theorem C39_text_isTstring_converts_partial (v : Version) :
    (∀ s, ReturnsWindows .unicode v (name% "isTstring") [.str8 s] (.bool true) →
      (∀ vs u, Utf8Reads (textOf s) vs u → ∀ x ∈ vs, x ≤ 0x10FFFF) →
      ∃ vs u, Utf8Reads (textOf s) vs u ∧ ReturnsWindows .unicode v (name% "toTstring") [.str8 s] (.wstr16 (utf16Of vs))) ∧
    (∀ s, ReturnsWindows .unicode v (name% "toTstring") [.str16 s] (.wstr16 (textOf s))) ∧
    (∀ s, ReturnsWindows .unicode v (name% "isTstring") [.str32 s] (.bool true) → (∀ c ∈ textOf s, c.toNat ≤ 0x10FFFF) →
      ReturnsWindows .unicode v (name% "toTstring") [.str32 s] (.wstr16 (utf16Of (vals (textOf s))))) := by
  simp only [text_iff]
  have h := C39_isTstring_partial (Unicode.charClass v)
  exact ⟨h.2.2.2.1, h.2.2.2.2.1, h.2.2.2.2.2⟩

/-! ## `toTstring`, `_UNICODE` -/

/-- `_UNICODE`: the result is the UTF-16 of the text. Missing from C39: a source in UTF-16 is not checked
(`C39_text_unicode_violated`), so it must be valid. -/
theorem C39_text_unicode_partial (v : Version) {vs : List Nat} (h : ∀ x ∈ vs, Scalar x) :
    ReturnsWindows .unicode v (name% "toTstring") [.str8 (utf8Of vs)] (.wstr16 (utf16Of vs)) ∧
    ReturnsWindows .unicode v (name% "toTstring") [.str16 (utf16Of vs)] (.wstr16 (utf16Of vs)) ∧
    ReturnsWindows .unicode v (name% "toTstring") [.str32 (ucs4Of vs)] (.wstr16 (utf16Of vs)) := by
  simp only [text_iff]
  exact C39_unicode_partial h

example : ∀ x ∈ [0x41, 0x20AC, 0x1F600], Scalar x := by decide

/-- `_UNICODE`: from UTF-8 and UCS-4, `toTstring` is `toWstring`, for every source and for pointers as well. -/
theorem C39_text_unicode_toWstring (v : Version) (u : List U16) :
    (∀ s, ReturnsWindows .unicode v (name% "toTstring") [.str8 s] (.wstr16 u) ↔ ReturnsOn false v (name% "toWstring") [.str8 s] (.wstr16 u)) ∧
    (∀ p, ReturnsWindows .unicode v (name% "toTstring") [.ptr8 p] (.wstr16 u) ↔ ReturnsOn false v (name% "toWstring") [.ptr8 p] (.wstr16 u)) ∧
    (∀ s, ReturnsWindows .unicode v (name% "toTstring") [.str32 s] (.wstr16 u) ↔ ReturnsOn false v (name% "toWstring") [.str32 s] (.wstr16 u)) ∧
    (∀ p, ReturnsWindows .unicode v (name% "toTstring") [.ptr32 p] (.wstr16 u) ↔ ReturnsOn false v (name% "toWstring") [.ptr32 p] (.wstr16 u)) := by
  simp only [text_iff]
  exact ⟨fun _ => Iff.rfl, fun _ => Iff.rfl, fun _ => Iff.rfl, fun _ => Iff.rfl⟩

/-- Violation of C39: with `_UNICODE`, ill-formed UTF-16 is returned as it is, where `toWstring` returns an empty string; a
null pointer is undefined behaviour. -/
theorem C39_text_unicode_violated (v : Version) :
    ReturnsWindows .unicode v (name% "toTstring") [.str16 [0x41, 0xDC00]] (.wstr16 [0x41, 0xDC00]) ∧
    Returns v (name% "isUtf16") [.str16 [0x41, 0xDC00]] (.bool false) ∧
    ReturnsOn false v (name% "toWstring") [.str16 [0x41, 0xDC00]] (.wstr16 []) ∧
    RunsWindows .unicode v (name% "toTstring") [.ptr16 none] .ub := by
  simp only [text_iff]
  exact C39_unicode_violated _

/-! ## `toTstring`, `_MBCS` -/

/-- `_MBCS`: the overloads for pointers return ASCII text as it is. Missing from C39: they return nothing for other text
although `isTstring` accepts it, and the overloads for strings never return. -/
theorem C39_text_mbcs_partial (v : Version) {s : List Nat} (h : ∀ x ∈ s, 1 ≤ x ∧ x ≤ 0x7F) :
    ReturnsWindows .mbcs v (name% "toTstring") [.ptr8 (cStr (utf8Of s))] (.str8 (utf8Of s)) ∧
    ReturnsWindows .mbcs v (name% "toTstring") [.ptr16 (cStr (utf16Of s))] (.str8 (utf8Of s)) ∧
    ReturnsWindows .mbcs v (name% "toTstring") [.ptr32 (cStr (ucs4Of s))] (.str8 (utf8Of s)) := by
  simp only [text_iff]
  exact C39_mbcs_partial _ h

example : ∀ x ∈ [0x41, 0x7F], 1 ≤ x ∧ x ≤ 0x7F := by decide

/-- Violation of C39: with `_MBCS` the overloads for strings do not return, for any string: they exceed every limit on the
number of calls inside each other. -/
theorem C39_text_mbcs_diverges_violated (v : Version) :
    (∀ s, NeverReturns 0 v (.str8 s)) ∧ (∀ s, NeverReturns 2 v (.str16 s)) ∧ (∀ s, NeverReturns 4 v (.str32 s)) :=
  ⟨C67_mbcs_toTstring_S8 v, C67_mbcs_toTstring_S16 v, C67_mbcs_toTstring_S32 v⟩

/-- Violation of C39: `isTstring` accepts "é", but `toTstring` returns nothing for it. -/
theorem C39_text_mbcs_accepted_violated (v : Version) :
    ReturnsWindows .mbcs v (name% "isTstring") [.ptr8 (cStr [0xC3, 0xA9])] (.bool true) ∧
    ReturnsWindows .mbcs v (name% "toTstring") [.ptr8 (cStr [0xC3, 0xA9])] (.str8 []) ∧
    ReturnsWindows .mbcs v (name% "isTstring") [.ptr32 (cStr [0xE9])] (.bool true) ∧
    ReturnsWindows .mbcs v (name% "toTstring") [.ptr32 (cStr [0xE9])] (.str8 []) := by
  simp only [text_iff]
  exact C39_mbcs_accepted_violated _

/-! ## Bounds -/

/-- Memory after the NUL changes nothing. -/
theorem C39_text_in_bounds (v : Version) {s : List Byte} (hs : NulFree s) (post : List Byte) :
    (∀ t, ∃ r, ReturnsWindows t v (name% "toUtf8") [.ptr8 (some (s ++ [0]))] (.str8 r) ∧
      ReturnsWindows t v (name% "toUtf8") [.ptr8 (some (s ++ 0 :: post))] (.str8 r)) ∧
    (∃ r, ReturnsWindows .mbcs v (name% "toTstring") [.ptr8 (some (s ++ [0]))] (.str8 r) ∧
      ReturnsWindows .mbcs v (name% "toTstring") [.ptr8 (some (s ++ 0 :: post))] (.str8 r)) ∧
    (∃ r, ReturnsWindows .unicode v (name% "toTstring") [.ptr8 (some (s ++ [0]))] (.wstr16 r) ∧
      ReturnsWindows .unicode v (name% "toTstring") [.ptr8 (some (s ++ 0 :: post))] (.wstr16 r)) := by
  simp only [text_iff]
  obtain ⟨_, _, _, _, _, _, h1, h2, _, _, h3, _, _⟩ := C39_in_bounds (Unicode.charClass v)
  have key {β : Type} {f : Ptr Byte → Res β} (h : StaysInBounds f) :
      ∃ r, f (some (s ++ [0])) = .ok r ∧ f (some (s ++ 0 :: post)) = .ok r :=
    (h s hs).imp fun _ h => ⟨h.1, h.2 post⟩
  exact ⟨fun _ => key h1, key h2, key h3⟩

/-- The same for the other types of pointers. -/
theorem C39_text_in_bounds16 (v : Version) {s : List U16} (hs : NulFree s) (post : List U16) :
    (∃ r, ReturnsWindows .mbcs v (name% "toTstring") [.ptr16 (some (s ++ [0]))] (.str8 r) ∧
      ReturnsWindows .mbcs v (name% "toTstring") [.ptr16 (some (s ++ 0 :: post))] (.str8 r)) ∧
    (∃ r, ReturnsWindows .unicode v (name% "toTstring") [.ptr16 (some (s ++ [0]))] (.wstr16 r) ∧
      ReturnsWindows .unicode v (name% "toTstring") [.ptr16 (some (s ++ 0 :: post))] (.wstr16 r)) := by
  simp only [text_iff]
  obtain ⟨_, _, _, _, _, _, _, _, h1, _, _, h2, _⟩ := C39_in_bounds (Unicode.charClass v)
  have key {β : Type} {f : Ptr U16 → Res β} (h : StaysInBounds f) :
      ∃ r, f (some (s ++ [0])) = .ok r ∧ f (some (s ++ 0 :: post)) = .ok r :=
    (h s hs).imp fun _ h => ⟨h.1, h.2 post⟩
  exact ⟨key h1, key h2⟩

@[inherit_doc C39_text_in_bounds16]
theorem C39_text_in_bounds32 (v : Version) {s : List U32} (hs : NulFree s) (post : List U32) :
    (∃ r, ReturnsWindows .mbcs v (name% "toTstring") [.ptr32 (some (s ++ [0]))] (.str8 r) ∧
      ReturnsWindows .mbcs v (name% "toTstring") [.ptr32 (some (s ++ 0 :: post))] (.str8 r)) ∧
    (∃ r, ReturnsWindows .unicode v (name% "toTstring") [.ptr32 (some (s ++ [0]))] (.wstr16 r) ∧
      ReturnsWindows .unicode v (name% "toTstring") [.ptr32 (some (s ++ 0 :: post))] (.wstr16 r)) := by
  simp only [text_iff]
  obtain ⟨_, _, _, _, _, _, _, _, _, h1, _, _, h2⟩ := C39_in_bounds (Unicode.charClass v)
  have key {β : Type} {f : Ptr U32 → Res β} (h : StaysInBounds f) :
      ∃ r, f (some (s ++ [0])) = .ok r ∧ f (some (s ++ 0 :: post)) = .ok r :=
    (h s hs).imp fun _ h => ⟨h.1, h.2 post⟩
  exact ⟨key h1, key h2⟩

example : NulFree ([0x41, 0xE9] : List U32) := by decide

end Ansak.Props
