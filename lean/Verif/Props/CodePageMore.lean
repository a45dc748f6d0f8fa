import Verif.Props.CodePage
import Verif.Props.Ascii
import Verif.Props.Size

/-!
# C60: text converted from a code page: length, size, concatenation, ASCII

`s` is the text, `post` the memory after its NUL.
-/

namespace Ansak.Props

open Spec (NulFree cpChar cp1252Upper cp1250Upper Scalar Bmp Encodable utf8Of utf16Of Utf8Text)

/-- The two code pages and their tables. -/
def Page (e : SourceEncoding) (u : List Nat) : Prop :=
  (e = kSrcCP1252 ∧ u = cp1252Upper) ∨ (e = kSrcCP1250 ∧ u = cp1250Upper)

theorem page_eq {e : SourceEncoding} {u : List Nat} (h : Page e u) {s : List Byte} (hs : NulFree s)
    (post : List Byte) : toUtf8FromPage (some (s ++ 0 :: post)) e =
      .ok (if ∀ b ∈ s, cpChar u b ≠ 0 then utf8Of (s.map (cpChar u)) else []) := by
  rcases h with ⟨rfl, rfl⟩ | ⟨rfl, rfl⟩
  · exact toUtf8FromPage_text pageLoop1252 hs post
  · exact toUtf8FromPage_text pageLoop1250 hs post

theorem page_chars {e : SourceEncoding} {u : List Nat} (h : Page e u) {s : List Byte}
    (hu : ∀ b ∈ s, cpChar u b ≠ 0) : ∀ v ∈ s.map (cpChar u), Bmp v := by
  intro v hv
  obtain ⟨b, hb, rfl⟩ := List.mem_map.1 hv
  rcases h with ⟨_, rfl⟩ | ⟨_, rfl⟩
  · exact cpChar_bmp ok1252 (hu b hb)
  · exact cpChar_bmp ok1250 (hu b hb)

/-- As many code points as bytes, and as many units of UTF-16. -/
theorem C60_length {e : SourceEncoding} {u : List Nat} (he : Page e u) {s : List Byte} (hs : NulFree s)
    (hu : ∀ b ∈ s, cpChar u b ≠ 0) (hlen : s.length < 4294967296) (post : List Byte) :
    ∃ r n t, toUtf8FromPage (some (s ++ 0 :: post)) e = .ok r ∧
      unicodeLength8S r = .ok n ∧ n.toNat = s.length ∧ toUtf16From8S r = .ok t ∧ t.length = s.length := by
  have hb := page_chars he hu
  have hsc : ∀ v ∈ s.map (cpChar u), Scalar v := fun v hv => bmp_scalar (hb v hv)
  have hE : ∀ v ∈ s.map (cpChar u), Encodable v := fun v hv => scalar_encodable (hsc v hv)
  refine ⟨_, BitVec.ofNat 32 s.length, _, (page_eq he hs post).trans (by rw [if_pos hu]), ?_,
    by rw [BitVec.toNat_ofNat]; exact Nat.mod_eq_of_lt hlen, toUtf16From8S_utf8Of hsc, ?_⟩
  · unfold unicodeLength8S
    rw [cStr_nulFree (utf8Of_nulFree hE), unicodeLength8_text (utf8Of_nulFree hE)
      (scan_of_text (text_utf8Of hE)), if_pos fun x hx => (hsc x hx).2.1, List.length_map]
    rfl
  · rw [utf16Of_bmp fun v hv => (hb v hv).2.1]
    unfold Spec.ucs2Of
    rw [List.length_map, List.length_map]

/-- At most three bytes for each byte, whatever the string. -/
theorem C60_size {e : SourceEncoding} {u : List Nat} (he : Page e u) {s : List Byte} (hs : NulFree s)
    (post : List Byte) :
    ∃ r, toUtf8FromPage (some (s ++ 0 :: post)) e = .ok r ∧ r.length ≤ 3 * s.length := by
  refine ⟨_, page_eq he hs post, ?_⟩
  by_cases hu : ∀ b ∈ s, cpChar u b ≠ 0
  · rw [if_pos hu]
    have hb := page_chars he hu
    have := utf8Of_length_le (vs := s.map (cpChar u)) (k := 3) fun v hv => by
      have h := (hb v hv).2.1
      rw [utf8_length_eq]
      repeat' split
      all_goals omega
    rwa [List.length_map] at this
  · rw [if_neg hu]; exact Nat.zero_le _

/-- Converting two texts one after the other gives the two results one after the other. -/
theorem C60_append {e : SourceEncoding} {u : List Nat} (he : Page e u) {a b : List Byte} (ha : NulFree a)
    (hb : NulFree b) (hu : ∀ x ∈ a ++ b, cpChar u x ≠ 0) (post post' post'' : List Byte) :
    ∃ x y, toUtf8FromPage (some (a ++ 0 :: post)) e = .ok x ∧ toUtf8FromPage (some (b ++ 0 :: post')) e = .ok y ∧
      toUtf8FromPage (some (a ++ b ++ 0 :: post'')) e = .ok (x ++ y) := by
  have hab : NulFree (a ++ b) := fun c hc => (List.mem_append.1 hc).elim (ha c) (hb c)
  refine ⟨_, _, (page_eq he ha post).trans (by rw [if_pos fun x hx => hu x (List.mem_append_left _ hx)]),
    (page_eq he hb post').trans (by rw [if_pos fun x hx => hu x (List.mem_append_right _ hx)]), ?_⟩
  rw [page_eq he hab, if_pos hu, List.map_append]
  unfold utf8Of
  rw [List.flatMap_append]

/-- ASCII text is unchanged, for all three source encodings. -/
theorem C60_ascii {e : SourceEncoding} (he : e = kSrcUnicode ∨ e = kSrcCP1252 ∨ e = kSrcCP1250) {s : List Byte}
    (h : Ascii s) (post : List Byte) : toUtf8FromPage (some (s ++ 0 :: post)) e = .ok s := by
  have low : ∀ u, s.map (cpChar u) = vals s := fun u => List.map_congr_left fun b hb => cpChar_low (h b hb).2
  have defd : ∀ u, ∀ b ∈ s, cpChar u b ≠ 0 := by
    intro u b hb
    rw [cpChar_low (h b hb).2]
    have := (h b hb).1
    omega
  have fin : ∀ {u}, Page e u → toUtf8FromPage (some (s ++ 0 :: post)) e = .ok s := by
    intro u hp
    rw [page_eq hp h.nulFree, if_pos (defd u), low, h.utf8Of, map_same]
  rcases he with rfl | rfl | rfl
  · exact C35_unicode h.nulFree post
  · exact fin (.inl ⟨rfl, rfl⟩)
  · exact fin (.inr ⟨rfl, rfl⟩)

/-- Code page 1252 is Latin-1 but for the bytes 80 to 9F: all other bytes become the character of the same
number. -/
theorem C60_latin1 {s : List Byte} (hs : NulFree s) (h : ∀ b ∈ s, b.toNat < 0x80 ∨ 0xA0 ≤ b.toNat)
    (post : List Byte) : toUtf8FromPage (some (s ++ 0 :: post)) kSrcCP1252 = .ok (utf8Of (vals s)) := by
  have e : ∀ b ∈ s, cpChar cp1252Upper b = b.toNat := by
    intro b hb
    rcases h b hb with h | h
    · exact cpChar_low (by omega)
    · exact high1252 (by omega)
  rw [page_eq (.inl ⟨rfl, rfl⟩) hs, if_pos, List.map_congr_left e]
  · rfl
  · intro b hb
    rw [e b hb]
    exact toNat_ne_zero (hs b hb)

/-! ## The hypotheses can be met -/

/-- "a€Ł" in code page 1250. -/
example : NulFree ([0x61, 0x80, 0xA3] : List Byte) ∧ (∀ b ∈ ([0x61, 0x80, 0xA3] : List Byte), cpChar cp1250Upper b ≠ 0) ∧
    toUtf8FromPage (some ([0x61, 0x80, 0xA3] ++ 0 :: [])) kSrcCP1250 = .ok [0x61, 0xE2, 0x82, 0xAC, 0xC5, 0x81] := by
  unfold NulFree; decide +kernel
example : Page kSrcCP1252 cp1252Upper ∧ Page kSrcCP1250 cp1250Upper := ⟨.inl ⟨rfl, rfl⟩, .inr ⟨rfl, rfl⟩⟩
example : Ascii ([0x41, 0x7E] : List Byte) := by unfold Ascii; decide
/-- "é" -/
example : ∀ b ∈ ([0xE9, 0x41] : List Byte), b.toNat < 0x80 ∨ 0xA0 ≤ b.toNat := by decide

end Ansak.Props
