import Verif.Lemmas.CodePage

/-!
# C35: code page conversion

`s` is the text, `post` the memory after its NUL.
-/

namespace Ansak.Props

open Spec (NulFree cpChar cp1252Upper cp1250Upper Scalar Encodable utf8Of Utf8Text)

/-- Code page 1252: every byte becomes the encoding of its character, and the result is empty exactly if
there is an undefined byte (or nothing to convert). -/
theorem C35_cp1252 {s : List Byte} (hs : NulFree s) (post : List Byte) :
    ∃ r, toUtf8FromPage (some (s ++ 0 :: post)) kSrcCP1252 = .ok r ∧
      ((∀ b ∈ s, cpChar cp1252Upper b ≠ 0) → r = utf8Of (s.map (cpChar cp1252Upper))) ∧
      ((∃ b ∈ s, cpChar cp1252Upper b = 0) → r = []) ∧
      (r = [] ↔ s = [] ∨ ∃ b ∈ s, cpChar cp1252Upper b = 0) := by
  refine ⟨_, toUtf8FromPage_text pageLoop1252 hs post, ?_⟩
  exact page_result s cp1252Upper

/-- Code page 1250: the same. -/
theorem C35_cp1250 {s : List Byte} (hs : NulFree s) (post : List Byte) :
    ∃ r, toUtf8FromPage (some (s ++ 0 :: post)) kSrcCP1250 = .ok r ∧
      ((∀ b ∈ s, cpChar cp1250Upper b ≠ 0) → r = utf8Of (s.map (cpChar cp1250Upper))) ∧
      ((∃ b ∈ s, cpChar cp1250Upper b = 0) → r = []) ∧
      (r = [] ↔ s = [] ∨ ∃ b ∈ s, cpChar cp1250Upper b = 0) := by
  refine ⟨_, toUtf8FromPage_text pageLoop1250 hs post, ?_⟩
  exact page_result s cp1250Upper

example : ∃ r, toUtf8FromPage (some [0x41, 0x80, 0xE9, 0]) kSrcCP1252 = .ok r ∧
    r = [0x41, 0xE2, 0x82, 0xAC, 0xC3, 0xA9] := by
  obtain ⟨r, h1, h2, _⟩ := C35_cp1252 (s := [0x41, 0x80, 0xE9]) (by decide) []
  exact ⟨r, h1, h2 (by decide)⟩

example : ∃ r, toUtf8FromPage (some [0x41, 0x81, 0]) kSrcCP1250 = .ok r ∧ r = [] := by
  obtain ⟨r, h1, _, h2, _⟩ := C35_cp1250 (s := [0x41, 0x81]) (by decide) []
  exact ⟨r, h1, h2 ⟨0x81, by decide, by decide⟩⟩

/-- The upper half of the code page that a source encoding stands for. -/
theorem page_of {e : SourceEncoding} (he : e = kSrcCP1252 ∨ e = kSrcCP1250) :
    ∃ u, TableOk u ∧ distinct (List.range 0x80 ++ u) = true ∧ ∀ {s : List Byte}, NulFree s → ∀ post,
      toUtf8FromPage (some (s ++ 0 :: post)) e =
        .ok (if ∀ b ∈ s, cpChar u b ≠ 0 then utf8Of (s.map (cpChar u)) else []) := by
  rcases he with rfl | rfl
  · exact ⟨cp1252Upper, ok1252, distinct1252, fun hs post => toUtf8FromPage_text pageLoop1252 hs post⟩
  · exact ⟨cp1250Upper, ok1250, distinct1250, fun hs post => toUtf8FromPage_text pageLoop1250 hs post⟩

theorem page_bmp {u : List Nat} (hu : TableOk u) {s : List Byte} (h : ∀ b ∈ s, cpChar u b ≠ 0) :
    ∀ v ∈ s.map (cpChar u), Spec.Bmp v := by
  intro v hv
  rw [List.mem_map] at hv
  obtain ⟨b, hb, rfl⟩ := hv
  exact cpChar_bmp hu (h b hb)

/-- The result is always valid, canonical UTF-8 of characters of the basic plane. -/
theorem C35_valid (U : CharClass) {e : SourceEncoding} (he : e = kSrcCP1252 ∨ e = kSrcCP1250) {s : List Byte}
    (hs : NulFree s) (post : List Byte) :
    ∃ vs, (∀ v ∈ vs, Spec.Bmp v) ∧ toUtf8FromPage (some (s ++ 0 :: post)) e = .ok (utf8Of vs) ∧
      isUtf8S U (utf8Of vs) kUcs2 Pred.none = .ok true := by
  obtain ⟨u, hu, _, h⟩ := page_of he
  have hex : ∃ vs, (∀ v ∈ vs, Spec.Bmp v) ∧ toUtf8FromPage (some (s ++ 0 :: post)) e = .ok (utf8Of vs) := by
    rw [h hs post]
    by_cases hb : ∀ b ∈ s, cpChar u b ≠ 0
    · rw [if_pos hb]; exact ⟨_, page_bmp hu hb, rfl⟩
    · rw [if_neg hb]; exact ⟨[], by simp, rfl⟩
  obtain ⟨vs, hv, hvs⟩ := hex
  refine ⟨vs, hv, hvs, ?_⟩
  have hen : ∀ v ∈ vs, Encodable v := fun v h => scalar_encodable (bmp_scalar (hv v h))
  refine ok_true_of (isUtf8S_any U .ucs2 Pred.none (s := utf8Of vs) (vs := vs) (e := .done)
    (by rw [textOf_of_nulFree (utf8Of_nulFree hen)]; exact scan_of_text (text_utf8Of hen))) ⟨?_, trivial⟩
  intro v h
  have := (hv v h).2.1
  exact ⟨by unfold Acc8; omega, rfl⟩

/-- No two texts have the same non-empty conversion. -/
theorem C35_injective {e : SourceEncoding} (he : e = kSrcCP1252 ∨ e = kSrcCP1250) {s t : List Byte}
    (hs : NulFree s) (ht : NulFree t) (post post' : List Byte) {r : List Byte} (hr : r ≠ [])
    (h1 : toUtf8FromPage (some (s ++ 0 :: post)) e = .ok r)
    (h2 : toUtf8FromPage (some (t ++ 0 :: post')) e = .ok r) : s = t := by
  obtain ⟨u, hu, hd, h⟩ := page_of he
  rw [h hs post] at h1
  rw [h ht post'] at h2
  replace h1 := Res.ok.inj h1
  replace h2 := Res.ok.inj h2
  by_cases hb : ∀ b ∈ s, cpChar u b ≠ 0
  · by_cases hc : ∀ b ∈ t, cpChar u b ≠ 0
    · rw [if_pos hb] at h1
      rw [if_pos hc] at h2
      have enc : ∀ {l : List Byte}, (∀ b ∈ l, cpChar u b ≠ 0) → ∀ v ∈ l.map (cpChar u), Encodable v :=
        fun hl v hv => scalar_encodable (bmp_scalar (page_bmp hu hl v hv))
      have e := utf8Of_inj (enc hb) (enc hc) (h1.trans h2.symm)
      clear h1 h2 hs ht
      induction s generalizing t with
      | nil => cases t with
        | nil => rfl
        | cons c t => simp at e
      | cons b s ih => cases t with
        | nil => simp at e
        | cons c t =>
          rw [List.map_cons, List.map_cons, List.cons.injEq] at e
          rw [cpChar_inj hd e.1 (hb b (by simp)), ih (fun x hx => hb x (by simp [hx])) (t := t)
            (fun x hx => hc x (by simp [hx])) e.2]
    · rw [if_neg hc] at h2; exact absurd h2.symm hr
  · rw [if_neg hb] at h1; exact absurd h1.symm hr

example : ∃ r, toUtf8FromPage (some [0x80, 0]) kSrcCP1250 = .ok r ∧ r ≠ [] := by
  obtain ⟨r, h1, h2, _⟩ := C35_cp1250 (s := [0x80]) (by decide) []
  exact ⟨r, h1, by rw [h2 (by decide)]; decide⟩

/-- `kSrcUnicode` copies the text, unchecked. -/
theorem C35_unicode {s : List Byte} (hs : NulFree s) (post : List Byte) :
    toUtf8FromPage (some (s ++ 0 :: post)) kSrcUnicode = .ok s := by
  unfold toUtf8FromPage ifNonEmpty
  cases s with
  | nil => rfl
  | cons b s =>
    have ⟨h0, _⟩ := NulFree.cons.1 hs
    show (Res.ok b).bind _ = _
    rw [Res.bind_ok, if_neg h0]
    exact stringOfPtr_text hs post

/-- Any other source encoding gives the empty string. -/
theorem C35_other {e : SourceEncoding} (h0 : e ≠ kSrcUnicode) (h1 : e ≠ kSrcCP1252) (h2 : e ≠ kSrcCP1250)
    {s : List Byte} (post : List Byte) :
    toUtf8FromPage (some (s ++ 0 :: post)) e = .ok [] := by
  unfold toUtf8FromPage ifNonEmpty
  simp only [if_neg h0, if_neg h1, if_neg h2]
  cases s <;> (show (Res.ok _).bind _ = _) <;> rw [Res.bind_ok] <;> split <;> rfl

/-- A null pointer gives the empty string. -/
theorem C35_null (e : SourceEncoding) : toUtf8FromPage none e = .ok [] := rfl

example : (7 : SourceEncoding) ≠ kSrcUnicode ∧ (7 : SourceEncoding) ≠ kSrcCP1252 ∧ (7 : SourceEncoding) ≠ kSrcCP1250 := by
  decide

end Ansak.Props
