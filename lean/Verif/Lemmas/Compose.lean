import Verif.Lemmas.Text

/-!
# Strings as arguments of further calls
-/

namespace Ansak

open Spec (NulFree Utf8Char Utf8Text Encodable HighSurrogate LowSurrogate Surrogate Scalar Bmp
  Utf8Incomplete Utf16Incomplete textOf Utf8Reads Malformed utf8Of utf16Of ucs2Of ucs4Of)

theorem scalar_encodable {v : Nat} (h : Scalar v) : Encodable v :=
  ⟨h.1, by have := h.2.1; omega, h.2.2⟩

theorem bmp_scalar {v : Nat} (h : Bmp v) : Scalar v := ⟨h.1, by have := h.2.1; omega, h.2.2⟩

theorem encodable_scalar {v : Nat} (h : Encodable v) (h2 : v ≤ 0x10FFFF) : Scalar v := ⟨h.1, h2, h.2.2⟩

theorem encodable_bmp {v : Nat} (h : Encodable v) (h2 : v ≤ 0xFFFF) : Bmp v := ⟨h.1, h2, h.2.2⟩

theorem vals_ucs4Of {vs : List Nat} (h : ∀ v ∈ vs, Encodable v) : vals (ucs4Of vs) = vs := by
  unfold vals ucs4Of
  rw [List.map_map]
  conv => rhs; rw [← List.map_id vs]
  refine List.map_congr_left fun v hv => ?_
  have := (h v hv).2.1
  simp only [Function.comp_apply, BitVec.toNat_ofNat, id_eq]; omega

theorem vals_ucs2Of {vs : List Nat} (h : ∀ v ∈ vs, Bmp v) : vals (ucs2Of vs) = vs := by
  unfold vals ucs2Of
  rw [List.map_map]
  conv => rhs; rw [← List.map_id vs]
  refine List.map_congr_left fun v hv => ?_
  have := (h v hv).2.1
  simp only [Function.comp_apply, BitVec.toNat_ofNat, id_eq]; omega

theorem ucs4Of_vals (s : List U32) : ucs4Of (vals s) = s := by
  simp [ucs4Of, vals, List.map_map, Function.comp_def]

theorem ucs2Of_vals (s : List U16) : ucs2Of (vals s) = s := by
  simp [ucs2Of, vals, List.map_map, Function.comp_def]

theorem mem_ucs4Of {vs : List Nat} (h : ∀ v ∈ vs, Encodable v) : ∀ c ∈ ucs4Of vs, c.toNat ∈ vs := by
  intro c hc
  have : c.toNat ∈ vals (ucs4Of vs) := List.mem_map_of_mem hc
  rwa [vals_ucs4Of h] at this

theorem ucs4Of_forall {P : Nat → Prop} {vs : List Nat} (h : ∀ v ∈ vs, Encodable v) :
    (∀ c ∈ ucs4Of vs, P c.toNat) ↔ ∀ v ∈ vs, P v := by
  conv => rhs; rw [← vals_ucs4Of h]
  simp [vals]

theorem ucs4Of_nulFree {vs : List Nat} (h : ∀ v ∈ vs, Encodable v) : NulFree (ucs4Of vs) :=
  fun c hc => bv_ne_zero (by have := (h _ (mem_ucs4Of h c hc)).1; omega)

theorem utf16_bmp {v : Nat} (h : v ≤ 0xFFFF) : Spec.utf16 v = [BitVec.ofNat 16 v] := by
  unfold Spec.utf16; rw [if_pos (by omega)]

theorem utf16Of_bmp {vs : List Nat} (h : ∀ v ∈ vs, v ≤ 0xFFFF) : utf16Of vs = ucs2Of vs := by
  induction vs with
  | nil => rfl
  | cons v vs ih =>
    have h1 := utf16_bmp (h v (by simp))
    have h2 := ih fun w hw => h w (by simp [hw])
    show Spec.utf16 v ++ utf16Of vs = BitVec.ofNat 16 v :: ucs2Of vs
    rw [h1, h2]; rfl

theorem scan16_nulFree {lenient : Bool} {s : List U16} {vs : List Nat} {e : End16}
    (h : Scan16 lenient s vs e) (he : e ≠ .bad) : NulFree s := by
  induction h with
  | done => exact NulFree.nil
  | cut hh => exact NulFree.cons.2 ⟨high_ne_zero hh, NulFree.nil⟩
  | badHigh _ _ _ => exact absurd rfl he
  | badLow _ _ => exact absurd rfl he
  | unit h0 _ _ _ ih => exact NulFree.cons.2 ⟨h0, ih he⟩
  | pair hh hl _ ih =>
    exact NulFree.cons.2 ⟨high_ne_zero hh, NulFree.cons.2 ⟨low_ne_zero hl, ih he⟩⟩

theorem scan16_utf16Of {lenient : Bool} {vs : List Nat} (h : ∀ v ∈ vs, Scalar v) :
    Scan16 lenient (utf16Of vs) vs .done := by
  have := scan16_of_scalars h (Scan16.done (lenient := lenient))
  rwa [List.append_nil, List.append_nil] at this

theorem utf16Of_nulFree {vs : List Nat} (h : ∀ v ∈ vs, Scalar v) : NulFree (utf16Of vs) :=
  scan16_nulFree (scan16_utf16Of (lenient := false) h) (by simp)

theorem utf8Of_nulFree {vs : List Nat} (h : ∀ v ∈ vs, Encodable v) : NulFree (utf8Of vs) :=
  text_nulFree (text_utf8Of h)

theorem scan16_lenient {s : List U16} {vs : List Nat} {e : End16} (h : Scan16 false s vs e)
    (he : e ≠ .bad) : Scan16 true s vs e := by
  induction h with
  | done => exact .done
  | cut hh => exact .cut hh
  | badHigh _ _ _ => exact absurd rfl he
  | badLow _ _ => exact absurd rfl he
  | unit h0 hn hx _ ih => exact .unit h0 hn (.inl rfl) (ih he)
  | pair hh hl _ ih => exact .pair hh hl (ih he)

/-! ## The conversions on encoded text -/

theorem toUtf16From8S_utf8Of {vs : List Nat} (h : ∀ v ∈ vs, Scalar v) :
    toUtf16From8S (utf8Of vs) = .ok (utf16Of vs) := by
  have he := fun v hv => scalar_encodable (h v hv)
  unfold toUtf16From8S
  rw [cStr_nulFree (utf8Of_nulFree he), toUtf16From8_text (utf8Of_nulFree he)
    (scan_of_text (text_utf8Of he)), if_pos ⟨rfl, fun v hv => (h v hv).2.1⟩]

theorem toUcs2From8S_utf8Of {vs : List Nat} (h : ∀ v ∈ vs, Bmp v) :
    toUcs2From8S (utf8Of vs) = .ok (ucs2Of vs) := by
  have he := fun v hv => scalar_encodable (bmp_scalar (h v hv))
  unfold toUcs2From8S
  rw [cStr_nulFree (utf8Of_nulFree he), toUcs2From8_text (utf8Of_nulFree he)
    (scan_of_text (text_utf8Of he)), if_pos ⟨rfl, fun v hv => (h v hv).2.1⟩]

theorem toUcs4From8S_utf8Of {vs : List Nat} (h : ∀ v ∈ vs, Encodable v) :
    toUcs4From8S (utf8Of vs) = .ok (ucs4Of vs) := by
  unfold toUcs4From8S
  rw [cStr_nulFree (utf8Of_nulFree h), toUcs4From8_text (utf8Of_nulFree h)
    (scan_of_text (text_utf8Of h))]; rfl

theorem toUcs4From16S_utf16Of {vs : List Nat} (h : ∀ v ∈ vs, Scalar v) :
    toUcs4From16S (utf16Of vs) = .ok (ucs4Of vs) := by
  unfold toUcs4From16S
  rw [cStr_nulFree (utf16Of_nulFree h), toUcs4From16_text (utf16Of_nulFree h) (scan16_utf16Of h)]; rfl

theorem toUtf8From16S_utf16Of {vs : List Nat} (h : ∀ v ∈ vs, Scalar v) :
    toUtf8From16S (utf16Of vs) = .ok (utf8Of vs) := by
  unfold toUtf8From16S
  rw [cStr_nulFree (utf16Of_nulFree h), toUtf8From16_text (utf16Of_nulFree h) (scan16_utf16Of h)]; rfl

theorem toUtf8From32S_ucs4Of {vs : List Nat} (h : ∀ v ∈ vs, Encodable v) :
    toUtf8From32S (ucs4Of vs) = .ok (utf8Of vs) := by
  unfold toUtf8From32S
  rw [cStr_nulFree (ucs4Of_nulFree h), toUtf8From32_buf (ucs4Of_nulFree h),
    if_pos ((ucs4Of_forall (P := fun v => v ≤ 0x7FFFFFFF ∧ ¬ Surrogate v) h).2 fun v hv => ⟨(h v hv).2.1, (h v hv).2.2⟩), vals_ucs4Of h]

theorem toUtf16From32S_ucs4Of {vs : List Nat} (h : ∀ v ∈ vs, Encodable v) :
    toUtf16From32S (ucs4Of vs) = .ok (if ∀ v ∈ vs, v ≤ 0x10FFFF then utf16Of vs else []) := by
  unfold toUtf16From32S
  rw [cStr_nulFree (ucs4Of_nulFree h), toUtf16From32_buf (ucs4Of_nulFree h), vals_ucs4Of h]
  congr 1
  have : (∀ c ∈ ucs4Of vs, c.toNat ≤ 0x10FFFF ∧ ¬ Surrogate c.toNat) ↔ ∀ v ∈ vs, v ≤ 0x10FFFF := by
    rw [ucs4Of_forall (P := fun v => v ≤ 0x10FFFF ∧ ¬ Surrogate v) h]
    exact ⟨fun hh v hv => (hh v hv).1, fun hh v hv => ⟨hh v hv, (h v hv).2.2⟩⟩
  simp only [this]

theorem toUcs2From32S_ucs4Of {vs : List Nat} (h : ∀ v ∈ vs, Encodable v) :
    toUcs2From32S (ucs4Of vs) = .ok (if ∀ v ∈ vs, v ≤ 0xFFFF then ucs2Of vs else []) := by
  unfold toUcs2From32S
  rw [cStr_nulFree (ucs4Of_nulFree h), toUcs2From32_buf (ucs4Of_nulFree h), vals_ucs4Of h]
  congr 1
  have : (∀ c ∈ ucs4Of vs, c.toNat ≤ 0xFFFF ∧ ¬ Surrogate c.toNat) ↔ ∀ v ∈ vs, v ≤ 0xFFFF := by
    rw [ucs4Of_forall (P := fun v => v ≤ 0xFFFF ∧ ¬ Surrogate v) h]
    exact ⟨fun hh v hv => (hh v hv).1, fun hh v hv => ⟨hh v hv, (h v hv).2.2⟩⟩
  simp only [this]

/-! ## The conversions on any string -/

theorem toUcs4From8S_any (s : List Byte) : ∃ vs e, Scan (textOf s) vs e ∧
    toUcs4From8S s = .ok (if e.ok then ucs4Of vs else []) ∧
    toUtf16From8S s = .ok (if e.ok ∧ ∀ v ∈ vs, v ≤ 0x10FFFF then utf16Of vs else []) ∧
    toUcs2From8S s = .ok (if e.ok ∧ ∀ v ∈ vs, v ≤ 0xFFFF then ucs2Of vs else []) := by
  have hn := textOf_nulFree s
  obtain ⟨vs, e, h⟩ := scan_exists hn
  obtain ⟨post, hp⟩ := cStr_text s
  refine ⟨vs, e, h, ?_, ?_, ?_⟩
  · unfold toUcs4From8S; rw [hp, toUcs4From8_text hn h]
  · unfold toUtf16From8S; rw [hp, toUtf16From8_text hn h]
  · unfold toUcs2From8S; rw [hp, toUcs2From8_text hn h]

theorem toUcs4From16S_any (s : List U16) : ∃ vs e, Scan16 false (textOf s) vs e ∧
    toUcs4From16S s = .ok (if e.ok then ucs4Of vs else []) := by
  have hn := textOf_nulFree s
  obtain ⟨vs, e, h⟩ := scan16_exists false hn
  obtain ⟨post, hp⟩ := cStr_text s
  refine ⟨vs, e, h, ?_⟩
  unfold toUcs4From16S; rw [hp, toUcs4From16_text hn h]

theorem toUtf8From16S_any (s : List U16) : ∃ vs e, Scan16 true (textOf s) vs e ∧
    toUtf8From16S s = .ok (if e.ok then utf8Of vs else []) := by
  have hn := textOf_nulFree s
  obtain ⟨vs, e, h⟩ := scan16_exists true hn
  obtain ⟨post, hp⟩ := cStr_text s
  refine ⟨vs, e, h, ?_⟩
  unfold toUtf8From16S; rw [hp, toUtf8From16_text hn h]

theorem toUtf8From32S_any (s : List U32) : toUtf8From32S s =
    .ok (if ∀ c ∈ textOf s, c.toNat ≤ 0x7FFFFFFF ∧ ¬ Surrogate c.toNat then
      utf8Of (vals (textOf s)) else []) := by
  obtain ⟨post, hp⟩ := cStr_text s
  unfold toUtf8From32S; rw [hp, toUtf8From32_buf (textOf_nulFree s)]

theorem toUtf16From32S_any (s : List U32) : toUtf16From32S s =
    .ok (if ∀ c ∈ textOf s, c.toNat ≤ 0x10FFFF ∧ ¬ Surrogate c.toNat then
      utf16Of (vals (textOf s)) else []) := by
  obtain ⟨post, hp⟩ := cStr_text s
  unfold toUtf16From32S; rw [hp, toUtf16From32_buf (textOf_nulFree s)]

theorem toUcs2From32S_any (s : List U32) : toUcs2From32S s =
    .ok (if ∀ c ∈ textOf s, c.toNat ≤ 0xFFFF ∧ ¬ Surrogate c.toNat then
      ucs2Of (vals (textOf s)) else []) := by
  obtain ⟨post, hp⟩ := cStr_text s
  unfold toUcs2From32S; rw [hp, toUcs2From32_buf (textOf_nulFree s)]

/-! ## The validators on any string -/

theorem isUtf8S_any (U : CharClass) (r : Spec.Range) (pred : Pred) {s : List Byte} {vs : List Nat}
    {e : End} (h : Scan (textOf s) vs e) :
    ∃ b, isUtf8S U s r.code pred = .ok b ∧
      (b = true ↔ ((∀ v ∈ vs, Acc8 r v ∧ pred.call32 U v = true) ∧ EndOk r e)) := by
  obtain ⟨post, hp⟩ := cStr_text s
  unfold isUtf8S
  rw [hp]
  exact isUtf8_text U r pred (textOf_nulFree s) h post

theorem isUtf16S_any (U : CharClass) (r : Spec.Range) (pred : Pred) {s : List U16} {vs : List Nat}
    {e : End16} (h : Scan16 false (textOf s) vs e) :
    ∃ b, isUtf16S U s r.code pred = .ok b ∧
      (b = true ↔ ((∀ v ∈ vs, AccFlags r v ∧ pred.call16 U (predUnit v) = true) ∧ EndOk16 r e)) := by
  obtain ⟨post, hp⟩ := cStr_text s
  unfold isUtf16S
  rw [hp]
  exact isUtf16_text U r pred (textOf_nulFree s) h post

theorem isUcs2S_any (U : CharClass) (r : Spec.Range) (pred : Pred) (s : List U16) :
    ∃ b, isUcs2S U s r.code pred = .ok b ∧
      (b = true ↔ ∀ c ∈ textOf s, ¬ Surrogate c.toNat ∧ AccFlags r c.toNat ∧
        pred.call16 U c.toNat = true) := by
  obtain ⟨post, hp⟩ := cStr_text s
  unfold isUcs2S
  rw [hp]
  exact isUcs2_buf U r pred (textOf_nulFree s) post

theorem isUcs4S_any (U : CharClass) (r : Spec.Range) (pred : Pred) (s : List U32) :
    ∃ b, isUcs4S U s r.code pred = .ok b ∧
      (b = true ↔ ∀ c ∈ textOf s, ¬ Surrogate c.toNat ∧ AccFlags r c.toNat ∧
        pred.call32 U c.toNat = true) := by
  obtain ⟨post, hp⟩ := cStr_text s
  unfold isUcs4S
  rw [hp]
  exact isUcs4_buf U r pred (textOf_nulFree s) post

/-- An accepted string: from the value to the characterisation. -/
theorem of_ok_true {x : Res Bool} {P : Prop} (h : ∃ b, x = .ok b ∧ (b = true ↔ P))
    (hx : x = .ok true) : P := by
  obtain ⟨b, hb, hp⟩ := h
  rw [hb] at hx
  cases hx
  exact hp.1 rfl

theorem ok_true_of {x : Res Bool} {P : Prop} (h : ∃ b, x = .ok b ∧ (b = true ↔ P)) (hp : P) :
    x = .ok true := by
  obtain ⟨b, hb, hpb⟩ := h
  rw [hb, hpb.2 hp]

theorem ok_true_iff {x : Res Bool} {P : Prop} (h : ∃ b, x = .ok b ∧ (b = true ↔ P)) :
    x = .ok true ↔ P := ⟨of_ok_true h, ok_true_of h⟩

theorem ok_false_of {x : Res Bool} {P : Prop} (h : ∃ b, x = .ok b ∧ (b = true ↔ P)) (hp : ¬ P) :
    x = .ok false := by
  obtain ⟨b, hb, hpb⟩ := h
  cases b with
  | false => exact hb
  | true => exact absurd (hpb.1 rfl) hp

end Ansak
