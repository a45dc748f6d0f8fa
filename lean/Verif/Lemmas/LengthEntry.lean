import Verif.Lemmas.Length16

/-!
# The length-terminated functions in terms of the bytes they are given
-/

namespace Ansak

open Spec (NulFree Utf8Char Utf8Text Surrogate HighSurrogate LowSurrogate LooksLow LooksHigh wanted NoChar
  CutByNul TailOk announced Truncated Scalar utf16 utf16Of)

theorem length_ne_zero {α : Type} {p : List α} {n : U32} (hne : p ≠ []) (hlen : n.toNat = p.length) :
    (n != 0) = true := by
  have : 0 < p.length := List.length_pos_iff.2 hne
  exact bne_iff_ne.2 (bv_ne_zero (by omega))

theorem isUtf8Len_buf (U : CharClass) (pred : Pred) {a t : List Byte} {vs : List Nat}
    (ha : Utf8Text a vs) (hn : t = [] ∨ NoChar t) (hne : a ++ t ≠ []) {n : U32}
    (hlen : n.toNat = (a ++ t).length) (x : List Byte) (hx : OneMore t x) :
    ∃ b, isUtf8Len U (some (a ++ (t ++ x))) n pred = .ok b ∧
      (b = true ↔ (a ++ t).head? = some 0 ∨
        ((∀ v ∈ vs, pred.call32 U v = true) ∧ (t = [] ∨ TailOk t))) := by
  obtain ⟨b, h1, h2⟩ := isUtf8Loop_text U pred ha hne hn x hx
  have hnz := length_ne_zero hne hlen
  obtain ⟨c, s, hcs⟩ := cons_of_ne_nil hne
  have e : a ++ (t ++ x) = c :: (s ++ x) := by rw [← List.append_assoc, hcs]; rfl
  unfold isUtf8Len isUtf8Internal
  simp only [hnz]
  rw [if_neg (by decide : ¬ (kUtf8 < kAscii ∨ kUtf8 > kUnicode))]
  simp only [e, readAt, List.getElem?_cons_zero, Res.bind_ok]
  by_cases h0 : c = 0
  · rw [if_pos h0]
    exact ⟨true, rfl, by simp [hcs, h0]⟩
  · rw [if_neg h0, hlen, ← e]
    refine ⟨b, h1, ?_⟩
    rw [h2, hcs]
    exact (or_iff_right fun h => h0 (Option.some.inj h)).symm

theorem unicodeLength8_buf {p x : List Byte} (hne : p ≠ []) {n : U32} (hlen : n.toNat = p.length) :
    unicodeLength8 (some (p ++ x)) n =
      if p.head? = some 0 then .ok 0
      else unicodeLength8Loop true (p ++ x) p.length ((p ++ x).length + 1) 0 := by
  have hnz := length_ne_zero hne hlen
  obtain ⟨c, s, rfl⟩ := cons_of_ne_nil hne
  unfold unicodeLength8
  simp only [hnz, List.cons_append, readAt, List.getElem?_cons_zero, Res.bind_ok, hlen]
  simp

/-- Texts in which the first byte is NUL have no characters. -/
theorem head_nul {a t : List Byte} {vs : List Nat} (ha : Utf8Text a vs)
    (h : (a ++ t).head? = some 0) : a = [] ∧ ∃ w, t = 0 :: w := by
  cases ha with
  | nil =>
    cases t with
    | nil => simp at h
    | cons c w => exact ⟨rfl, w, by simpa using h⟩
  | @cons bs s v vs hc hs =>
    obtain ⟨b, u, y, rfl, hb, _⟩ := at_char hc []
    simp at h
    exact absurd h hb

theorem unicodeLength8_valid {a : List Byte} {vs : List Nat} (ha : Utf8Text a vs) (hne : a ≠ [])
    {n : U32} (hlen : n.toNat = a.length) (hv : ∀ v ∈ vs, v ≤ 0x10FFFF) (x : List Byte) :
    unicodeLength8 (some (a ++ x)) n = .ok (uintOf vs.length) := by
  have h32 := n.isLt
  rw [unicodeLength8_buf hne hlen, if_neg]
  · have := unicodeLength8Loop_text ha (t := []) (by simpa using hne) x (by simp; omega) 0
    simp only [List.append_nil, List.nil_append, Nat.zero_add] at this
    rw [this, if_pos hv]; rfl
  · intro h
    have := head_nul (t := []) ha (by simpa using h)
    exact hne this.1

theorem unicodeLength8_tail {a t : List Byte} {vs : List Nat} (ha : Utf8Text a vs) (hne : t ≠ [])
    {n : U32} (hlen : n.toNat = (a ++ t).length) (h0 : (a ++ t).head? ≠ some 0) (x : List Byte) :
    unicodeLength8 (some (a ++ (t ++ x))) n =
      if ∀ v ∈ vs, v ≤ 0x10FFFF then
        unicodeLength8Loop true (t ++ x) t.length ((t ++ x).length + 1) vs.length
      else .ok 0 := by
  have h32 := n.isLt
  have hne' : a ++ t ≠ [] := by simp [hne]
  have := unicodeLength8_buf (x := x) hne' hlen
  rw [List.append_assoc] at this
  rw [this, if_neg h0, unicodeLength8Loop_text ha hne' x (by omega) 0]
  simp only [if_neg hne, Nat.zero_add]

theorem unicodeLength16_buf {p : List U16} (hne : p ≠ []) {n : U32} (hlen : n.toNat = p.length)
    (x : List U16) :
    unicodeLength16 (some (p ++ x)) n = unicodeLength16Loop true (p ++ x) p.length 0 := by
  unfold unicodeLength16
  simp only [length_ne_zero hne hlen, hlen]

theorem unicodeLength16_prefix {vs : List Nat} (hv : ∀ v ∈ vs, Scalar v) {t : List U16}
    (hne : utf16Of vs ++ t ≠ []) {n : U32} (hlen : n.toNat = (utf16Of vs ++ t).length) (x : List U16)
    (hx : OneMore16 (utf16Of vs ++ t) x) :
    unicodeLength16 (some (utf16Of vs ++ (t ++ x))) n =
      if t = [] then .ok (uintOf vs.length)
      else unicodeLength16Loop true (t ++ x) t.length vs.length := by
  have h32 := n.isLt
  have := unicodeLength16_buf hne hlen x
  rw [List.append_assoc] at this
  rw [this, unicodeLength16_len hv hne hx (by omega) 0, Nat.zero_add]

theorem unicodeLength32_lenBuf {p : List U32} (hne : p ≠ []) {n : U32} (hlen : n.toNat = p.length)
    (x : List U32) :
    unicodeLength32 (some (p ++ x)) n =
      .ok (if ∀ c ∈ p, c ≠ 0 ∧ ¬ Surrogate c.toNat then n else 0) := by
  unfold unicodeLength32
  simp only [length_ne_zero hne hlen]
  rw [unicodeLength32_len hne x 0 n.toNat (by omega)]
  have : uintOf n.toNat = n := by unfold uintOf; exact u32_eq rfl
  rw [this]

/-- A genuinely incomplete character never looks like a low surrogate. -/
theorem incomplete_not_low {P : Nat → Prop} {t : List Byte} (h : Spec.Utf8Incomplete P t) :
    ¬ LooksLow t := by
  obtain ⟨ht, bs, v, more, hc, _, hm, e⟩ := h
  have := (wanted_char hc []).2
  rw [List.append_nil, e] at this
  intro hl
  apply this
  match t, hl with
  | b :: c :: t, hl => exact hl

theorem truncated_short {t : List Byte} (h : Truncated t) : t.length ≤ 5 := by
  cases h with
  | @short b cs hc hl =>
    have h6 : announced b ≤ 6 := by
      unfold announced
      repeat' split
      all_goals omega
    rw [List.length_cons]; omega
  | half0 => simp
  | half1 => simp
  | half2 => simp

theorem wanted_le {b : Byte} (t : List Byte) (h1 : 0xC0 ≤ b.toNat) (h2 : b.toNat ≤ 0xFD) :
    wanted (b :: t) ≤ 6 := by
  rw [wanted_cons]
  split
  · decide
  · have h : 0 < announced b ∧ announced b ≤ 6 := by
      unfold announced
      rw [if_neg (by omega)]
      repeat' split
      all_goals omega
    rw [if_neg (by omega), if_neg (by omega)]
    exact h.2

/-- A NUL-free tail has no NUL to break off at. -/
theorem not_cutByNul {t : List Byte} (h : NulFree t) : ¬ CutByNul t := by
  rintro ⟨u, w, rfl, _⟩
  exact (NulFree.cons.1 (NulFree.append.1 h).2).1 rfl

/-- Every UTF-16 string is well-formed text followed by one of the ways in which text can stop. -/
theorem text_split16 (p : List U16) : ∃ vs t, p = utf16Of vs ++ t ∧ (∀ v ∈ vs, Scalar v) ∧
    (t = [] ∨ Spec.Utf16Incomplete t ∨ (∃ s, t = 0 :: s) ∨ (∃ c s, t = c :: s ∧ LowSurrogate c.toNat) ∨
      ∃ h c s, t = h :: c :: s ∧ HighSurrogate h.toNat ∧ ¬ LowSurrogate c.toNat) := by
  induction hk : p.length using Nat.strongRecOn generalizing p with
  | _ k ih =>
  match p with
  | [] => exact ⟨[], [], rfl, by simp, .inl rfl⟩
  | c :: s =>
    by_cases h0 : c = 0
    · exact ⟨[], c :: s, rfl, by simp, .inr (.inr (.inl ⟨s, by rw [h0]⟩))⟩
    by_cases hl : LowSurrogate c.toNat
    · exact ⟨[], c :: s, rfl, by simp, .inr (.inr (.inr (.inl ⟨c, s, rfl, hl⟩)))⟩
    by_cases hh : HighSurrogate c.toNat
    · match s with
      | [] => exact ⟨[], [c], rfl, by simp, .inr (.inl ⟨c, rfl, hh⟩)⟩
      | d :: s =>
        by_cases hd : LowSurrogate d.toNat
        · obtain ⟨vs, t, rfl, hv, ht⟩ := ih s.length (by subst hk; simp; omega) s rfl
          refine ⟨Spec.pairValue c.toNat d.toNat :: vs, t, ?_, ?_, ht⟩
          · have : utf16 (Spec.pairValue c.toNat d.toNat) = [c, d] := by
              have hb := pairValue_bounds hh hd
              unfold utf16
              rw [if_neg (by omega)]
              unfold HighSurrogate at hh; unfold LowSurrogate at hd
              have e1 : 0xD800 + (Spec.pairValue c.toNat d.toNat - 0x10000) / 0x400 = c.toNat := by
                unfold Spec.pairValue; omega
              have e2 : 0xDC00 + (Spec.pairValue c.toNat d.toNat - 0x10000) % 0x400 = d.toNat := by
                unfold Spec.pairValue; omega
              rw [e1, e2, BitVec.ofNat_toNat, BitVec.setWidth_eq, BitVec.ofNat_toNat, BitVec.setWidth_eq]
            show _ = utf16 _ ++ utf16Of vs ++ t
            rw [this]; rfl
          · rw [List.forall_mem_cons]
            have hb := pairValue_bounds hh hd
            exact ⟨by unfold Scalar Surrogate; omega, hv⟩
        · exact ⟨[], c :: d :: s, rfl, by simp, .inr (.inr (.inr (.inr ⟨c, d, s, rfl, hh, hd⟩)))⟩
    · obtain ⟨vs, t, rfl, hv, ht⟩ := ih s.length (by subst hk; simp) s rfl
      have hc := c.isLt
      have hs : ¬ Surrogate c.toNat := by rw [surrogate_iff]; simp [hl, hh]
      refine ⟨c.toNat :: vs, t, ?_, ?_, ht⟩
      · show _ = utf16 c.toNat ++ utf16Of vs ++ t
        rw [utf16_bmp (by omega)]
        show _ = BitVec.ofNat 16 c.toNat :: _
        rw [BitVec.ofNat_toNat, BitVec.setWidth_eq]; rfl
      · rw [List.forall_mem_cons]
        refine ⟨⟨?_, by omega, hs⟩, hv⟩
        have : c.toNat ≠ 0 := fun h => h0 (BitVec.eq_of_toNat_eq h)
        omega

theorem ne_nil_of_length {α : Type} {n : U32} (hn : n ≠ 0) {p : List α} (h : n.toNat = p.length) :
    p ≠ [] := by
  rintro rfl
  exact hn (BitVec.eq_of_toNat_eq h)

end Ansak
