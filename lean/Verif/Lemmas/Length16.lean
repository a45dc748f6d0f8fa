import Verif.Lemmas.Length

/-!
# The length-terminated UTF-16 and UCS-4 counts
-/

namespace Ansak

open Spec (NulFree HighSurrogate LowSurrogate Surrogate Scalar utf16 utf16Of Utf16Incomplete)

/-- The count reads one unit after a last unit that is not a surrogate. -/
def OneMore16 (s x : List U16) : Prop := ∀ pre c, s = pre ++ [c] → ¬ Surrogate c.toNat → x ≠ []

theorem OneMore16.of_ne {s x : List U16} (h : x ≠ []) : OneMore16 s x := fun _ _ _ _ => h

theorem OneMore16.tail {a s x : List U16} (h : OneMore16 (a ++ s) x) : OneMore16 s x :=
  fun pre c e hc => h (a ++ pre) c (by rw [e, List.append_assoc]) hc

theorem usub_of_le {a b : Nat} (h : b ≤ a) (ha : a < 4294967296) : usub a b = a - b := by
  unfold usub; omega

theorem unicodeLength16_unit {c : U16} {r x : List U16} (h0 : c ≠ 0) (hs : ¬ Surrogate c.toNat)
    (hx : r ≠ [] ∨ OneMore16 (c :: r) x) (hlen : (c :: r).length < 4294967296) (n : Nat) :
    unicodeLength16Loop true (c :: (r ++ x)) (c :: r).length n =
      if r = [] then .ok (uintOf (n + 1))
      else unicodeLength16Loop true (r ++ x) r.length (n + 1) := by
  rw [surrogate_iff, not_or] at hs
  have hne : r ++ x ≠ [] := by
    intro h
    have ⟨h1, h2⟩ := List.append_eq_nil_iff.1 h
    subst h1
    rcases hx with hx | hx
    · exact hx rfl
    · exact hx [] c rfl (by rw [surrogate_iff, not_or]; exact hs) h2
  obtain ⟨y, z, hyz⟩ := cons_of_ne_nil hne
  rw [unicodeLength16Loop.eq_def, hyz]
  simp only [if_neg h0, isFirst_false hs.1, isSecond_false hs.2, Bool.false_eq_true, if_false, true_and,
    unicodeLength16Advance, if_true]
  rw [if_neg (show ¬ 1 > (c :: r).length by simp)]
  by_cases hr : r = []
  · subst hr; rw [if_pos rfl]; rfl
  · have hpos : 0 < r.length := List.length_pos_iff.2 hr
    rw [if_neg hr, if_neg (by rw [List.length_cons]; omega), usub_of_le (by simp) hlen]
    rfl

theorem unicodeLength16_pair {h l : U16} {r x : List U16} (hh : HighSurrogate h.toNat)
    (hl : LowSurrogate l.toNat) (hlen : (h :: l :: r).length < 4294967296) (n : Nat) :
    unicodeLength16Loop true (h :: l :: (r ++ x)) (h :: l :: r).length n =
      if r = [] then .ok (uintOf (n + 1))
      else unicodeLength16Loop true (r ++ x) r.length (n + 1) := by
  rw [unicodeLength16Loop.eq_def]
  simp only [if_neg (high_ne_zero hh), isFirst_true hh, isSecond_false (high_not_low hh),
    if_neg (low_ne_zero hl), isSecond_true hl, unicodeLength16Advance, true_and, if_true,
    Bool.false_eq_true, if_false]
  rw [if_neg (show ¬ 2 > (h :: l :: r).length by simp)]
  by_cases hr : r = []
  · subst hr; rw [if_pos rfl]; rfl
  · have hpos : 0 < r.length := List.length_pos_iff.2 hr
    rw [if_neg hr, if_neg (by simp only [List.length_cons]; omega), usub_of_le (by simp) hlen]
    rfl

/-- One character of a length-terminated count. -/
theorem unicodeLength16_char {v : Nat} (hv : Scalar v) {r x : List U16}
    (hx : r ≠ [] ∨ OneMore16 (utf16 v ++ r) x) (hlen : (utf16 v ++ r).length < 4294967296) (n : Nat) :
    unicodeLength16Loop true (utf16 v ++ (r ++ x)) (utf16 v ++ r).length n =
      if r = [] then .ok (uintOf (n + 1))
      else unicodeLength16Loop true (r ++ x) r.length (n + 1) := by
  obtain ⟨h1, h2, h3⟩ := hv
  unfold utf16 at *
  by_cases hb : v < 0x10000
  · have e : (BitVec.ofNat 16 v).toNat = v := by rw [BitVec.toNat_ofNat]; omega
    rw [if_pos hb] at *
    exact unicodeLength16_unit (bv_ne_zero (by omega)) (by rw [e]; exact h3) hx hlen n
  · rw [if_neg hb] at *
    have e1 : (BitVec.ofNat 16 (0xD800 + (v - 0x10000) / 0x400)).toNat = 0xD800 + (v - 0x10000) / 0x400 := by
      rw [BitVec.toNat_ofNat]; omega
    have e2 : (BitVec.ofNat 16 (0xDC00 + (v - 0x10000) % 0x400)).toNat = 0xDC00 + (v - 0x10000) % 0x400 := by
      rw [BitVec.toNat_ofNat]; omega
    exact unicodeLength16_pair (by rw [e1]; unfold HighSurrogate; omega)
      (by rw [e2]; unfold LowSurrogate; omega) hlen n

theorem unicodeLength16_len {vs : List Nat} (hv : ∀ v ∈ vs, Scalar v) {t x : List U16}
    (hne : utf16Of vs ++ t ≠ []) (hx : OneMore16 (utf16Of vs ++ t) x)
    (hlen : (utf16Of vs ++ t).length < 4294967296) (n : Nat) :
    unicodeLength16Loop true (utf16Of vs ++ (t ++ x)) (utf16Of vs ++ t).length n =
      if t = [] then .ok (uintOf (n + vs.length))
      else unicodeLength16Loop true (t ++ x) t.length (n + vs.length) := by
  induction vs generalizing n with
  | nil =>
    have hne : t ≠ [] := hne
    rw [if_neg hne]; rfl
  | cons v vs ih =>
    have e : utf16Of (v :: vs) = utf16 v ++ utf16Of vs := rfl
    rw [e, List.append_assoc] at hx hlen
    rw [e, List.append_assoc, List.append_assoc, ← List.append_assoc (utf16Of vs) t x,
      unicodeLength16_char (hv v (by simp)) (.inr hx) hlen, List.append_assoc]
    by_cases hr : utf16Of vs ++ t = []
    · rw [if_pos hr]
      have ⟨h1, h2⟩ := List.append_eq_nil_iff.1 hr
      have : vs = [] := by
        cases vs with
        | nil => rfl
        | cons w ws =>
          have : utf16 w = [] := (List.append_eq_nil_iff.1 h1).1
          unfold utf16 at this
          split at this <;> simp at this
      subst this
      rw [if_pos h2]; rfl
    · rw [if_neg hr, ih (fun w hw => hv w (by simp [hw])) hr hx.tail
        (by rw [List.length_append] at hlen; omega)]
      have : n + 1 + vs.length = n + (v :: vs).length := by rw [List.length_cons]; omega
      rw [this]

/-- A text that does not end in a surrogate pair is over-read. -/
theorem unicodeLength16_over {vs : List Nat} (hv : ∀ v ∈ vs, Scalar v) {c : U16} (h0 : c ≠ 0)
    (hc : ¬ Surrogate c.toNat) (hlen : (utf16Of vs ++ [c]).length < 4294967296) (n : Nat) :
    unicodeLength16Loop true (utf16Of vs ++ [c]) (utf16Of vs ++ [c]).length n = .ub := by
  induction vs generalizing n with
  | nil =>
    rw [surrogate_iff, not_or] at hc
    show unicodeLength16Loop true [c] 1 n = _
    rw [unicodeLength16Loop.eq_def]
    simp only [if_neg h0, isFirst_false hc.1, isSecond_false hc.2, Bool.false_eq_true, if_false, true_and]
    rw [if_neg (by decide)]
  | cons v vs ih =>
    have e : utf16Of (v :: vs) = utf16 v ++ utf16Of vs := rfl
    rw [e, List.append_assoc] at hlen
    have hne : utf16Of vs ++ [c] ≠ [] := by simp
    have := unicodeLength16_char (hv v (by simp)) (x := []) (.inl hne) hlen n
    rw [List.append_nil, if_neg hne] at this
    rw [e, List.append_assoc, this]
    exact ih (fun w hw => hv w (by simp [hw])) (by rw [List.length_append] at hlen; omega) _

/-! The ends of a count. -/

theorem unicodeLength16_nul (t : List U16) (l n : Nat) :
    unicodeLength16Loop true (0 :: t) l n = .ok 0 := by
  rw [unicodeLength16Loop.eq_def]; simp

theorem unicodeLength16_low {c : U16} (hl : LowSurrogate c.toNat) (t : List U16) (l n : Nat) :
    unicodeLength16Loop true (c :: t) l n = .ok 0 := by
  rw [unicodeLength16Loop.eq_def]
  simp only [if_neg (low_ne_zero hl), isSecond_true hl, if_true]

theorem unicodeLength16_cut {c : U16} (hh : HighSurrogate c.toNat) (t : List U16) (n : Nat) :
    unicodeLength16Loop true (c :: t) 1 n = .ok (uintOf n) := by
  rw [unicodeLength16Loop.eq_def]
  simp only [if_neg (high_ne_zero hh), isFirst_true hh, isSecond_false (high_not_low hh), true_and,
    if_true, Bool.false_eq_true, if_false]
  rw [if_pos (by decide)]

theorem unicodeLength16_high {c d : U16} (hh : HighSurrogate c.toNat) (hd : ¬ LowSurrogate d.toNat)
    (t : List U16) {l : Nat} (hl : 2 ≤ l) (n : Nat) :
    unicodeLength16Loop true (c :: d :: t) l n = .ok (if d = 0 then uintOf n - 1 else 0) := by
  rw [unicodeLength16Loop.eq_def]
  simp only [if_neg (high_ne_zero hh), isFirst_true hh, isSecond_false (high_not_low hh), true_and,
    if_true, Bool.false_eq_true, if_false, isSecond_false hd]
  rw [if_neg (by omega)]
  split <;> rfl

/-! ## UCS-4 -/

theorem unicodeLength32_len {s : List U32} (hne : s ≠ []) (x : List U32) (n N : Nat)
    (hN : n + s.length = N) :
    unicodeLength32Loop true N (s ++ x) n =
      .ok (if ∀ c ∈ s, c ≠ 0 ∧ ¬ Surrogate c.toNat then uintOf N else 0) := by
  induction s generalizing n with
  | nil => exact absurd rfl hne
  | cons c s ih =>
    rw [List.length_cons] at hN
    rw [List.cons_append, unicodeLength32Loop.eq_def]
    simp only [isFirstHalf_iff, isSecondHalf_iff, ← surrogate_iff, List.forall_mem_cons, if_true, true_and]
    by_cases h0 : c = 0
    · rw [if_pos h0, if_neg (fun h => h.1.1 h0)]
    rw [if_neg h0]
    by_cases hs : Surrogate c.toNat
    · rw [if_pos hs, if_neg (fun h => h.1.2 hs)]
    rw [if_neg hs]
    by_cases he : s = []
    · subst he
      rw [List.length_nil] at hN
      rw [if_pos (by omega), if_pos ⟨⟨h0, hs⟩, by simp⟩]
      rw [← hN]
    · have : 0 < s.length := List.length_pos_iff.2 he
      rw [if_neg (by omega), ih he (n + 1) (by omega)]
      simp only [h0, hs, ne_eq, not_false_eq_true, true_and]

end Ansak
