import Verif.Lemmas.Loops8
import Verif.Spec.Args

/-!
# The null-terminated UTF-16, UCS-2 and UCS-4 loops in terms of the text
-/

namespace Ansak

open Spec (NulFree Scalar HighSurrogate LowSurrogate Surrogate)

/-- How a UTF-16 scan ends. -/
inductive End16 where
  | done
  /-- a high surrogate is the last unit -/
  | cut
  /-- an unpaired surrogate elsewhere -/
  | bad

/-- `Scan16 lenient s vs e`: reading the UTF-16 text `s` gives `vs` and ends as `e` says. A lenient
scan takes an unpaired low surrogate for a character. -/
inductive Scan16 (lenient : Bool) : List U16 → List Nat → End16 → Prop
  | done : Scan16 lenient [] [] .done
  | cut {h : U16} : HighSurrogate h.toNat → Scan16 lenient [h] [] .cut
  | badHigh {h c : U16} {s : List U16} : HighSurrogate h.toNat → c ≠ 0 → ¬ LowSurrogate c.toNat →
      Scan16 lenient (h :: c :: s) [] .bad
  | badLow {c : U16} {s : List U16} : lenient = false → LowSurrogate c.toNat →
      Scan16 lenient (c :: s) [] .bad
  | unit {c : U16} {s : List U16} {vs : List Nat} {e : End16} : c ≠ 0 → ¬ HighSurrogate c.toNat →
      (lenient = true ∨ ¬ LowSurrogate c.toNat) → Scan16 lenient s vs e →
      Scan16 lenient (c :: s) (c.toNat :: vs) e
  | pair {h l : U16} {s : List U16} {vs : List Nat} {e : End16} : HighSurrogate h.toNat →
      LowSurrogate l.toNat → Scan16 lenient s vs e →
      Scan16 lenient (h :: l :: s) (Spec.pairValue h.toNat l.toNat :: vs) e

theorem high_ne_zero {c : U16} (h : HighSurrogate c.toNat) : c ≠ 0 :=
  bv_ne_zero (by unfold HighSurrogate at h; omega)

theorem low_ne_zero {c : U16} (h : LowSurrogate c.toNat) : c ≠ 0 :=
  bv_ne_zero (by unfold LowSurrogate at h; omega)

theorem high_not_low {v : Nat} (h : HighSurrogate v) : ¬ LowSurrogate v := by
  unfold HighSurrogate at h; unfold LowSurrogate; omega

theorem low_not_high {v : Nat} (h : LowSurrogate v) : ¬ HighSurrogate v := by
  unfold LowSurrogate at h; unfold HighSurrogate; omega

theorem u16_eq {b : U16} {n : Nat} (h : b.toNat = n) : BitVec.ofNat 16 n = b := by
  rw [← h]; exact BitVec.ofNat_toNat .. |>.trans (BitVec.setWidth_eq b)

theorem toNat_u16 {n : Nat} (h : n < 65536) : (BitVec.ofNat 16 n).toNat = n := by
  rw [BitVec.toNat_ofNat]; omega

theorem toNat_u32 {n : Nat} (h : n < 4294967296) : (BitVec.ofNat 32 n).toNat = n := by
  rw [BitVec.toNat_ofNat]; omega

theorem scan16_exists (lenient : Bool) {s : List U16} (hs : NulFree s) :
    ∃ vs e, Scan16 lenient s vs e := by
  generalize hn : s.length = n
  induction n using Nat.strongRecOn generalizing s with
  | ind n ih =>
    cases s with
    | nil => exact ⟨[], .done, .done⟩
    | cons c s =>
      have ⟨h0, hs⟩ := NulFree.cons.1 hs
      by_cases hh : HighSurrogate c.toNat
      · cases s with
        | nil => exact ⟨[], .cut, .cut hh⟩
        | cons d s =>
          have ⟨h0', hs⟩ := NulFree.cons.1 hs
          by_cases hl : LowSurrogate d.toNat
          · obtain ⟨vs, e, h⟩ := ih s.length (by simp at hn; omega) hs rfl
            exact ⟨_, e, .pair hh hl h⟩
          · exact ⟨[], .bad, .badHigh hh h0' hl⟩
      · by_cases hl : lenient = true ∨ ¬ LowSurrogate c.toNat
        · obtain ⟨vs, e, h⟩ := ih s.length (by simp at hn; omega) hs rfl
          exact ⟨_, e, .unit h0 hh hl h⟩
        · rw [not_or, Decidable.not_not] at hl
          exact ⟨[], .bad, .badLow (by simpa using hl.1) hl.2⟩

theorem rawDecodeUtf16_pair {h l : U16} (hh : HighSurrogate h.toNat) (hl : LowSurrogate l.toNat) :
    (rawDecodeUtf16 h l).toNat = Spec.pairValue h.toNat l.toNat := by
  rw [rawDecodeUtf16_toNat]
  unfold HighSurrogate at hh; unfold LowSurrogate at hl; unfold Spec.pairValue; omega

/-! ## Scans and encoded text -/

theorem utf16_pairValue {h l : U16} (hh : HighSurrogate h.toNat) (hl : LowSurrogate l.toNat) :
    Spec.utf16 (Spec.pairValue h.toNat l.toNat) = [h, l] := by
  unfold HighSurrogate at hh; unfold LowSurrogate at hl
  unfold Spec.utf16 Spec.pairValue
  rw [if_neg (by omega), u16_eq (b := h) (by omega), u16_eq (b := l) (by omega)]

theorem utf16_unit (c : U16) : Spec.utf16 c.toNat = [c] := by
  unfold Spec.utf16
  rw [if_pos (by have := c.isLt; omega), u16_eq rfl]

/-- A scan without failure is the encoding of its values. -/
theorem scan16_encode {lenient : Bool} {s : List U16} {vs : List Nat} {e : End16}
    (h : Scan16 lenient s vs e) (he : e = .done) : s = Spec.utf16Of vs := by
  induction h with
  | done => rfl
  | cut _ => cases he
  | badHigh _ _ _ => cases he
  | badLow _ _ => cases he
  | unit h0 hh hl _ ih =>
    rw [ih he]; simp [Spec.utf16Of, utf16_unit]
  | pair hh hl _ ih =>
    rw [ih he]; simp [Spec.utf16Of, utf16_pairValue hh hl]

theorem scan16_scalar {s : List U16} {vs : List Nat} {e : End16}
    (h : Scan16 false s vs e) : ∀ v ∈ vs, Scalar v := by
  induction h with
  | done => simp
  | cut _ => simp
  | badHigh _ _ _ => simp
  | badLow _ _ => simp
  | @unit c s vs e h0 hh hl _ ih =>
    rw [List.forall_mem_cons]
    refine ⟨⟨?_, ?_, ?_⟩, ih⟩
    · have := toNat_ne_zero h0; omega
    · have := c.isLt; omega
    · rw [surrogate_iff]
      rcases hl with hl | hl
      · cases hl
      · exact fun h => h.elim hh hl
  | pair hh hl _ ih =>
    rw [List.forall_mem_cons]
    have := pairValue_bounds hh hl
    exact ⟨⟨by omega, by omega, by unfold Surrogate; omega⟩, ih⟩

theorem scan16_of_scalars {lenient : Bool} {vs : List Nat} (h : ∀ v ∈ vs, Scalar v) {t : List U16}
    {ws : List Nat} {e : End16} (ht : Scan16 lenient t ws e) :
    Scan16 lenient (Spec.utf16Of vs ++ t) (vs ++ ws) e := by
  induction vs with
  | nil => exact ht
  | cons v vs ih =>
    have ⟨h1, h2, h3⟩ := h v (by simp)
    have ih := ih fun w hw => h w (by simp [hw])
    have h3' := mt (surrogate_iff v).2 h3
    rw [not_or] at h3'
    by_cases hv : v < 0x10000
    · have e1 : Spec.utf16Of (v :: vs) = BitVec.ofNat 16 v :: Spec.utf16Of vs := by
        simp [Spec.utf16Of, Spec.utf16, hv]
      have e2 := toNat_u16 hv
      rw [e1]
      have := Scan16.unit (lenient := lenient) (c := BitVec.ofNat 16 v) (bv_ne_zero (by omega))
        (by rw [e2]; exact h3'.1) (.inr (by rw [e2]; exact h3'.2)) ih
      rw [e2] at this
      exact this
    · have e1 : Spec.utf16Of (v :: vs) = BitVec.ofNat 16 (0xD800 + (v - 0x10000) / 0x400) ::
          BitVec.ofNat 16 (0xDC00 + (v - 0x10000) % 0x400) :: Spec.utf16Of vs := by
        simp [Spec.utf16Of, Spec.utf16, hv]
      rw [e1]
      have ea := toNat_u16 (n := 0xD800 + (v - 0x10000) / 0x400) (by omega)
      have eb := toNat_u16 (n := 0xDC00 + (v - 0x10000) % 0x400) (by omega)
      have hh : HighSurrogate (BitVec.ofNat 16 (0xD800 + (v - 0x10000) / 0x400)).toNat := by
        rw [ea]; unfold HighSurrogate; omega
      have hl : LowSurrogate (BitVec.ofNat 16 (0xDC00 + (v - 0x10000) % 0x400)).toNat := by
        rw [eb]; unfold LowSurrogate; omega
      have := Scan16.pair (lenient := lenient) hh hl ih
      have e2 : Spec.pairValue (0xD800 + (v - 0x10000) / 0x400) (0xDC00 + (v - 0x10000) % 0x400) = v := by
        unfold Spec.pairValue; omega
      rw [ea, eb, e2] at this
      exact this

/-- In a lenient scan a low surrogate that does not follow a high one is a value of its own. -/
theorem scan16_of_lenient {vs : List Nat} (h : ∀ v ∈ vs, Scalar v ∨ LowSurrogate v) {t : List U16}
    {ws : List Nat} {e : End16} (ht : Scan16 true t ws e) :
    Scan16 true (Spec.utf16Of vs ++ t) (vs ++ ws) e := by
  induction vs with
  | nil => exact ht
  | cons v vs ih =>
    have ih := ih fun w hw => h w (by simp [hw])
    rcases h v (by simp) with hv | hv
    · have := scan16_of_scalars (vs := [v]) (by simpa using hv) ih
      simpa [Spec.utf16Of] using this
    · have hlt : v < 0x10000 := by unfold LowSurrogate at hv; omega
      have e1 : Spec.utf16Of (v :: vs) = BitVec.ofNat 16 v :: Spec.utf16Of vs := by
        simp [Spec.utf16Of, Spec.utf16, hlt]
      have e2 := toNat_u16 hlt
      rw [e1]
      have := Scan16.unit (lenient := true) (c := BitVec.ofNat 16 v)
        (low_ne_zero (by rw [e2]; exact hv)) (by rw [e2]; exact low_not_high hv) (.inl rfl) ih
      rw [e2] at this
      exact this

theorem scan16_lenient_values {s : List U16} {vs : List Nat} {e : End16} (h : Scan16 true s vs e) :
    ∀ v ∈ vs, Scalar v ∨ LowSurrogate v := by
  induction h with
  | done => simp
  | cut _ => simp
  | badHigh _ _ _ => simp
  | badLow _ _ => simp
  | @unit c s vs e h0 hh _ _ ih =>
    rw [List.forall_mem_cons]
    refine ⟨?_, ih⟩
    by_cases hl : LowSurrogate c.toNat
    · exact .inr hl
    · refine .inl ⟨?_, ?_, ?_⟩
      · have := toNat_ne_zero h0; omega
      · have := c.isLt; omega
      · rw [surrogate_iff]; exact fun h => h.elim hh hl
  | pair hh hl _ ih =>
    rw [List.forall_mem_cons]
    have := pairValue_bounds hh hl
    exact ⟨.inl ⟨by omega, by omega, by unfold Surrogate; omega⟩, ih⟩

theorem scan16_done_iff {s : List U16} {vs : List Nat} :
    Scan16 false s vs .done ↔ (s = Spec.utf16Of vs ∧ ∀ v ∈ vs, Scalar v) := by
  constructor
  · exact fun h => ⟨scan16_encode h rfl, scan16_scalar h⟩
  · rintro ⟨rfl, h⟩
    have := scan16_of_scalars h (Scan16.done (lenient := false))
    rwa [List.append_nil, List.append_nil] at this

theorem scan16_cut_split {lenient : Bool} {s : List U16} {vs : List Nat} {e : End16}
    (h : Scan16 lenient s vs e) (he : e = .cut) :
    ∃ t, s = Spec.utf16Of vs ++ t ∧ Spec.Utf16Incomplete t := by
  induction h with
  | done => cases he
  | cut hh => exact ⟨_, rfl, _, rfl, hh⟩
  | badHigh _ _ _ => cases he
  | badLow _ _ => cases he
  | unit h0 hh hl _ ih =>
    obtain ⟨t, rfl, ht⟩ := ih he
    exact ⟨t, by simp [Spec.utf16Of, utf16_unit], ht⟩
  | pair hh hl _ ih =>
    obtain ⟨t, rfl, ht⟩ := ih he
    exact ⟨t, by simp [Spec.utf16Of, utf16_pairValue hh hl], ht⟩

theorem scan16_cut_iff {s : List U16} {vs : List Nat} :
    Scan16 false s vs .cut ↔
      ∃ t, s = Spec.utf16Of vs ++ t ∧ Spec.Utf16Incomplete t ∧ ∀ v ∈ vs, Scalar v := by
  constructor
  · intro h
    obtain ⟨t, e, ht⟩ := scan16_cut_split h rfl
    exact ⟨t, e, ht, scan16_scalar h⟩
  · rintro ⟨t, rfl, ⟨h, rfl, hh⟩, hv⟩
    have := scan16_of_scalars hv (Scan16.cut (lenient := false) hh)
    rwa [List.append_nil] at this

theorem scan16_unique {lenient : Bool} {s : List U16} {vs vs' : List Nat} {e e' : End16}
    (h : Scan16 lenient s vs e) (h' : Scan16 lenient s vs' e') : vs = vs' ∧ e = e' := by
  induction h generalizing vs' with
  | done => cases h'; exact ⟨rfl, rfl⟩
  | cut hh =>
    cases h' with
    | cut _ => exact ⟨rfl, rfl⟩
    | badLow _ hl => exact absurd hh (low_not_high hl)
    | unit _ hn _ _ => exact absurd hh hn
  | badHigh hh h0 hl =>
    cases h' with
    | badHigh _ _ _ => exact ⟨rfl, rfl⟩
    | badLow _ hl' => exact absurd hh (low_not_high hl')
    | unit _ hn _ _ => exact absurd hh hn
    | pair _ hl' _ => exact absurd hl' hl
  | badLow hL hl =>
    cases h' with
    | cut hh => exact absurd hh (low_not_high hl)
    | badHigh hh _ _ => exact absurd hh (low_not_high hl)
    | badLow _ _ => exact ⟨rfl, rfl⟩
    | unit _ _ hx _ =>
      rcases hx with hx | hx
      · rw [hL] at hx; cases hx
      · exact absurd hl hx
    | pair hh _ _ => exact absurd hh (low_not_high hl)
  | unit h0 hn hx _ ih =>
    cases h' with
    | cut hh => exact absurd hh hn
    | badHigh hh _ _ => exact absurd hh hn
    | badLow hL hl =>
      rcases hx with hx | hx
      · rw [hL] at hx; cases hx
      · exact absurd hl hx
    | unit _ _ _ h'' => obtain ⟨rfl, rfl⟩ := ih h''; exact ⟨rfl, rfl⟩
    | pair hh _ _ => exact absurd hh hn
  | pair hh hl _ ih =>
    cases h' with
    | badHigh _ _ hl' => exact absurd hl hl'
    | badLow _ hl' => exact absurd hh (low_not_high hl')
    | unit _ hn _ _ => exact absurd hh hn
    | pair _ _ h'' => obtain ⟨rfl, rfl⟩ := ih h''; exact ⟨rfl, rfl⟩

/-! ## `toUcs4(const char16_t*)` -/

/-- The scan did not fail. -/
def End16.ok : End16 → Bool
  | .bad => false
  | _ => true

theorem isFirst_true {c : Nat} (h : HighSurrogate c) : isFirstHalfUtf16 c = true := (isFirstHalf_iff c).2 h
theorem isFirst_false {c : Nat} (h : ¬ HighSurrogate c) : isFirstHalfUtf16 c = false :=
  (isFirstHalf_false c).2 h
theorem isSecond_true {c : Nat} (h : LowSurrogate c) : isSecondHalfUtf16 c = true :=
  (isSecondHalf_iff c).2 h
theorem isSecond_false {c : Nat} (h : ¬ LowSurrogate c) : isSecondHalfUtf16 c = false :=
  (isSecondHalf_false c).2 h

theorem toUcs4From16_scan {s : List U16} {vs : List Nat} {e : End16} (h : Scan16 false s vs e)
    (post : List U16) (res : List U32) :
    toUcs4From16Loop (s ++ 0 :: post) res = .ok (if e.ok then res ++ Spec.ucs4Of vs else []) := by
  induction h generalizing res with
  | done =>
    rw [List.nil_append, toUcs4From16Loop.eq_def]
    simp [End16.ok, Spec.ucs4Of]
  | cut hh =>
    rw [List.cons_append, List.nil_append, toUcs4From16Loop.eq_def]
    simp only [if_neg (high_ne_zero hh), isFirst_true hh, if_true]
    simp [End16.ok, Spec.ucs4Of]
  | badHigh hh h0 hl =>
    rw [List.cons_append, List.cons_append, toUcs4From16Loop.eq_def]
    simp only [if_neg (high_ne_zero hh), isFirst_true hh, if_true, if_neg h0, isSecond_false hl]
    simp [End16.ok]
  | badLow _ hl =>
    rw [List.cons_append, toUcs4From16Loop.eq_def]
    simp only [if_neg (low_ne_zero hl), isFirst_false (low_not_high hl), isSecond_true hl, if_true]
    simp [End16.ok]
  | @unit c s vs e h0 hn hx _ ih =>
    have hl : ¬ LowSurrogate c.toNat := hx.resolve_left (by simp)
    rw [List.cons_append, toUcs4From16Loop.eq_def]
    simp only [if_neg h0, isFirst_false hn, isSecond_false hl, Bool.false_eq_true, if_false]
    rw [ih]; simp [Spec.ucs4Of]
  | @pair h l s vs e hh hl _ ih =>
    rw [List.cons_append, List.cons_append, toUcs4From16Loop.eq_def]
    simp only [if_neg (high_ne_zero hh), isFirst_true hh, if_true, if_neg (low_ne_zero hl),
      isSecond_true hl, not_true_eq_false, if_false]
    rw [ih]
    have : rawDecodeUtf16 h l = BitVec.ofNat 32 (Spec.pairValue h.toNat l.toNat) :=
      (u32_eq (rawDecodeUtf16_pair hh hl)).symm
    simp [Spec.ucs4Of, this]

/-! ## `toUtf8(const char16_t*)` -/

theorem toUtf8From16_scan {s : List U16} {vs : List Nat} {e : End16} (h : Scan16 true s vs e)
    (post : List U16) (res : List Byte) :
    toUtf8From16Loop (s ++ 0 :: post) res = .ok (if e.ok then res ++ Spec.utf8Of vs else []) := by
  induction h generalizing res with
  | done =>
    rw [List.nil_append, toUtf8From16Loop.eq_def]
    simp [End16.ok, Spec.utf8Of]
  | cut hh =>
    rw [List.cons_append, List.nil_append, toUtf8From16Loop.eq_def]
    simp only [if_neg (high_ne_zero hh), isFirst_true hh, if_true]
    simp [End16.ok, Spec.utf8Of]
  | badHigh hh h0 hl =>
    rw [List.cons_append, List.cons_append, toUtf8From16Loop.eq_def]
    simp only [if_neg (high_ne_zero hh), isFirst_true hh, if_true, if_neg h0, isSecond_false hl]
    simp [End16.ok]
  | badLow hL hl => cases hL
  | @unit c s vs e h0 hn hx _ ih =>
    rw [List.cons_append, toUtf8From16Loop.eq_def]
    simp only [if_neg h0, isFirst_false hn, Bool.false_eq_true, if_false]
    rw [ih, encodeUtf8_eq (by have := c.isLt; omega)]; simp [Spec.utf8Of]
  | @pair h l s vs e hh hl _ ih =>
    rw [List.cons_append, List.cons_append, toUtf8From16Loop.eq_def]
    simp only [if_neg (high_ne_zero hh), isFirst_true hh, if_true, if_neg (low_ne_zero hl),
      isSecond_true hl, not_true_eq_false, if_false]
    rw [ih, rawDecodeUtf16_pair hh hl,
      encodeUtf8_eq (by have := pairValue_bounds hh hl; omega)]
    simp [Spec.utf8Of]

/-! ## `unicodeLength(const char16_t*)` -/

/-- The value of the null-terminated count at the end of a UTF-16 scan. -/
def countEnd16 (n : Nat) : End16 → U32
  | .done => uintOf n
  | .cut => uintOf n - 1
  | .bad => 0

theorem unicodeLength16_scan {s : List U16} {vs : List Nat} {e : End16} (h : Scan16 false s vs e)
    (post : List U16) (l n : Nat) :
    unicodeLength16Loop false (s ++ 0 :: post) l n = .ok (countEnd16 (n + vs.length) e) := by
  induction h generalizing n with
  | done =>
    rw [List.nil_append, unicodeLength16Loop.eq_def]
    simp [countEnd16]
  | cut hh =>
    rw [List.cons_append, List.nil_append, unicodeLength16Loop.eq_def]
    simp only [if_neg (high_ne_zero hh), isFirst_true hh, isSecond_false (high_not_low hh)]
    simp [countEnd16]
  | badHigh hh h0 hl =>
    rw [List.cons_append, List.cons_append, unicodeLength16Loop.eq_def]
    simp only [if_neg (high_ne_zero hh), isFirst_true hh, isSecond_false (high_not_low hh),
      if_neg h0, isSecond_false hl]
    simp [countEnd16]
  | badLow _ hl =>
    rw [List.cons_append, unicodeLength16Loop.eq_def]
    simp only [if_neg (low_ne_zero hl), isSecond_true hl, if_true]
    simp [countEnd16]
  | @unit c s vs e h0 hn hx hrest ih =>
    have hl : ¬ LowSurrogate c.toNat := hx.resolve_left (by simp)
    have ih := ih (n + 1)
    have e1 : n + 1 + vs.length = n + (c.toNat :: vs).length := by simp; omega
    rw [e1] at ih
    rw [← ih]
    obtain ⟨x, y, hxy⟩ : ∃ x y, s ++ 0 :: post = x :: y := cons_of_ne_nil (by simp)
    rw [List.cons_append, hxy, unicodeLength16Loop.eq_def]
    simp only [if_neg h0, isFirst_false hn, isSecond_false hl, unicodeLength16Advance]
    simp
  | @pair h l s vs e hh hl _ ih =>
    have ih := ih (n + 1)
    have e1 : n + 1 + vs.length = n + (Spec.pairValue h.toNat l.toNat :: vs).length := by simp; omega
    rw [e1] at ih
    rw [← ih, List.cons_append, List.cons_append, unicodeLength16Loop.eq_def]
    simp only [if_neg (high_ne_zero hh), isFirst_true hh, isSecond_false (high_not_low hh),
      if_neg (low_ne_zero hl), isSecond_true hl, unicodeLength16Advance]
    simp

/-! ## `isUtf16` -/

/-- Ranges that let non-BMP characters pass in the UTF-16 validator. -/
def Wide16 : Spec.Range → Prop
  | .ascii => False
  | .ucs2 => False
  | _ => True

instance (r : Spec.Range) : Decidable (Wide16 r) := by
  cases r <;> unfold Wide16 <;> infer_instance

/-- The unit the UTF-16 validator hands to the predicate for a character. -/
def predUnit (v : Nat) : Nat := if v < 0x10000 then v else 0xD800 + (v - 0x10000) / 0x400

theorem predUnit_pair {h l : U16} (hh : HighSurrogate h.toNat) (hl : LowSurrogate l.toNat) :
    predUnit (Spec.pairValue h.toNat l.toNat) = h.toNat := by
  unfold HighSurrogate at hh; unfold LowSurrogate at hl
  unfold predUnit Spec.pairValue
  rw [if_neg (by omega)]; omega

theorem high_flags (r : Spec.Range) {c : Nat} (h : HighSurrogate c) :
    getRangeFlag16 c &&& flagOf r ≠ 0 ↔ Wide16 r := by
  unfold HighSurrogate at h
  unfold getRangeFlag16
  rw [if_pos h]
  cases r <;> decide

theorem wide_flags (r : Spec.Range) : k21BitUnicodeFlags &&& flagOf r ≠ 0 ↔ Wide16 r := by
  cases r <;> decide

theorem low_flags (r : Spec.Range) {c : Nat} (h : LowSurrogate c) :
    getRangeFlag16 c &&& flagOf r = 0 := by
  have := low_not_high h
  unfold HighSurrogate at this
  unfold LowSurrogate at h
  unfold getRangeFlag16
  rw [if_neg this, if_pos h]
  cases r <;> decide

theorem unit_flags {c : Nat} (hc : c < 0x10000) (hh : ¬ HighSurrogate c)
    (hl : ¬ LowSurrogate c) : getRangeFlag16 c = getCharEncodableRangeFlags c := by
  unfold HighSurrogate at hh; unfold LowSurrogate at hl
  unfold getRangeFlag16 getCharEncodableRangeFlags
  rw [if_neg (by omega), if_neg (by omega)]
  by_cases h1 : c ≤ 0x7f
  · rw [if_pos h1, if_pos h1]
  · rw [if_neg h1, if_neg h1, if_neg (by omega), if_pos hc]

theorem accFlags_wide (r : Spec.Range) {h l : Nat} (hh : HighSurrogate h) (hl : LowSurrogate l) :
    AccFlags r (Spec.pairValue h l) ↔ Wide16 r := by
  have := pairValue_bounds hh hl
  cases r <;> simp only [AccFlags, Wide16, iff_true, iff_false] <;> omega

/-- How the UTF-16 validator judges the end of a scan. -/
def EndOk16 (r : Spec.Range) : End16 → Prop
  | .done => True
  | .cut => Wide16 r
  | .bad => False

theorem isUtf16_scan (U : CharClass) (r : Spec.Range) (pred : Pred) {s : List U16} {vs : List Nat}
    {e : End16} (h : Scan16 false s vs e) (post : List U16) :
    ∃ b, isUtf16Loop U (flagOf r) pred (s ++ 0 :: post) = .ok b ∧
      (b = true ↔ ((∀ v ∈ vs, AccFlags r v ∧ pred.call16 U (predUnit v) = true) ∧ EndOk16 r e)) := by
  induction h with
  | done =>
    refine ⟨true, ?_, by simp [EndOk16]⟩
    rw [List.nil_append, isUtf16Loop.eq_def]; simp
  | @cut h hh =>
    by_cases hw : Wide16 r
    · refine ⟨true, ?_, by simp [EndOk16, hw]⟩
      have := (high_flags r hh).2 hw
      rw [List.cons_append, List.nil_append, isUtf16Loop.eq_def]
      simp only [if_neg (high_ne_zero hh), if_neg this, isFirst_true hh, if_true]
    · refine ⟨false, ?_, by simp [EndOk16, hw]⟩
      have := mt (high_flags r hh).1 hw
      simp only [ne_eq, Decidable.not_not] at this
      rw [List.cons_append, List.nil_append, isUtf16Loop.eq_def]
      simp only [if_neg (high_ne_zero hh), this, if_true]
  | @badHigh h c s hh h0 hl =>
    refine ⟨false, ?_, by simp [EndOk16]⟩
    rw [List.cons_append, List.cons_append, isUtf16Loop.eq_def]
    simp only [if_neg (high_ne_zero hh), isFirst_true hh, if_true, if_neg h0, isSecond_false hl]
    simp
  | @badLow c s _ hl =>
    refine ⟨false, ?_, by simp [EndOk16]⟩
    rw [List.cons_append, isUtf16Loop.eq_def]
    simp only [if_neg (low_ne_zero hl), low_flags r hl, if_true]
  | @unit c s vs e h0 hn hx hrest ih =>
    have hl : ¬ LowSurrogate c.toNat := hx.resolve_left (by simp)
    have hc : c.toNat < 0x10000 := c.isLt
    have hs : ¬ Surrogate c.toNat := by rw [surrogate_iff]; exact fun h => h.elim hn hl
    have hcf := char_flags r (v := c.toNat) (by omega) hs
    obtain ⟨b, hb1, hb2⟩ := ih
    have hpu : predUnit c.toNat = c.toNat := by unfold predUnit; rw [if_pos hc]
    rw [List.cons_append, isUtf16Loop.eq_def]
    simp only [if_neg h0, unit_flags hc hn hl, isFirst_false hn, Bool.false_eq_true, if_false,
      List.forall_mem_cons, hpu, pred16_reject]
    by_cases ha : AccFlags r c.toNat
    · have hne := hcf.2 ha
      rw [if_neg hne]
      by_cases hp : pred.call16 U c.toNat = true
      · rw [if_neg (by rw [hp]; simp [hne])]
        exact ⟨b, hb1, by rw [hb2]; simp [ha, hp]⟩
      · rw [if_pos (.inr (by simpa using hp))]
        exact ⟨false, rfl, by simp [hp]⟩
    · have := mt hcf.1 ha
      simp only [ne_eq, Decidable.not_not] at this
      rw [if_pos this]
      exact ⟨false, rfl, by simp [ha]⟩
  | @pair h l s vs e hh hl _ ih =>
    obtain ⟨b, hb1, hb2⟩ := ih
    rw [List.cons_append, List.cons_append, isUtf16Loop.eq_def]
    simp only [if_neg (high_ne_zero hh), isFirst_true hh, if_true, if_neg (low_ne_zero hl),
      isSecond_true hl, not_true_eq_false, if_false, List.forall_mem_cons, predUnit_pair hh hl,
      pred16_reject, accFlags_wide r hh hl]
    by_cases hw : Wide16 r
    · rw [if_neg ((high_flags r hh).2 hw)]
      have hne := (wide_flags r).2 hw
      by_cases hp : pred.call16 U h.toNat = true
      · rw [if_neg (by rw [hp]; simp [hne])]
        exact ⟨b, hb1, by rw [hb2]; simp [hw, hp]⟩
      · rw [if_pos (.inr (by simpa using hp))]
        exact ⟨false, rfl, by simp [hp]⟩
    · have := mt (high_flags r hh).1 hw
      simp only [ne_eq, Decidable.not_not] at this
      rw [if_pos this]
      exact ⟨false, rfl, by simp [hw]⟩

/-! ## `isUcs2` and `isUcs4` -/

theorem escaped_iff (c : Nat) : isUtf16EscapedRange c = true ↔ Surrogate c := by
  unfold isUtf16EscapedRange
  rw [Bool.or_eq_true, isFirstHalf_iff, isSecondHalf_iff, surrogate_iff]

theorem isUcs2_text (U : CharClass) (r : Spec.Range) (pred : Pred) {s : List U16} (hs : NulFree s)
    (post : List U16) :
    ∃ b, isUcs2Loop U (flagOf r) pred (s ++ 0 :: post) = .ok b ∧
      (b = true ↔ ∀ c ∈ s, ¬ Surrogate c.toNat ∧ AccFlags r c.toNat ∧
        pred.call16 U c.toNat = true) := by
  induction s with
  | nil =>
    refine ⟨true, ?_, by simp⟩
    rw [List.nil_append, isUcs2Loop.eq_def]; simp
  | cons c s ih =>
    have ⟨h0, hs⟩ := NulFree.cons.1 hs
    obtain ⟨b, hb1, hb2⟩ := ih hs
    have hc : c.toNat < 0x10000 := c.isLt
    rw [List.cons_append, isUcs2Loop.eq_def]
    simp only [if_neg h0, escaped_iff, List.forall_mem_cons, pred16_reject]
    by_cases hsu : Surrogate c.toNat
    · rw [if_pos hsu]; exact ⟨false, rfl, by simp [hsu]⟩
    rw [if_neg hsu]
    have hcf := char_flags r (v := c.toNat) (by omega) hsu
    by_cases ha : AccFlags r c.toNat
    · have hne := hcf.2 ha
      by_cases hp : pred.call16 U c.toNat = true
      · rw [if_neg (by rw [hp]; simp [hne])]
        exact ⟨b, hb1, by rw [hb2]; simp [ha, hp, hsu]⟩
      · rw [if_pos (.inr (by simpa using hp))]
        exact ⟨false, rfl, by simp [hp]⟩
    · have := mt hcf.1 ha
      simp only [ne_eq, Decidable.not_not] at this
      rw [if_pos (.inl this)]
      exact ⟨false, rfl, by simp [ha]⟩

theorem isUcs4_text (U : CharClass) (r : Spec.Range) (pred : Pred) {s : List U32} (hs : NulFree s)
    (post : List U32) :
    ∃ b, isUcs4Loop U (flagOf r) pred (s ++ 0 :: post) = .ok b ∧
      (b = true ↔ ∀ c ∈ s, ¬ Surrogate c.toNat ∧ AccFlags r c.toNat ∧
        pred.call32 U c.toNat = true) := by
  induction s with
  | nil =>
    refine ⟨true, ?_, by simp⟩
    rw [List.nil_append, isUcs4Loop.eq_def]; simp
  | cons c s ih =>
    have ⟨h0, hs⟩ := NulFree.cons.1 hs
    obtain ⟨b, hb1, hb2⟩ := ih hs
    have hc : c.toNat < 2 ^ 32 := c.isLt
    rw [List.cons_append, isUcs4Loop.eq_def]
    simp only [if_neg h0, List.forall_mem_cons, pred32_reject]
    by_cases hsu : Surrogate c.toNat
    · rw [if_pos (.inl (surrogate_flags r hsu))]; exact ⟨false, rfl, by simp [hsu]⟩
    have hcf := char_flags r (v := c.toNat) hc hsu
    by_cases ha : AccFlags r c.toNat
    · have hne := hcf.2 ha
      by_cases hp : pred.call32 U c.toNat = true
      · rw [if_neg (by rw [hp]; simp [hne])]
        exact ⟨b, hb1, by rw [hb2]; simp [ha, hp, hsu]⟩
      · rw [if_pos (.inr (by simpa using hp))]
        exact ⟨false, rfl, by simp [hp]⟩
    · have := mt hcf.1 ha
      simp only [ne_eq, Decidable.not_not] at this
      rw [if_pos (.inl this)]
      exact ⟨false, rfl, by simp [ha]⟩

/-! ## Conversions from UCS-4 -/

theorem toUtf8From32_text {s : List U32} (hs : NulFree s) (post : List U32) (res : List Byte) :
    toUtf8From32Loop (s ++ 0 :: post) res =
      .ok (if ∀ c ∈ s, c.toNat ≤ 0x7FFFFFFF ∧ ¬ Surrogate c.toNat then
        res ++ Spec.utf8Of (vals s) else []) := by
  induction s generalizing res with
  | nil =>
    rw [List.nil_append, toUtf8From32Loop.eq_def]
    simp [Spec.utf8Of, vals]
  | cons c s ih =>
    have ⟨h0, hs⟩ := NulFree.cons.1 hs
    have hc : c.toNat < 2 ^ 32 := c.isLt
    rw [List.cons_append, toUtf8From32Loop.eq_def]
    simp only [if_neg h0, List.forall_mem_cons, and_80000000 hc, isFirstHalf_iff, isSecondHalf_iff]
    by_cases hok : c.toNat ≤ 0x7FFFFFFF ∧ ¬ Surrogate c.toNat
    · have hns := mt (surrogate_iff c.toNat).2 hok.2
      rw [not_or] at hns
      rw [if_pos ⟨by omega, hns⟩, ih hs, encodeUtf8_eq hok.1]
      simp only [hok, not_false_eq_true, true_and, vals, Spec.utf8Of, List.map_cons, List.flatMap_cons, List.append_assoc]
    · rw [if_neg, if_neg (fun h => hok h.1)]
      rintro ⟨h1, h2⟩
      refine hok ⟨by omega, ?_⟩
      rw [surrogate_iff]; exact fun h => h.elim h2.1 h2.2

theorem toUcs2From32_text {s : List U32} (hs : NulFree s) (post : List U32) (res : List U16) :
    toUcs2From32Loop (s ++ 0 :: post) res =
      .ok (if ∀ c ∈ s, c.toNat ≤ 0xFFFF ∧ ¬ Surrogate c.toNat then
        res ++ Spec.ucs2Of (vals s) else []) := by
  induction s generalizing res with
  | nil =>
    rw [List.nil_append, toUcs2From32Loop.eq_def]
    simp [Spec.ucs2Of, vals]
  | cons c s ih =>
    have ⟨h0, hs⟩ := NulFree.cons.1 hs
    rw [List.cons_append, toUcs2From32Loop.eq_def]
    simp only [if_neg h0, List.forall_mem_cons, isFirstHalf_iff, isSecondHalf_iff]
    by_cases hok : c.toNat ≤ 0xFFFF ∧ ¬ Surrogate c.toNat
    · have hns := mt (surrogate_iff c.toNat).2 hok.2
      rw [not_or] at hns
      rw [if_neg (fun h => h.elim hns.1 fun h => h.elim hns.2 fun h => by omega), ih hs]
      simp only [hok, not_false_eq_true, true_and, vals, Spec.ucs2Of, List.map_cons, List.append_assoc,
        List.cons_append, List.nil_append]
    · rw [if_pos, if_neg (fun h => hok h.1)]
      by_cases h1 : HighSurrogate c.toNat
      · exact .inl h1
      by_cases h2 : LowSurrogate c.toNat
      · exact .inr (.inl h2)
      right; right
      have : ¬ Surrogate c.toNat := by rw [surrogate_iff]; exact fun h => h.elim h1 h2
      have : ¬ c.toNat ≤ 0xFFFF := fun h => hok ⟨h, this⟩
      omega

theorem toUtf16From32_text {s : List U32} (hs : NulFree s) (post : List U32) (res : List U16) :
    toUtf16From32Loop (s ++ 0 :: post) res =
      .ok (if ∀ c ∈ s, c.toNat ≤ 0x10FFFF ∧ ¬ Surrogate c.toNat then
        res ++ Spec.utf16Of (vals s) else []) := by
  induction s generalizing res with
  | nil =>
    rw [List.nil_append, toUtf16From32Loop.eq_def]
    simp [Spec.utf16Of, vals]
  | cons c s ih =>
    have ⟨h0, hs⟩ := NulFree.cons.1 hs
    rw [List.cons_append, toUtf16From32Loop.eq_def]
    simp only [if_neg h0, List.forall_mem_cons, isFirstHalf_iff, isSecondHalf_iff,
      isUtf16Encodable_iff]
    by_cases hok : c.toNat ≤ 0x10FFFF ∧ ¬ Surrogate c.toNat
    · have hns := mt (surrogate_iff c.toNat).2 hok.2
      rw [not_or] at hns
      rw [if_neg (fun h => h.elim (fun h => h hok.1) fun h => h.elim hns.1 hns.2), ih hs,
        rawEncodeUtf16_eq hok.1]
      simp only [hok, not_false_eq_true, true_and, vals, Spec.utf16Of, List.map_cons, List.flatMap_cons,
        List.append_assoc]
    · rw [if_pos, if_neg (fun h => hok h.1)]
      by_cases h1 : HighSurrogate c.toNat
      · exact .inr (.inl h1)
      by_cases h2 : LowSurrogate c.toNat
      · exact .inr (.inr h2)
      left
      have : ¬ Surrogate c.toNat := by rw [surrogate_iff]; exact fun h => h.elim h1 h2
      exact fun h => hok ⟨h, this⟩

/-! ## `unicodeLength(const char32_t*)` -/

theorem unicodeLength32_text {s : List U32} (hs : NulFree s) (post : List U32) (l n : Nat) :
    unicodeLength32Loop false l (s ++ 0 :: post) n =
      .ok (if ∀ c ∈ s, ¬ Surrogate c.toNat then uintOf (n + s.length) else 0) := by
  induction s generalizing n with
  | nil =>
    rw [List.nil_append, unicodeLength32Loop.eq_def]
    simp
  | cons c s ih =>
    have ⟨h0, hs⟩ := NulFree.cons.1 hs
    rw [List.cons_append, unicodeLength32Loop.eq_def]
    simp only [if_neg h0, List.forall_mem_cons, isFirstHalf_iff, isSecondHalf_iff,
      ← surrogate_iff, Bool.false_eq_true, if_false, false_and]
    by_cases hsu : Surrogate c.toNat
    · rw [if_pos hsu, if_neg (fun h => h.1 hsu)]
    · rw [if_neg hsu, ih hs]
      simp only [hsu, not_false_eq_true, true_and, List.length_cons]
      have : n + 1 + s.length = n + (s.length + 1) := by omega
      rw [this]

end Ansak
