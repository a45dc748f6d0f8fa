import Verif.Lemmas.Order
import Verif.Spec.Same
import Verif.Lemmas.Compose

/-!
# C56: different texts have different results
-/

namespace Ansak.Props

open Spec (NulFree Utf8Text Encodable Scalar Bmp Utf8Reads Surrogate HighSurrogate LowSurrogate utf8Of
  ucs4Of utf16Of ucs2Of textOf Utf16Incomplete NatsBefore Before SameUtf16 SameUtf8)

theorem vals_inj {w : Nat} {s t : List (BitVec w)} (h : vals s = vals t) : s = t :=
  (List.map_inj_right fun _ _ e => BitVec.eq_of_toNat_eq e).1 h

theorem utf8Of_distinct {vs ws : List Nat} (hv : ∀ v ∈ vs, v ≤ 0x7FFFFFFF) (hw : ∀ w ∈ ws, w ≤ 0x7FFFFFFF)
    (h : utf8Of vs = utf8Of ws) : vs = ws := by
  rcases natsBefore_total vs ws with hb | hb | hb
  · have := (utf8Of_before hv hw).2 hb
    rw [h] at this
    exact absurd this (natsBefore_irrefl _)
  · exact hb
  · have := (utf8Of_before hw hv).2 hb
    rw [h] at this
    exact absurd this (natsBefore_irrefl _)

theorem utf16Of_distinct {vs ws : List Nat} (hv : ∀ v ∈ vs, Scalar v) (hw : ∀ w ∈ ws, Scalar w)
    (h : utf16Of vs = utf16Of ws) : vs = ws := by
  have h1 := scan16_done_iff.2 ⟨rfl, hv⟩
  rw [h] at h1
  exact (scan16_unique h1 (scan16_done_iff.2 ⟨rfl, hw⟩)).1

theorem ucs4Of_distinct {vs ws : List Nat} (hv : ∀ v ∈ vs, Encodable v) (hw : ∀ w ∈ ws, Encodable w)
    (h : ucs4Of vs = ucs4Of ws) : vs = ws := by
  rw [← vals_ucs4Of hv, ← vals_ucs4Of hw, h]

theorem ucs2Of_distinct {vs ws : List Nat} (hv : ∀ v ∈ vs, Bmp v) (hw : ∀ w ∈ ws, Bmp w)
    (h : ucs2Of vs = ucs2Of ws) : vs = ws := by
  rw [← vals_ucs2Of hv, ← vals_ucs2Of hw, h]

theorem ok_ite {α : Type} {p : Prop} [Decidable p] {a : List α} (h : (Res.ok (if p then a else [])) ≠ .ok []) :
    p ∧ (Res.ok (if p then a else []) : Res (List α)) = .ok a := by
  by_cases hp : p
  · exact ⟨hp, by rw [if_pos hp]⟩
  · rw [if_neg hp] at h; exact absurd rfl h

theorem text_vals {s : List U32} {P : Nat → Prop} (h : ∀ c ∈ textOf s, P c.toNat) :
    ∀ v ∈ vals (textOf s), P v := by
  intro v hv
  obtain ⟨c, hc, rfl⟩ := List.mem_map.1 hv
  exact h c hc

theorem text_pos {s : List U32} : ∀ v ∈ vals (textOf s), 1 ≤ v := by
  refine text_vals fun c hc => ?_
  have := toNat_ne_zero (textOf_nulFree s c hc)
  omega

/-! ## From UCS-4 -/

/-- Two UCS-4 strings with the same UTF-8, UTF-16 or UCS-2 form (other than the empty string, which also
stands for failure) are the same text. -/
theorem C56_ucs4 {s t : List U32} :
    (toUtf8From32S s = toUtf8From32S t → toUtf8From32S s ≠ .ok [] → textOf s = textOf t) ∧
    (toUtf16From32S s = toUtf16From32S t → toUtf16From32S s ≠ .ok [] → textOf s = textOf t) ∧
    (toUcs2From32S s = toUcs2From32S t → toUcs2From32S s ≠ .ok [] → textOf s = textOf t) := by
  refine ⟨fun h hne => ?_, fun h hne => ?_, fun h hne => ?_⟩
  · have hne' := hne
    rw [h] at hne'
    rw [toUtf8From32S_any] at h hne
    rw [toUtf8From32S_any] at h hne'
    obtain ⟨ps, es⟩ := ok_ite hne
    obtain ⟨pt, et⟩ := ok_ite hne'
    rw [es, et] at h
    injection h with h
    exact vals_inj (utf8Of_distinct (text_vals fun c hc => (ps c hc).1) (text_vals fun c hc => (pt c hc).1) h)
  · have hne' := hne
    rw [h] at hne'
    rw [toUtf16From32S_any] at h hne
    rw [toUtf16From32S_any] at h hne'
    obtain ⟨ps, es⟩ := ok_ite hne
    obtain ⟨pt, et⟩ := ok_ite hne'
    rw [es, et] at h
    injection h with h
    exact vals_inj (utf16Of_distinct
      (fun v hv => ⟨text_pos v hv, (text_vals (P := fun v => v ≤ 0x10FFFF ∧ ¬ Surrogate v) ps v hv).1,
        (text_vals (P := fun v => v ≤ 0x10FFFF ∧ ¬ Surrogate v) ps v hv).2⟩)
      (fun v hv => ⟨text_pos v hv, (text_vals (P := fun v => v ≤ 0x10FFFF ∧ ¬ Surrogate v) pt v hv).1,
        (text_vals (P := fun v => v ≤ 0x10FFFF ∧ ¬ Surrogate v) pt v hv).2⟩) h)
  · have hne' := hne
    rw [h] at hne'
    rw [toUcs2From32S_any] at h hne
    rw [toUcs2From32S_any] at h hne'
    obtain ⟨ps, es⟩ := ok_ite hne
    obtain ⟨pt, et⟩ := ok_ite hne'
    rw [es, et] at h
    injection h with h
    exact vals_inj (ucs2Of_distinct
      (fun v hv => ⟨text_pos v hv, (text_vals (P := fun v => v ≤ 0xFFFF ∧ ¬ Surrogate v) ps v hv).1,
        (text_vals (P := fun v => v ≤ 0xFFFF ∧ ¬ Surrogate v) ps v hv).2⟩)
      (fun v hv => ⟨text_pos v hv, (text_vals (P := fun v => v ≤ 0xFFFF ∧ ¬ Surrogate v) pt v hv).1,
        (text_vals (P := fun v => v ≤ 0xFFFF ∧ ¬ Surrogate v) pt v hv).2⟩) h)

/-! ## From UTF-16 -/

theorem split16 {l : Bool} {s : List U16} {vs : List Nat} {e : End16} (h : Scan16 l s vs e)
    (he : e.ok = true) : ∃ t, s = utf16Of vs ++ t ∧ (t = [] ∨ Utf16Incomplete t) := by
  cases e with
  | done => exact ⟨[], by rw [List.append_nil]; exact scan16_encode h rfl, .inl rfl⟩
  | cut =>
    obtain ⟨t, e1, e2⟩ := scan16_cut_split h rfl
    exact ⟨t, e1, .inr e2⟩
  | bad => exact absurd he (by decide)

/-- Two UTF-16 strings with the same UTF-8 or UCS-4 form are the same text. -/
theorem C56_utf16 {s t : List U16} :
    (toUtf8From16S s = toUtf8From16S t → toUtf8From16S s ≠ .ok [] → SameUtf16 s t) ∧
    (toUcs4From16S s = toUcs4From16S t → toUcs4From16S s ≠ .ok [] → SameUtf16 s t) := by
  refine ⟨fun h hne => ?_, fun h hne => ?_⟩
  · have hne' := hne
    rw [h] at hne'
    obtain ⟨vs, e, hs, h1⟩ := toUtf8From16S_any s
    obtain ⟨ws, f, ht, h2⟩ := toUtf8From16S_any t
    rw [h1] at h hne
    rw [h2] at h hne'
    obtain ⟨ps, es⟩ := ok_ite hne
    obtain ⟨pt, et⟩ := ok_ite hne'
    rw [es, et] at h
    injection h with h
    have bound : ∀ v, Scalar v ∨ LowSurrogate v → v ≤ 0x7FFFFFFF := by
      rintro v (h | h)
      · have := h.2.1; omega
      · unfold LowSurrogate at h; omega
    have := utf8Of_distinct (fun v hv => bound v (scan16_lenient_values hs v hv))
      (fun v hv => bound v (scan16_lenient_values ht v hv)) h
    subst this
    obtain ⟨a, ea, ha⟩ := split16 hs ps
    obtain ⟨b, eb, hb⟩ := split16 ht pt
    exact ⟨_, a, b, ea, eb, ha, hb⟩
  · have hne' := hne
    rw [h] at hne'
    obtain ⟨vs, e, hs, h1⟩ := toUcs4From16S_any s
    obtain ⟨ws, f, ht, h2⟩ := toUcs4From16S_any t
    rw [h1] at h hne
    rw [h2] at h hne'
    obtain ⟨ps, es⟩ := ok_ite hne
    obtain ⟨pt, et⟩ := ok_ite hne'
    rw [es, et] at h
    injection h with h
    have := ucs4Of_distinct (fun v hv => scalar_encodable (scan16_scalar hs v hv))
      (fun v hv => scalar_encodable (scan16_scalar ht v hv)) h
    subst this
    obtain ⟨a, ea, ha⟩ := split16 hs ps
    obtain ⟨b, eb, hb⟩ := split16 ht pt
    exact ⟨_, a, b, ea, eb, ha, hb⟩

/-! ## From UTF-8 -/

theorem reads_ok {s : List Byte} {vs : List Nat} {e : End} (h : Scan s vs e) (he : e.ok = true) :
    ∃ t, Utf8Reads s vs t := by
  rcases reads_of_scan h with ⟨t, _, hr⟩ | ⟨t, rfl⟩
  · exact ⟨t, hr⟩
  · cases he

theorem C56_utf8 {s t : List Byte} :
    (toUcs4From8S s = toUcs4From8S t → toUcs4From8S s ≠ .ok [] → SameUtf8 s t) ∧
    (toUtf16From8S s = toUtf16From8S t → toUtf16From8S s ≠ .ok [] → SameUtf8 s t) ∧
    (toUcs2From8S s = toUcs2From8S t → toUcs2From8S s ≠ .ok [] → SameUtf8 s t) := by
  obtain ⟨vs, e, hs, s4, s16, s2⟩ := toUcs4From8S_any s
  obtain ⟨ws, f, ht, t4, t16, t2⟩ := toUcs4From8S_any t
  have hv := scan_encodable hs
  have hw := scan_encodable ht
  have fin : vs = ws → e.ok = true → f.ok = true → SameUtf8 s t := by
    rintro rfl ps pt
    obtain ⟨a, ha⟩ := reads_ok hs ps
    obtain ⟨b, hb⟩ := reads_ok ht pt
    exact ⟨_, a, b, ha, hb⟩
  refine ⟨fun h hne => ?_, fun h hne => ?_, fun h hne => ?_⟩
  · have hne' := hne
    rw [h, t4] at hne'
    rw [s4] at hne
    rw [s4, t4] at h
    obtain ⟨ps, es⟩ := ok_ite hne
    obtain ⟨pt, et⟩ := ok_ite hne'
    rw [es, et] at h
    injection h with h
    exact fin (ucs4Of_distinct hv hw h) ps pt
  · have hne' := hne
    rw [h, t16] at hne'
    rw [s16] at hne
    rw [s16, t16] at h
    obtain ⟨ps, es⟩ := ok_ite hne
    obtain ⟨pt, et⟩ := ok_ite hne'
    rw [es, et] at h
    injection h with h
    exact fin (utf16Of_distinct (fun v m => ⟨(hv v m).1, ps.2 v m, (hv v m).2.2⟩)
      (fun v m => ⟨(hw v m).1, pt.2 v m, (hw v m).2.2⟩) h) ps.1 pt.1
  · have hne' := hne
    rw [h, t2] at hne'
    rw [s2] at hne
    rw [s2, t2] at h
    obtain ⟨ps, es⟩ := ok_ite hne
    obtain ⟨pt, et⟩ := ok_ite hne'
    rw [es, et] at h
    injection h with h
    exact fin (ucs2Of_distinct (fun v m => ⟨(hv v m).1, ps.2 v m, (hv v m).2.2⟩)
      (fun v m => ⟨(hw v m).1, pt.2 v m, (hw v m).2.2⟩) h) ps.1 pt.1

/-! ## The hypotheses can be met -/

/-- Two different strings with the same text, whose result is not empty. -/
example : toUtf8From32S [0x41, 0x20AC] = toUtf8From32S [0x41, 0x20AC, 0, 0x42] ∧
    toUtf8From32S [0x41, 0x20AC] ≠ .ok [] ∧ toUtf16From32S [0x1F600] ≠ .ok [] ∧
    toUcs2From32S [0x41] ≠ .ok [] := by decide +kernel

/-- A trailing high surrogate is the one difference. -/
example : toUtf8From16S [0x41, 0xD800] = toUtf8From16S [0x41] ∧ toUtf8From16S [0x41] ≠ .ok [] ∧
    toUcs4From16S [0x41, 0xD800] = toUcs4From16S [0x41] ∧ toUcs4From16S [0x41] ≠ .ok [] := by decide +kernel

/-- The two ways to write U+1F600, and a truncated tail. -/
example : toUcs4From8S [0xF0, 0x9F, 0x98, 0x80] = toUcs4From8S [0xED, 0xA0, 0xBD, 0xED, 0xB8, 0x80, 0xC3] ∧
    toUtf16From8S [0xF0, 0x9F, 0x98, 0x80] ≠ .ok [] ∧ toUcs2From8S [0xC3, 0xA9] ≠ .ok [] := by decide +kernel

end Ansak.Props
