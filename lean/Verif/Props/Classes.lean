import Verif.Props.Unicode
import Verif.Props.Predicate

/-!
# C62: how the classes of characters lie to one another
-/

namespace Ansak.Props

open Unicode (charClass)
open Spec (Assigned PrivateUse Control WhiteSpace assignedTable InRanges Surrogate)

/-- No code point of the range `lo` to `hi` is in a table whose ranges all stay outside. -/
theorem outside {t : List (Nat × Nat)} {lo hi : Nat} (h : ∀ r ∈ t, r.2 < lo ∨ hi < r.1) {c : Nat} (hl : lo ≤ c)
    (hh : c ≤ hi) : ¬ InRanges t c := by
  rintro ⟨r, hr, h1, h2⟩
  have := h r hr
  omega

theorem table_high (v : Version) : ∀ r ∈ assignedTable v, r.2 < 0x110000 := by cases v <;> decide +kernel
theorem table_surrogates (v : Version) : ∀ r ∈ assignedTable v, r.2 < 0xD800 ∨ 0xDFFF < r.1 := by
  cases v <;> decide +kernel
theorem table_private (v : Version) : ∀ r ∈ assignedTable v,
    (r.2 < 0xE000 ∨ 0xF8FF < r.1) ∧ (r.2 < 0xF0000 ∨ 0xFFFFD < r.1) ∧ (r.2 < 0x100000 ∨ 0x10FFFD < r.1) := by
  cases v <;> decide +kernel
/-- The last two code points of each plane. -/
theorem table_ends (v : Version) : ∀ k ∈ List.range 17, ∀ r ∈ assignedTable v,
    r.2 < 0x10000 * k + 0xFFFE ∨ 0x10000 * k + 0xFFFF < r.1 := by
  cases v <;> decide +kernel
theorem table_arabic (v : Version) : ∀ r ∈ assignedTable v, r.2 < 0xFDD0 ∨ 0xFDEF < r.1 := by
  cases v <;> decide +kernel
theorem table_latin (v : Version) : ∃ r ∈ assignedTable v, r.1 = 0 ∧ 0xFF ≤ r.2 := by cases v <;> decide +kernel
theorem table_white (v : Version) : ∀ c ∈ [0x1680, 0x2000, 0x2001, 0x2002, 0x2003, 0x2004,
    0x2005, 0x2006, 0x2007, 0x2008, 0x2009, 0x200A, 0x2028, 0x2029, 0x202F, 0x205F, 0x3000],
    ∃ r ∈ assignedTable v, r.1 ≤ c ∧ c ≤ r.2 := by cases v <;> decide +kernel

theorem latin_assigned (v : Version) {c : Nat} (h : c ≤ 0xFF) : Assigned v c := by
  obtain ⟨r, hr, h1, h2⟩ := table_latin v
  exact ⟨r, hr, by omega, by omega⟩

/-- What is assigned is a Unicode scalar value that is neither private nor one of the 66 noncharacters. -/
theorem C62_assigned (v : Version) (c : U32)
    (h : (Pred.validIf kIsAssigned).call32 (charClass v) c.toNat = true) :
    c.toNat ≤ 0x10FFFF ∧ ¬ Surrogate c.toNat ∧
    (Pred.validIf kIsPrivate).call32 (charClass v) c.toNat = false ∧
    c.toNat % 0x10000 < 0xFFFE ∧ ¬ (0xFDD0 ≤ c.toNat ∧ c.toNat ≤ 0xFDEF) := by
  have ha : InRanges (assignedTable v) c.toNat := (C25_char32 v c).1 h
  have hmax : c.toNat ≤ 0x10FFFF := by
    obtain ⟨r, hr, h1, h2⟩ := ha
    have := table_high v r hr
    omega
  refine ⟨hmax, ?_, ?_, ?_, ?_⟩
  · exact fun hs => outside (table_surrogates v) hs.1 hs.2 ha
  · rw [← Bool.not_eq_true, C26_private32]
    rintro (hp | hp | hp)
    · exact outside (fun r hr => (table_private v r hr).1) hp.1 hp.2 ha
    · exact outside (fun r hr => (table_private v r hr).2.1) hp.1 hp.2 ha
    · exact outside (fun r hr => (table_private v r hr).2.2) hp.1 hp.2 ha
  · refine Nat.lt_of_not_le fun hle => ?_
    exact outside (table_ends v (c.toNat / 0x10000) (by rw [List.mem_range]; omega)) (c := c.toNat)
      (by omega) (by omega) ha
  · exact fun hp => outside (table_arabic v) hp.1 hp.2 ha

/-- Control characters and white space are assigned, and not private. -/
theorem C62_control_white (v : Version) (c : U32)
    (h : (Pred.validIf kIsControl).call32 (charClass v) c.toNat = true ∨
      (Pred.validIf kIsWhitespace).call32 (charClass v) c.toNat = true) :
    (Pred.validIf kIsAssigned).call32 (charClass v) c.toNat = true ∧
    (Pred.validIf kIsPrivate).call32 (charClass v) c.toNat = false := by
  have ha : (Pred.validIf kIsAssigned).call32 (charClass v) c.toNat = true := by
    rw [C25_char32]
    rcases h with h | h
    · rw [C26_control32] at h
      unfold Control at h
      exact latin_assigned v (by omega)
    · rw [C26_white32] at h
      unfold WhiteSpace at h
      have e : ([0x9, 0xA, 0xB, 0xC, 0xD, 0x20, 0x85, 0xA0, 0x1680, 0x2000, 0x2001, 0x2002, 0x2003, 0x2004,
        0x2005, 0x2006, 0x2007, 0x2008, 0x2009, 0x200A, 0x2028, 0x2029, 0x202F, 0x205F, 0x3000] : List Nat) =
        [0x9, 0xA, 0xB, 0xC, 0xD, 0x20, 0x85, 0xA0] ++ [0x1680, 0x2000, 0x2001, 0x2002, 0x2003, 0x2004,
        0x2005, 0x2006, 0x2007, 0x2008, 0x2009, 0x200A, 0x2028, 0x2029, 0x202F, 0x205F, 0x3000] := rfl
      rw [e, List.mem_append] at h
      rcases h with h | h
      · refine latin_assigned v ?_
        have : ∀ x ∈ [0x9, 0xA, 0xB, 0xC, 0xD, 0x20, 0x85, 0xA0], x ≤ 0xFF := by decide
        exact this _ h
      · exact table_white v _ h
  exact ⟨ha, (C62_assigned v c ha).2.2.1⟩

/-- Exactly six control characters are white space: tab to carriage return and next line. -/
theorem C62_both (v : Version) (c : U32) :
    ((Pred.validIf kIsControl).andIf kIsWhitespace).call32 (charClass v) c.toNat = true ↔
      (0x9 ≤ c.toNat ∧ c.toNat ≤ 0xD) ∨ c.toNat = 0x85 := by
  have h := (C24_conjunction_partial (charClass v) ⟨.control, true⟩ [⟨.whiteSpace, true⟩] (by decide) c.toNat).1
  have hc := C26_control32 v c
  have hw := C26_white32 v c
  have h1 := (C24_conjunction_partial (charClass v) ⟨.control, true⟩ [] (by decide) c.toNat).1
  have h2 := (C24_conjunction_partial (charClass v) ⟨.whiteSpace, true⟩ [] (by decide) c.toNat).1
  have e1 := h1.symm.trans hc
  have e2 := h2.symm.trans hw
  refine h.trans ?_
  rw [List.forall_mem_cons]
  have a1 : (⟨.control, true⟩ : Spec.Cond).Holds (classes32 (charClass v) c.toNat) ↔ Control c.toNat := by
    rw [← e1, List.forall_mem_cons]
    exact ⟨fun h => ⟨h, fun _ hx => absurd hx (by simp)⟩, fun h => h.1⟩
  rw [a1, e2]
  unfold Control WhiteSpace
  simp only [List.mem_cons, List.not_mem_nil, or_false]
  omega

/-! ## The hypotheses can be met -/

example (v : Version) : (Pred.validIf kIsAssigned).call32 (charClass v) (0x20AC : U32).toNat = true := by
  cases v <;> decide +kernel
example (v : Version) : (Pred.validIf kIsWhitespace).call32 (charClass v) (0x3000 : U32).toNat = true := by
  cases v <;> decide +kernel

end Ansak.Props
