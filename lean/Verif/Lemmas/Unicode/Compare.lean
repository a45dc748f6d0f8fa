import Verif.Lemmas.Unicode.All
import Verif.Spec.LowerDeviations

/-!
# Comparing the lower-case mappings with UnicodeData.txt and between versions
-/

namespace Ansak.Unicode

open CExpr
open Spec (InRanges mapOf Assigned lowerOf lowerDeviations lowerTable assignedTable)

/-- `InRanges`, computed. -/
def inR (rs : List (Nat × Nat)) (x : Nat) : Bool :=
  rs.any fun r => Nat.ble r.1 x && Nat.ble x r.2

theorem inR_iff {rs : List (Nat × Nat)} {x : Nat} : inR rs x = true ↔ InRanges rs x := by
  unfold inR InRanges
  rw [List.any_eq_true]
  constructor
  · rintro ⟨r, hr, h⟩
    rw [Bool.and_eq_true] at h
    exact ⟨r, hr, ble_true h.1, ble_true h.2⟩
  · rintro ⟨r, hr, h⟩
    exact ⟨r, hr, by rw [Bool.and_eq_true]; exact ⟨ble_of h.1, ble_of h.2⟩⟩

/-- Outside the ranges `dev` the two lists of mappings are the same. -/
def sameOutside (dev : List (Nat × Nat)) (ps qs : List (Nat × Nat)) : Bool :=
  (ps.filter fun p => !inR dev p.1) == (qs.filter fun p => !inR dev p.1)

/-- On every number of the ranges `dev` the two lists of mappings differ. -/
def differInside (dev : List (Nat × Nat)) (ps qs : List (Nat × Nat)) : Bool :=
  let ps' := ps.filter fun p => inR dev p.1
  let qs' := qs.filter fun p => inR dev p.1
  dev.all fun r => (List.range' r.1 (r.2 + 1 - r.1)).all fun x =>
    !Nat.beq (mapOf ps' x) (mapOf qs' x)

theorem same_outside (v : Version) :
    sameOutside (lowerDeviations v) (maps v) (lowerTable v) = true := by
  cases v
  · decide +kernel
  · decide +kernel
  · decide +kernel
  · decide +kernel
  · decide +kernel
  · decide +kernel
  · decide +kernel
  · decide +kernel
  · decide +kernel
  · decide +kernel

theorem differ_inside (v : Version) :
    differInside (lowerDeviations v) (maps v) (lowerTable v) = true := by
  cases v
  · decide +kernel
  · decide +kernel
  · decide +kernel
  · decide +kernel
  · decide +kernel
  · decide +kernel
  · decide +kernel
  · decide +kernel
  · decide +kernel
  · decide +kernel

theorem mapOf_same_outside {dev ps qs : List (Nat × Nat)} (h : sameOutside dev ps qs = true)
    {x : Nat} (hx : ¬ InRanges dev x) : mapOf ps x = mapOf qs x := by
  have hx' : (!inR dev x) = true := by
    cases hb : inR dev x with
    | false => rfl
    | true => exact absurd (inR_iff.1 hb) hx
  rw [← mapOf_filter (f := fun x => !inR dev x) hx',
    ← mapOf_filter (ps := qs) (f := fun x => !inR dev x) hx', eq_of_beq h]

theorem mapOf_differ_inside {dev ps qs : List (Nat × Nat)} (h : differInside dev ps qs = true)
    {x : Nat} (hx : InRanges dev x) : mapOf ps x ≠ mapOf qs x := by
  have hx' : inR dev x = true := inR_iff.2 hx
  unfold differInside at h
  obtain ⟨r, hr, h1, h2⟩ := hx
  have h3 := List.all_eq_true.1 (List.all_eq_true.1 h r hr) x
    (List.mem_range'_1.2 ⟨h1, by omega⟩)
  rw [mapOf_filter (f := inR dev) hx', mapOf_filter (f := inR dev) hx'] at h3
  intro e
  rw [beq_of e] at h3
  cases h3

end Ansak.Unicode
