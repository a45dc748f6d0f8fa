import Verif.Lemmas.Unicode.Stable

/-!
# Lower-casing and the classes of characters
-/

namespace Ansak.Unicode

open CExpr
open Spec (InRanges Assigned assignedTable)

/-- The ranges from the one that contains `x` on. -/
def seek (x : Nat) : List (Nat × Nat) → Option (List (Nat × Nat))
  | [] => none
  | r :: rs =>
    bif Nat.ble r.1 x then bif Nat.ble x r.2 then some (r :: rs) else seek x rs else none

theorem seek_spec {x : Nat} {rs ss : List (Nat × Nat)} (h : seek x rs = some ss) :
    InRanges rs x ∧ ∀ r ∈ ss, r ∈ rs := by
  induction rs with
  | nil => cases h
  | cons r rs ih =>
    unfold seek at h
    cases h1 : Nat.ble r.1 x with
    | false => rw [h1] at h; cases h
    | true =>
      rw [h1, cond_true] at h
      cases h2 : Nat.ble x r.2 with
      | true =>
        rw [h2, cond_true] at h
        cases h
        exact ⟨⟨r, List.mem_cons_self .., ble_true h1, ble_true h2⟩, fun _ hr => hr⟩
      | false =>
        rw [h2, cond_false] at h
        obtain ⟨⟨q, hq, h3⟩, h4⟩ := ih h
        exact ⟨⟨q, List.mem_cons_of_mem _ hq, h3⟩, fun q hq => List.mem_cons_of_mem _ (h4 q hq)⟩

/-- Are all the numbers in the ranges? The search goes on from the last range found, or else starts
again. -/
def walk (all : List (Nat × Nat)) : List Nat → List (Nat × Nat) → Bool
  | [], _ => true
  | x :: xs, rs =>
    match seek x rs with
    | some ss => walk all xs ss
    | none =>
      match seek x all with
      | some ss => walk all xs ss
      | none => false

theorem walk_spec {all : List (Nat × Nat)} {xs : List Nat} {rs : List (Nat × Nat)}
    (hr : ∀ r ∈ rs, r ∈ all) (h : walk all xs rs = true) {x : Nat} (hx : x ∈ xs) :
    InRanges all x := by
  induction xs generalizing rs with
  | nil => cases hx
  | cons y xs ih =>
    unfold walk at h
    cases h1 : seek y rs with
    | some ss =>
      rw [h1] at h
      obtain ⟨⟨q, hq, h3⟩, h4⟩ := seek_spec h1
      rcases List.mem_cons.1 hx with e | hx
      · subst e; exact ⟨q, hr q hq, h3⟩
      · exact ih (fun r hr' => hr r (h4 r hr')) h hx
    | none =>
      rw [h1] at h
      cases h2 : seek y all with
      | none => rw [h2] at h; cases h
      | some ss =>
        rw [h2] at h
        obtain ⟨hy, h4⟩ := seek_spec h2
        rcases List.mem_cons.1 hx with e | hx
        · subst e; exact hy
        · exact ih h4 h hx

/-- In none of the small classes, computed: private use, control, white space. -/
def noSmallClass (x : Nat) : Bool :=
  (Nat.ble 0x21 x && Nat.ble x 0x7E) || (Nat.ble 0xA1 x && Nat.ble x 0x167F) ||
  (Nat.ble 0x1681 x && Nat.ble x 0x1FFF) || (Nat.ble 0x2060 x && Nat.ble x 0x2FFF) ||
  (Nat.ble 0x3001 x && Nat.ble x 0xDFFF) || (Nat.ble 0xF900 x && Nat.ble x 0xEFFFF)

/-- Unassigned characters that are mapped (versions 7 and 16). -/
def unassignedMapped (x : Nat) : Bool :=
  (Nat.ble 0x10C80 x && Nat.ble x 0x10CB2) || Nat.beq x 0x1057B || Nat.beq x 0x1058B ||
  Nat.beq x 0x10593

/-- The mappings of other characters. -/
def mapsOther (v : Version) : List (Nat × Nat) := (maps v).filter fun p => !unassignedMapped p.1

/-- What is checked of each mapping. -/
def kindCheck (p : Nat × Nat) : Bool :=
  noSmallClass p.1 && noSmallClass p.2 &&
  (Nat.ble p.1 0xFFFF == Nat.ble p.2 0xFFFF) && (!Nat.ble p.1 0x7F || Nat.ble p.2 0x7F)

theorem kind_check (v : Version) : (maps v).all kindCheck = true := by
  cases v
  · decide +kernel
  · decide +kernel
  · decide +kernel
  · decide +kernel
  · decide +kernel
  · decide +kernel
  · decide +kernel
  · decide +kernel
  · decide +kernel
  · decide +kernel

theorem small_check (v : Version) : ((maps v).filter fun p => unassignedMapped p.1).all (fun p =>
    (isUnicodeAssigned32 v).eval p.1 == (isUnicodeAssigned32 v).eval p.2) = true := by
  cases v
  · decide +kernel
  · decide +kernel
  · decide +kernel
  · decide +kernel
  · decide +kernel
  · decide +kernel
  · decide +kernel
  · decide +kernel
  · decide +kernel
  · decide +kernel

theorem from_check (v : Version) :
    walk (assignedTable v) ((mapsOther v).map Prod.fst) (assignedTable v) = true := by
  cases v
  · decide +kernel
  · decide +kernel
  · decide +kernel
  · decide +kernel
  · decide +kernel
  · decide +kernel
  · decide +kernel
  · decide +kernel
  · decide +kernel
  · decide +kernel

theorem to_check (v : Version) :
    walk (assignedTable v) ((mapsOther v).map Prod.snd) (assignedTable v) = true := by
  cases v
  · decide +kernel
  · decide +kernel
  · decide +kernel
  · decide +kernel
  · decide +kernel
  · decide +kernel
  · decide +kernel
  · decide +kernel
  · decide +kernel
  · decide +kernel

/-- The classes of the two characters are the same. -/
def SameClasses (v : Version) (x y : Nat) : Prop :=
  (charClass v).assigned32 x = (charClass v).assigned32 y ∧
  (charClass v).private32 x = (charClass v).private32 y ∧
  (charClass v).control32 x = (charClass v).control32 y ∧
  (charClass v).white32 x = (charClass v).white32 y

theorem bool_false_of {b : Bool} {P : Prop} (h : b = true ↔ P) (hn : ¬ P) : b = false := by
  cases b with
  | false => rfl
  | true => exact absurd (h.1 rfl) hn

theorem not_inRanges {rs : List (Nat × Nat)} {x : Nat} (h : ∀ r ∈ rs, ¬ (r.1 ≤ x ∧ x ≤ r.2)) :
    ¬ InRanges rs x := fun ⟨r, hr, h'⟩ => h r hr h'

theorem noSmallClass_spec {v : Version} {x : Nat} (h : noSmallClass x = true) :
    (charClass v).private32 x = false ∧ (charClass v).control32 x = false ∧
      (charClass v).white32 x = false := by
  unfold noSmallClass at h
  simp only [Bool.or_eq_true, Bool.and_eq_true, Nat.ble_eq] at h
  have hx : x ≤ 0xFFFFFFFF := by omega
  refine ⟨bool_false_of (private32_ranges v x hx) (not_inRanges ?_),
    bool_false_of (control32_ranges v x hx) (not_inRanges ?_),
    bool_false_of (white32_ranges v x hx) (not_inRanges ?_)⟩
  · simp only [List.forall_mem_cons, List.not_mem_nil, false_implies, implies_true, and_true]
    omega
  · simp only [List.forall_mem_cons, List.not_mem_nil, false_implies, implies_true, and_true]
    omega
  · simp only [List.forall_mem_cons, List.not_mem_nil, false_implies, implies_true, and_true]
    omega

theorem maps_classes {v : Version} {p : Nat × Nat} (hp : p ∈ maps v) :
    SameClasses v p.1 p.2 ∧ (p.1 ≤ 0xFFFF ↔ p.2 ≤ 0xFFFF) ∧ (p.1 ≤ 0x7F → p.2 ≤ 0x7F) := by
  have hk := List.all_eq_true.1 (kind_check v) p hp
  unfold kindCheck at hk
  rw [Bool.and_eq_true, Bool.and_eq_true, Bool.and_eq_true, beq_iff_eq] at hk
  obtain ⟨⟨⟨h1, h2⟩, h3⟩, h4⟩ := hk
  have s1 := noSmallClass_spec (v := v) h1
  have s2 := noSmallClass_spec (v := v) h2
  have ha : (charClass v).assigned32 p.1 = (charClass v).assigned32 p.2 := by
    cases hu : unassignedMapped p.1 with
    | true =>
      have := List.all_eq_true.1 (small_check v) p (List.mem_filter.2 ⟨hp, hu⟩)
      exact beq_iff_eq.1 this
    | false =>
      have hm : p ∈ mapsOther v := List.mem_filter.2 ⟨hp, by rw [hu]; rfl⟩
      have m := maps_scalar hp
      unfold Spec.Scalar at m
      have a1 := (assigned_iff v p.1 (by omega)).2
        (walk_spec (fun _ h => h) (from_check v) (List.mem_map_of_mem hm))
      have a2 := (assigned_iff v p.2 (by omega)).2
        (walk_spec (fun _ h => h) (to_check v) (List.mem_map_of_mem hm))
      exact a1.trans a2.symm
  refine ⟨⟨ha, s1.1.trans s2.1.symm, s1.2.1.trans s2.2.1.symm, s1.2.2.trans s2.2.2.symm⟩, ?_,
    fun hx => ?_⟩
  · rw [← Nat.ble_eq, ← Nat.ble_eq, h3]
  · rw [← Nat.ble_eq] at hx ⊢
    rw [hx] at h4
    exact h4

/-- Lower-casing keeps the classes of a character, keeps it in or outside the BMP, and within
ASCII. -/
theorem toLower_classes (v : Version) {x : Nat} (hx : x ≤ 0xFFFFFFFF) :
    SameClasses v x ((toLower v).eval x) ∧ (x ≤ 0xFFFF ↔ (toLower v).eval x ≤ 0xFFFF) ∧
      (x ≤ 0x7F → (toLower v).eval x ≤ 0x7F) := by
  rw [toLower_eq v x hx]
  rcases mapOf_cases (maps v) x with e | ⟨p, hp, rfl, e⟩
  · rw [e]; exact ⟨⟨rfl, rfl, rfl, rfl⟩, Iff.rfl, id⟩
  · rw [e]; exact maps_classes hp

/-- Dotless i is in the same classes as I. -/
theorem dotless_classes (v : Version) : SameClasses v 0x49 0x131 := by
  unfold SameClasses
  cases v <;> decide +kernel

theorem surrogate_check (v : Version) :
    (assignedTable v).all (fun r => Nat.ble r.2 0xD7FF || Nat.ble 0xE000 r.1) = true := by
  cases v
  · decide +kernel
  · decide +kernel
  · decide +kernel
  · decide +kernel
  · decide +kernel
  · decide +kernel
  · decide +kernel
  · decide +kernel
  · decide +kernel
  · decide +kernel

/-- Surrogates are in none of the classes. -/
theorem surrogate_classes (v : Version) {x : Nat} (h : Spec.Surrogate x) :
    (charClass v).assigned32 x = false ∧ (charClass v).private32 x = false ∧
      (charClass v).control32 x = false ∧ (charClass v).white32 x = false := by
  unfold Spec.Surrogate at h
  refine ⟨bool_false_of (assigned_iff v x (by omega)) (not_inRanges fun r hr h' => ?_),
    noSmallClass_spec ?_⟩
  · have := List.all_eq_true.1 (surrogate_check v) r hr
    rw [Bool.or_eq_true, Nat.ble_eq, Nat.ble_eq] at this
    omega
  · unfold noSmallClass
    simp only [Bool.or_eq_true, Bool.and_eq_true, Nat.ble_eq]
    omega

end Ansak.Unicode
