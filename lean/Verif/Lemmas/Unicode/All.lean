import Verif.Lemmas.Unicode.Cert7
import Verif.Lemmas.Unicode.Cert8
import Verif.Lemmas.Unicode.Cert9
import Verif.Lemmas.Unicode.Cert10
import Verif.Lemmas.Unicode.Cert11
import Verif.Lemmas.Unicode.Cert12
import Verif.Lemmas.Unicode.Cert13
import Verif.Lemmas.Unicode.Cert14
import Verif.Lemmas.Unicode.Cert15
import Verif.Lemmas.Unicode.Cert16
import Verif.Spec.Unicode

/-!
# The tables of all ten versions

Gathers the facts the kernel checked version by version (`Verif.Lemmas.Unicode.Cert*`).
-/

namespace Ansak.Unicode

open CExpr
open Spec (InRanges mapOf Assigned lowerOf)

/-- The parts covering the assigned code points. -/
def assignedParts : Version → List Part
  | .v7 => Bits7.Cert.assignedParts
  | .v8 => Bits8.Cert.assignedParts
  | .v9 => Bits9.Cert.assignedParts
  | .v10 => Bits10.Cert.assignedParts
  | .v11 => Bits11.Cert.assignedParts
  | .v12 => Bits12.Cert.assignedParts
  | .v13 => Bits13.Cert.assignedParts
  | .v14 => Bits14.Cert.assignedParts
  | .v15 => Bits15.Cert.assignedParts
  | .v16 => Bits16.Cert.assignedParts

/-- The steps covering the lower-case mapping. -/
def lowerParts : Version → List (Nat × List Step)
  | .v7 => Bits7.Cert.lowerParts
  | .v8 => Bits8.Cert.lowerParts
  | .v9 => Bits9.Cert.lowerParts
  | .v10 => Bits10.Cert.lowerParts
  | .v11 => Bits11.Cert.lowerParts
  | .v12 => Bits12.Cert.lowerParts
  | .v13 => Bits13.Cert.lowerParts
  | .v14 => Bits14.Cert.lowerParts
  | .v15 => Bits15.Cert.lowerParts
  | .v16 => Bits16.Cert.lowerParts

/-- The mappings `toLower` performs. -/
def maps (v : Version) : List (Nat × Nat) := mapsOf (lowerParts v)

theorem assigned_check (v : Version) :
    checkParts (isUnicodeAssigned32 v) 0xFFFFFFFF (assignedParts v) 0 = true := by
  cases v
  · exact Bits7.Cert.assigned_check
  · exact Bits8.Cert.assigned_check
  · exact Bits9.Cert.assigned_check
  · exact Bits10.Cert.assigned_check
  · exact Bits11.Cert.assigned_check
  · exact Bits12.Cert.assigned_check
  · exact Bits13.Cert.assigned_check
  · exact Bits14.Cert.assigned_check
  · exact Bits15.Cert.assigned_check
  · exact Bits16.Cert.assigned_check

theorem assigned_ranges (v : Version) :
    rangesOf (assignedParts v) = Spec.assignedTable v := by
  cases v
  · exact Bits7.Cert.assigned_ranges
  · exact Bits8.Cert.assigned_ranges
  · exact Bits9.Cert.assigned_ranges
  · exact Bits10.Cert.assigned_ranges
  · exact Bits11.Cert.assigned_ranges
  · exact Bits12.Cert.assigned_ranges
  · exact Bits13.Cert.assigned_ranges
  · exact Bits14.Cert.assigned_ranges
  · exact Bits15.Cert.assigned_ranges
  · exact Bits16.Cert.assigned_ranges

theorem lower_check (v : Version) :
    checkVParts (toLower v) 0xFFFFFFFF (lowerParts v) 0 = true := by
  cases v
  · exact Bits7.Cert.lower_check
  · exact Bits8.Cert.lower_check
  · exact Bits9.Cert.lower_check
  · exact Bits10.Cert.lower_check
  · exact Bits11.Cert.lower_check
  · exact Bits12.Cert.lower_check
  · exact Bits13.Cert.lower_check
  · exact Bits14.Cert.lower_check
  · exact Bits15.Cert.lower_check
  · exact Bits16.Cert.lower_check

theorem private16_ranges (v : Version) (x : Nat) (hx : x ≤ 0xFFFF) :
    (isUnicodePrivate16 v).eval x = true ↔
      InRanges [(0xE000, 0xF8FF)] x := by
  cases v
  · rw [← Bits7.Cert.private16_check.2]
    exact (checkParts_sound Bits7.Cert.private16_check.1).2 x (Nat.zero_le _) hx
  · rw [← Bits8.Cert.private16_check.2]
    exact (checkParts_sound Bits8.Cert.private16_check.1).2 x (Nat.zero_le _) hx
  · rw [← Bits9.Cert.private16_check.2]
    exact (checkParts_sound Bits9.Cert.private16_check.1).2 x (Nat.zero_le _) hx
  · rw [← Bits10.Cert.private16_check.2]
    exact (checkParts_sound Bits10.Cert.private16_check.1).2 x (Nat.zero_le _) hx
  · rw [← Bits11.Cert.private16_check.2]
    exact (checkParts_sound Bits11.Cert.private16_check.1).2 x (Nat.zero_le _) hx
  · rw [← Bits12.Cert.private16_check.2]
    exact (checkParts_sound Bits12.Cert.private16_check.1).2 x (Nat.zero_le _) hx
  · rw [← Bits13.Cert.private16_check.2]
    exact (checkParts_sound Bits13.Cert.private16_check.1).2 x (Nat.zero_le _) hx
  · rw [← Bits14.Cert.private16_check.2]
    exact (checkParts_sound Bits14.Cert.private16_check.1).2 x (Nat.zero_le _) hx
  · rw [← Bits15.Cert.private16_check.2]
    exact (checkParts_sound Bits15.Cert.private16_check.1).2 x (Nat.zero_le _) hx
  · rw [← Bits16.Cert.private16_check.2]
    exact (checkParts_sound Bits16.Cert.private16_check.1).2 x (Nat.zero_le _) hx

theorem private32_ranges (v : Version) (x : Nat) (hx : x ≤ 0xFFFFFFFF) :
    (isUnicodePrivate32 v).eval x = true ↔
      InRanges [(0xE000, 0xF8FF), (0xF0000, 0xFFFFD), (0x100000, 0x10FFFD)] x := by
  cases v
  · rw [← Bits7.Cert.private32_check.2]
    exact (checkParts_sound Bits7.Cert.private32_check.1).2 x (Nat.zero_le _) hx
  · rw [← Bits8.Cert.private32_check.2]
    exact (checkParts_sound Bits8.Cert.private32_check.1).2 x (Nat.zero_le _) hx
  · rw [← Bits9.Cert.private32_check.2]
    exact (checkParts_sound Bits9.Cert.private32_check.1).2 x (Nat.zero_le _) hx
  · rw [← Bits10.Cert.private32_check.2]
    exact (checkParts_sound Bits10.Cert.private32_check.1).2 x (Nat.zero_le _) hx
  · rw [← Bits11.Cert.private32_check.2]
    exact (checkParts_sound Bits11.Cert.private32_check.1).2 x (Nat.zero_le _) hx
  · rw [← Bits12.Cert.private32_check.2]
    exact (checkParts_sound Bits12.Cert.private32_check.1).2 x (Nat.zero_le _) hx
  · rw [← Bits13.Cert.private32_check.2]
    exact (checkParts_sound Bits13.Cert.private32_check.1).2 x (Nat.zero_le _) hx
  · rw [← Bits14.Cert.private32_check.2]
    exact (checkParts_sound Bits14.Cert.private32_check.1).2 x (Nat.zero_le _) hx
  · rw [← Bits15.Cert.private32_check.2]
    exact (checkParts_sound Bits15.Cert.private32_check.1).2 x (Nat.zero_le _) hx
  · rw [← Bits16.Cert.private32_check.2]
    exact (checkParts_sound Bits16.Cert.private32_check.1).2 x (Nat.zero_le _) hx

theorem control8_ranges (v : Version) (x : Nat) (hx : x ≤ 0xFF) :
    (isControlChar8 v).eval x = true ↔
      InRanges [(0x0, 0x1F), (0x7F, 0x9F)] x := by
  cases v
  · rw [← Bits7.Cert.control8_check.2]
    exact (checkParts_sound Bits7.Cert.control8_check.1).2 x (Nat.zero_le _) hx
  · rw [← Bits8.Cert.control8_check.2]
    exact (checkParts_sound Bits8.Cert.control8_check.1).2 x (Nat.zero_le _) hx
  · rw [← Bits9.Cert.control8_check.2]
    exact (checkParts_sound Bits9.Cert.control8_check.1).2 x (Nat.zero_le _) hx
  · rw [← Bits10.Cert.control8_check.2]
    exact (checkParts_sound Bits10.Cert.control8_check.1).2 x (Nat.zero_le _) hx
  · rw [← Bits11.Cert.control8_check.2]
    exact (checkParts_sound Bits11.Cert.control8_check.1).2 x (Nat.zero_le _) hx
  · rw [← Bits12.Cert.control8_check.2]
    exact (checkParts_sound Bits12.Cert.control8_check.1).2 x (Nat.zero_le _) hx
  · rw [← Bits13.Cert.control8_check.2]
    exact (checkParts_sound Bits13.Cert.control8_check.1).2 x (Nat.zero_le _) hx
  · rw [← Bits14.Cert.control8_check.2]
    exact (checkParts_sound Bits14.Cert.control8_check.1).2 x (Nat.zero_le _) hx
  · rw [← Bits15.Cert.control8_check.2]
    exact (checkParts_sound Bits15.Cert.control8_check.1).2 x (Nat.zero_le _) hx
  · rw [← Bits16.Cert.control8_check.2]
    exact (checkParts_sound Bits16.Cert.control8_check.1).2 x (Nat.zero_le _) hx

theorem control16_ranges (v : Version) (x : Nat) (hx : x ≤ 0xFFFF) :
    (isControlChar16 v).eval x = true ↔
      InRanges [(0x0, 0x1F), (0x7F, 0x9F)] x := by
  cases v
  · rw [← Bits7.Cert.control16_check.2]
    exact (checkParts_sound Bits7.Cert.control16_check.1).2 x (Nat.zero_le _) hx
  · rw [← Bits8.Cert.control16_check.2]
    exact (checkParts_sound Bits8.Cert.control16_check.1).2 x (Nat.zero_le _) hx
  · rw [← Bits9.Cert.control16_check.2]
    exact (checkParts_sound Bits9.Cert.control16_check.1).2 x (Nat.zero_le _) hx
  · rw [← Bits10.Cert.control16_check.2]
    exact (checkParts_sound Bits10.Cert.control16_check.1).2 x (Nat.zero_le _) hx
  · rw [← Bits11.Cert.control16_check.2]
    exact (checkParts_sound Bits11.Cert.control16_check.1).2 x (Nat.zero_le _) hx
  · rw [← Bits12.Cert.control16_check.2]
    exact (checkParts_sound Bits12.Cert.control16_check.1).2 x (Nat.zero_le _) hx
  · rw [← Bits13.Cert.control16_check.2]
    exact (checkParts_sound Bits13.Cert.control16_check.1).2 x (Nat.zero_le _) hx
  · rw [← Bits14.Cert.control16_check.2]
    exact (checkParts_sound Bits14.Cert.control16_check.1).2 x (Nat.zero_le _) hx
  · rw [← Bits15.Cert.control16_check.2]
    exact (checkParts_sound Bits15.Cert.control16_check.1).2 x (Nat.zero_le _) hx
  · rw [← Bits16.Cert.control16_check.2]
    exact (checkParts_sound Bits16.Cert.control16_check.1).2 x (Nat.zero_le _) hx

theorem control32_ranges (v : Version) (x : Nat) (hx : x ≤ 0xFFFFFFFF) :
    (isControlChar32 v).eval x = true ↔
      InRanges [(0x0, 0x1F), (0x7F, 0x9F)] x := by
  cases v
  · rw [← Bits7.Cert.control32_check.2]
    exact (checkParts_sound Bits7.Cert.control32_check.1).2 x (Nat.zero_le _) hx
  · rw [← Bits8.Cert.control32_check.2]
    exact (checkParts_sound Bits8.Cert.control32_check.1).2 x (Nat.zero_le _) hx
  · rw [← Bits9.Cert.control32_check.2]
    exact (checkParts_sound Bits9.Cert.control32_check.1).2 x (Nat.zero_le _) hx
  · rw [← Bits10.Cert.control32_check.2]
    exact (checkParts_sound Bits10.Cert.control32_check.1).2 x (Nat.zero_le _) hx
  · rw [← Bits11.Cert.control32_check.2]
    exact (checkParts_sound Bits11.Cert.control32_check.1).2 x (Nat.zero_le _) hx
  · rw [← Bits12.Cert.control32_check.2]
    exact (checkParts_sound Bits12.Cert.control32_check.1).2 x (Nat.zero_le _) hx
  · rw [← Bits13.Cert.control32_check.2]
    exact (checkParts_sound Bits13.Cert.control32_check.1).2 x (Nat.zero_le _) hx
  · rw [← Bits14.Cert.control32_check.2]
    exact (checkParts_sound Bits14.Cert.control32_check.1).2 x (Nat.zero_le _) hx
  · rw [← Bits15.Cert.control32_check.2]
    exact (checkParts_sound Bits15.Cert.control32_check.1).2 x (Nat.zero_le _) hx
  · rw [← Bits16.Cert.control32_check.2]
    exact (checkParts_sound Bits16.Cert.control32_check.1).2 x (Nat.zero_le _) hx

theorem white8_ranges (v : Version) (x : Nat) (hx : x ≤ 0xFF) :
    (isWhitespaceChar8 v).eval x = true ↔
      InRanges [(0x9, 0xD), (0x20, 0x20), (0x85, 0x85), (0xA0, 0xA0)] x := by
  cases v
  · rw [← Bits7.Cert.white8_check.2]
    exact (checkParts_sound Bits7.Cert.white8_check.1).2 x (Nat.zero_le _) hx
  · rw [← Bits8.Cert.white8_check.2]
    exact (checkParts_sound Bits8.Cert.white8_check.1).2 x (Nat.zero_le _) hx
  · rw [← Bits9.Cert.white8_check.2]
    exact (checkParts_sound Bits9.Cert.white8_check.1).2 x (Nat.zero_le _) hx
  · rw [← Bits10.Cert.white8_check.2]
    exact (checkParts_sound Bits10.Cert.white8_check.1).2 x (Nat.zero_le _) hx
  · rw [← Bits11.Cert.white8_check.2]
    exact (checkParts_sound Bits11.Cert.white8_check.1).2 x (Nat.zero_le _) hx
  · rw [← Bits12.Cert.white8_check.2]
    exact (checkParts_sound Bits12.Cert.white8_check.1).2 x (Nat.zero_le _) hx
  · rw [← Bits13.Cert.white8_check.2]
    exact (checkParts_sound Bits13.Cert.white8_check.1).2 x (Nat.zero_le _) hx
  · rw [← Bits14.Cert.white8_check.2]
    exact (checkParts_sound Bits14.Cert.white8_check.1).2 x (Nat.zero_le _) hx
  · rw [← Bits15.Cert.white8_check.2]
    exact (checkParts_sound Bits15.Cert.white8_check.1).2 x (Nat.zero_le _) hx
  · rw [← Bits16.Cert.white8_check.2]
    exact (checkParts_sound Bits16.Cert.white8_check.1).2 x (Nat.zero_le _) hx

theorem white16_ranges (v : Version) (x : Nat) (hx : x ≤ 0xFFFF) :
    (isWhitespaceChar16 v).eval x = true ↔
      InRanges [(0x9, 0xD), (0x20, 0x20), (0x85, 0x85), (0xA0, 0xA0), (0x1680, 0x1680), (0x2000, 0x200A),
        (0x2028, 0x2029), (0x202F, 0x202F), (0x205F, 0x205F), (0x3000, 0x3000)] x := by
  cases v
  · rw [← Bits7.Cert.white16_check.2]
    exact (checkParts_sound Bits7.Cert.white16_check.1).2 x (Nat.zero_le _) hx
  · rw [← Bits8.Cert.white16_check.2]
    exact (checkParts_sound Bits8.Cert.white16_check.1).2 x (Nat.zero_le _) hx
  · rw [← Bits9.Cert.white16_check.2]
    exact (checkParts_sound Bits9.Cert.white16_check.1).2 x (Nat.zero_le _) hx
  · rw [← Bits10.Cert.white16_check.2]
    exact (checkParts_sound Bits10.Cert.white16_check.1).2 x (Nat.zero_le _) hx
  · rw [← Bits11.Cert.white16_check.2]
    exact (checkParts_sound Bits11.Cert.white16_check.1).2 x (Nat.zero_le _) hx
  · rw [← Bits12.Cert.white16_check.2]
    exact (checkParts_sound Bits12.Cert.white16_check.1).2 x (Nat.zero_le _) hx
  · rw [← Bits13.Cert.white16_check.2]
    exact (checkParts_sound Bits13.Cert.white16_check.1).2 x (Nat.zero_le _) hx
  · rw [← Bits14.Cert.white16_check.2]
    exact (checkParts_sound Bits14.Cert.white16_check.1).2 x (Nat.zero_le _) hx
  · rw [← Bits15.Cert.white16_check.2]
    exact (checkParts_sound Bits15.Cert.white16_check.1).2 x (Nat.zero_le _) hx
  · rw [← Bits16.Cert.white16_check.2]
    exact (checkParts_sound Bits16.Cert.white16_check.1).2 x (Nat.zero_le _) hx

theorem white32_ranges (v : Version) (x : Nat) (hx : x ≤ 0xFFFFFFFF) :
    (isWhitespaceChar32 v).eval x = true ↔
      InRanges [(0x9, 0xD), (0x20, 0x20), (0x85, 0x85), (0xA0, 0xA0), (0x1680, 0x1680), (0x2000, 0x200A),
        (0x2028, 0x2029), (0x202F, 0x202F), (0x205F, 0x205F), (0x3000, 0x3000)] x := by
  cases v
  · rw [← Bits7.Cert.white32_check.2]
    exact (checkParts_sound Bits7.Cert.white32_check.1).2 x (Nat.zero_le _) hx
  · rw [← Bits8.Cert.white32_check.2]
    exact (checkParts_sound Bits8.Cert.white32_check.1).2 x (Nat.zero_le _) hx
  · rw [← Bits9.Cert.white32_check.2]
    exact (checkParts_sound Bits9.Cert.white32_check.1).2 x (Nat.zero_le _) hx
  · rw [← Bits10.Cert.white32_check.2]
    exact (checkParts_sound Bits10.Cert.white32_check.1).2 x (Nat.zero_le _) hx
  · rw [← Bits11.Cert.white32_check.2]
    exact (checkParts_sound Bits11.Cert.white32_check.1).2 x (Nat.zero_le _) hx
  · rw [← Bits12.Cert.white32_check.2]
    exact (checkParts_sound Bits12.Cert.white32_check.1).2 x (Nat.zero_le _) hx
  · rw [← Bits13.Cert.white32_check.2]
    exact (checkParts_sound Bits13.Cert.white32_check.1).2 x (Nat.zero_le _) hx
  · rw [← Bits14.Cert.white32_check.2]
    exact (checkParts_sound Bits14.Cert.white32_check.1).2 x (Nat.zero_le _) hx
  · rw [← Bits15.Cert.white32_check.2]
    exact (checkParts_sound Bits15.Cert.white32_check.1).2 x (Nat.zero_le _) hx
  · rw [← Bits16.Cert.white32_check.2]
    exact (checkParts_sound Bits16.Cert.white32_check.1).2 x (Nat.zero_le _) hx

theorem assigned_iff (v : Version) (x : Nat) (hx : x ≤ 0xFFFFFFFF) :
    (isUnicodeAssigned32 v).eval x = true ↔ Assigned v x := by
  unfold Assigned
  rw [← assigned_ranges v]
  exact (checkParts_sound (assigned_check v)).2 x (Nat.zero_le _) hx

/-- For 16-bit arguments the `char32_t` overload asks the `char16_t` one. -/
theorem assigned16_eq (v : Version) (x : Nat) (hx : x ≤ 0xFFFF) :
    (isUnicodeAssigned16 v).eval x = (isUnicodeAssigned32 v).eval x := by
  have h1 : Nat.shiftRight x 16 = 0 := by
    show x >>> 16 = 0
    rw [Nat.shiftRight_eq_div_pow]
    omega
  have h2 : Nat.mod (Nat.land x 0xFFFF) (Nat.pow 2 16) = x := by
    show (x &&& (2 ^ 16 - 1)) % 2 ^ 16 = x
    rw [Nat.and_two_pow_sub_one_eq_mod]
    omega
  have key : ∀ (f r : B), (B.case (E.shr .c 16) [0] (.call f (.cast (.and .c 0xFFFF) 16)) r).eval x
      = f.eval x := by
    intro f r
    show (bif memNat (Nat.shiftRight x 16) [0] then
      f.eval (Nat.mod (Nat.land x 0xFFFF) (Nat.pow 2 16)) else r.eval x) = f.eval x
    rw [h1, h2]
    rfl
  cases v
  · exact (key _ _).symm
  · exact (key _ _).symm
  · exact (key _ _).symm
  · exact (key _ _).symm
  · exact (key _ _).symm
  · exact (key _ _).symm
  · exact (key _ _).symm
  · exact (key _ _).symm
  · exact (key _ _).symm
  · exact (key _ _).symm

/-- `toLower` maps as its list of mappings says. -/
theorem toLower_eq (v : Version) (x : Nat) (hx : x ≤ 0xFFFFFFFF) :
    (toLower v).eval x = mapOf (maps v) x :=
  (checkVParts_sound (lower_check v)).2.2 x (Nat.zero_le _) hx

theorem toLower_image (v : Version) {p : Nat × Nat} (hp : p ∈ maps v) :
    (toLower v).eval p.1 = p.2 ∧ (toLower v).eval p.2 = p.2 :=
  (checkVParts_sound (lower_check v)).2.1 p hp

theorem mapOf_cases (ps : List (Nat × Nat)) (x : Nat) :
    mapOf ps x = x ∨ ∃ p ∈ ps, p.1 = x ∧ mapOf ps x = p.2 := by
  induction ps with
  | nil => exact Or.inl rfl
  | cons p ps ih =>
    show (if x = p.1 then p.2 else mapOf ps x) = x ∨
      ∃ q ∈ p :: ps, q.1 = x ∧ (if x = p.1 then p.2 else mapOf ps x) = q.2
    by_cases h : x = p.1
    · rw [if_pos h]
      exact Or.inr ⟨p, List.mem_cons_self .., h.symm, rfl⟩
    · rw [if_neg h]
      rcases ih with h1 | ⟨q, hq, h1, h2⟩
      · exact Or.inl h1
      · exact Or.inr ⟨q, List.mem_cons_of_mem _ hq, h1, h2⟩

theorem mapOf_filter {ps : List (Nat × Nat)} {f : Nat → Bool} {x : Nat} (h : f x = true) :
    mapOf (ps.filter fun p => f p.1) x = mapOf ps x := by
  induction ps with
  | nil => rfl
  | cons p ps ih =>
    by_cases hp : f p.1 = true
    · rw [List.filter_cons_of_pos (p := fun (q : Nat × Nat) => f q.1) hp]
      show (if x = p.1 then p.2 else mapOf (ps.filter fun p => f p.1) x) =
        if x = p.1 then p.2 else mapOf ps x
      rw [ih]
    · rw [List.filter_cons_of_neg (p := fun (q : Nat × Nat) => f q.1) hp]
      have hne : x ≠ p.1 := fun e => hp (e ▸ h)
      show _ = if x = p.1 then p.2 else mapOf ps x
      rw [if_neg hne, ih]

end Ansak.Unicode
