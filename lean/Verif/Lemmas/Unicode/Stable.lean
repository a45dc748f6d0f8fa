import Verif.Lemmas.Unicode.All
import Verif.Spec.Utf8

/-!
# The tables from one version to the next, and the characters they map
-/

namespace Ansak.Unicode

open CExpr
open Spec (InRanges mapOf Assigned assignedTable Scalar)

/-- Is every element of the first list in the second, in the same order? -/
def isSub : List (Nat × Nat) → List (Nat × Nat) → Bool
  | [], _ => true
  | _ :: _, [] => false
  | p :: ps, q :: qs =>
    bif Nat.beq p.1 q.1 && Nat.beq p.2 q.2 then isSub ps qs else isSub (p :: ps) qs

theorem isSub_mem {ps qs : List (Nat × Nat)} (h : isSub ps qs = true) {p : Nat × Nat}
    (hp : p ∈ ps) : p ∈ qs := by
  induction qs generalizing ps with
  | nil =>
    cases ps with
    | nil => cases hp
    | cons a ps => cases h
  | cons q qs ih =>
    cases ps with
    | nil => cases hp
    | cons a ps =>
      unfold isSub at h
      cases hc : (Nat.beq a.1 q.1 && Nat.beq a.2 q.2) with
      | true =>
        rw [hc] at h
        rw [Bool.and_eq_true] at hc
        have e : a = q :=
          Prod.ext (Nat.eq_of_beq_eq_true hc.1) (Nat.eq_of_beq_eq_true hc.2)
        rcases List.mem_cons.1 hp with h1 | h1
        · subst h1; subst e; exact List.mem_cons_self ..
        · exact List.mem_cons_of_mem _ (ih h h1)
      | false =>
        rw [hc] at h
        exact List.mem_cons_of_mem _ (ih h hp)

/-- Is every range of the first list within a range of the second? -/
def inclR : Nat → List (Nat × Nat) → List (Nat × Nat) → Bool
  | _, [], _ => true
  | 0, _ :: _, _ => false
  | _ + 1, _ :: _, [] => false
  | n + 1, r :: rs, s :: ss =>
    bif Nat.ble s.1 r.1 && Nat.ble r.2 s.2 then inclR n rs (s :: ss) else inclR n (r :: rs) ss

theorem inclR_mem {n : Nat} {rs ss : List (Nat × Nat)} (h : inclR n rs ss = true) {x : Nat}
    (hx : InRanges rs x) : InRanges ss x := by
  induction n generalizing rs ss with
  | zero =>
    cases rs with
    | nil => obtain ⟨r, hr, _⟩ := hx; cases hr
    | cons r rs => cases h
  | succ n ih =>
    cases rs with
    | nil => obtain ⟨r, hr, _⟩ := hx; cases hr
    | cons r rs =>
      cases ss with
      | nil => cases h
      | cons s ss =>
        unfold inclR at h
        cases hc : (Nat.ble s.1 r.1 && Nat.ble r.2 s.2) with
        | true =>
          rw [hc] at h
          rw [Bool.and_eq_true] at hc
          have h1 := ble_true hc.1
          have h2 := ble_true hc.2
          obtain ⟨q, hq, h3, h4⟩ := hx
          rcases List.mem_cons.1 hq with e | hq
          · subst e
            exact ⟨s, List.mem_cons_self .., by omega, by omega⟩
          · exact ih h ⟨q, hq, h3, h4⟩
        | false =>
          rw [hc] at h
          obtain ⟨q, hq, h3⟩ := ih h hx
          exact ⟨q, List.mem_cons_of_mem _ hq, h3⟩

/-- A scalar value other than zero, computed. -/
def okChar (x : Nat) : Bool :=
  Nat.ble 1 x && Nat.ble x 0x10FFFF && (Nat.ble x 0xD7FF || Nat.ble 0xE000 x)

theorem okChar_scalar {x : Nat} (h : okChar x = true) : Scalar x ∧ x ≠ 0 := by
  unfold okChar at h
  rw [Bool.and_eq_true, Bool.and_eq_true, Bool.or_eq_true] at h
  have h1 := ble_true h.1.1
  have h2 := ble_true h.1.2
  unfold Scalar
  rcases h.2 with h3 | h3
  · have := ble_true h3
    exact ⟨⟨by omega, by unfold Spec.Surrogate; omega⟩, by omega⟩
  · have := ble_true h3
    exact ⟨⟨by omega, by unfold Spec.Surrogate; omega⟩, by omega⟩

theorem maps_okChar (v : Version) :
    (maps v).all (fun p => okChar p.1 && okChar p.2) = true := by
  cases v
  · decide +kernel
  · decide +kernel
  · decide +kernel
  · decide +kernel
  · decide +kernel
  · decide +kernel
  · decide +kernel
  · decide +kernel
  · decide +kernel
  · decide +kernel

theorem maps_scalar {v : Version} {p : Nat × Nat} (hp : p ∈ maps v) :
    (Scalar p.1 ∧ p.1 ≠ 0) ∧ Scalar p.2 ∧ p.2 ≠ 0 := by
  have h := List.all_eq_true.1 (maps_okChar v) p hp
  rw [Bool.and_eq_true] at h
  exact ⟨okChar_scalar h.1, okChar_scalar h.2⟩

theorem maps_7_8 : isSub (maps .v7) (maps .v8) = true := by decide +kernel

theorem assigned_7_8 : inclR 2000 (assignedTable .v7) (assignedTable .v8) = true := by
  decide +kernel

theorem maps_8_9 : isSub (maps .v8) (maps .v9) = true := by decide +kernel

theorem assigned_8_9 : inclR 2000 (assignedTable .v8) (assignedTable .v9) = true := by
  decide +kernel

theorem maps_9_10 : isSub (maps .v9) (maps .v10) = true := by decide +kernel

theorem assigned_9_10 : inclR 2000 (assignedTable .v9) (assignedTable .v10) = true := by
  decide +kernel

theorem maps_10_11 : isSub (maps .v10) (maps .v11) = true := by decide +kernel

theorem assigned_10_11 : inclR 2000 (assignedTable .v10) (assignedTable .v11) = true := by
  decide +kernel

theorem maps_11_12 : isSub (maps .v11) (maps .v12) = true := by decide +kernel

theorem assigned_11_12 : inclR 2000 (assignedTable .v11) (assignedTable .v12) = true := by
  decide +kernel

theorem maps_12_13 : isSub (maps .v12) (maps .v13) = true := by decide +kernel

theorem assigned_12_13 : inclR 2000 (assignedTable .v12) (assignedTable .v13) = true := by
  decide +kernel

theorem maps_13_14 : isSub (maps .v13) (maps .v14) = true := by decide +kernel

theorem assigned_13_14 : inclR 2000 (assignedTable .v13) (assignedTable .v14) = true := by
  decide +kernel

theorem maps_14_15 : isSub (maps .v14) (maps .v15) = true := by decide +kernel

theorem assigned_14_15 : inclR 2000 (assignedTable .v14) (assignedTable .v15) = true := by
  decide +kernel

theorem maps_15_16 : isSub (maps .v15) (maps .v16) = true := by decide +kernel

theorem assigned_15_16 : inclR 2000 (assignedTable .v15) (assignedTable .v16) = true := by
  decide +kernel

/-- A reflexive relation that holds from each version to the next one holds from each version to
every later one, if it is transitive. -/
theorem Version.chain {R : Version → Version → Prop} (refl : ∀ v, R v v)
    (trans : ∀ {a b c}, R a b → R b c → R a c)
    (h7 : R .v7 .v8)
    (h8 : R .v8 .v9)
    (h9 : R .v9 .v10)
    (h10 : R .v10 .v11)
    (h11 : R .v11 .v12)
    (h12 : R .v12 .v13)
    (h13 : R .v13 .v14)
    (h14 : R .v14 .v15)
    (h15 : R .v15 .v16) {v w : Version} (h : Spec.Version.LE v w) :
    R v w := by
  have step : ∀ n, ∀ v w : Version, Spec.Version.number v + n = Spec.Version.number w → R v w := by
    intro n
    induction n with
    | zero => intro v w e; cases v <;> cases w <;> first | exact refl _ | exact absurd e (by decide)
    | succ n ih =>
      intro v w e
      cases w
      · have h7 : ∀ v, 7 ≤ Spec.Version.number v := by intro v; cases v <;> decide
        have h7v := h7 v
        replace e : Spec.Version.number v + (n + 1) = 7 := e
        exact absurd e (by omega)
      · exact trans (ih v .v7 (Nat.succ.inj e)) h7
      · exact trans (ih v .v8 (Nat.succ.inj e)) h8
      · exact trans (ih v .v9 (Nat.succ.inj e)) h9
      · exact trans (ih v .v10 (Nat.succ.inj e)) h10
      · exact trans (ih v .v11 (Nat.succ.inj e)) h11
      · exact trans (ih v .v12 (Nat.succ.inj e)) h12
      · exact trans (ih v .v13 (Nat.succ.inj e)) h13
      · exact trans (ih v .v14 (Nat.succ.inj e)) h14
      · exact trans (ih v .v15 (Nat.succ.inj e)) h15
  unfold Spec.Version.LE at h
  exact step (Spec.Version.number w - Spec.Version.number v) v w (by omega)

theorem assigned_stable {v w : Version} (h : Spec.Version.LE v w) {x : Nat} :
    Assigned v x → Assigned w x :=
  Version.chain (R := fun v w => Assigned v x → Assigned w x) (fun _ h => h)
    (fun f g h => g (f h))
    (inclR_mem assigned_7_8)
    (inclR_mem assigned_8_9)
    (inclR_mem assigned_9_10)
    (inclR_mem assigned_10_11)
    (inclR_mem assigned_11_12)
    (inclR_mem assigned_12_13)
    (inclR_mem assigned_13_14)
    (inclR_mem assigned_14_15)
    (inclR_mem assigned_15_16) h

theorem maps_stable {v w : Version} (h : Spec.Version.LE v w) {p : Nat × Nat} :
    p ∈ maps v → p ∈ maps w :=
  Version.chain (R := fun v w => p ∈ maps v → p ∈ maps w) (fun _ h => h)
    (fun f g h => g (f h))
    (isSub_mem maps_7_8)
    (isSub_mem maps_8_9)
    (isSub_mem maps_9_10)
    (isSub_mem maps_10_11)
    (isSub_mem maps_11_12)
    (isSub_mem maps_12_13)
    (isSub_mem maps_13_14)
    (isSub_mem maps_14_15)
    (isSub_mem maps_15_16) h

theorem toLower_stable {v w : Version} (h : Spec.Version.LE v w) {x : Nat} (hx : x ≤ 0xFFFFFFFF)
    (hne : (toLower v).eval x ≠ x) : (toLower w).eval x = (toLower v).eval x := by
  rcases mapOf_cases (maps v) x with e | ⟨p, hp, rfl, _⟩
  · rw [toLower_eq v x hx] at hne
    exact absurd e hne
  · rw [(toLower_image v hp).1, (toLower_image w (maps_stable h hp)).1]

theorem toLower_le (v : Version) {x : Nat} (hx : x ≤ 0xFFFFFFFF) :
    (toLower v).eval x ≤ 0xFFFFFFFF := by
  rw [toLower_eq v x hx]
  rcases mapOf_cases (maps v) x with e | ⟨p, hp, _, e⟩
  · rw [e]; exact hx
  · rw [e]
    have h := (maps_scalar hp).2.1
    unfold Scalar at h
    omega

theorem toLowerChar_toNat (v : Version) (c : U32) :
    (toLowerChar v c).toNat = (toLower v).eval c.toNat := by
  have h := toLower_le v (x := c.toNat) (by have := c.isLt; omega)
  unfold toLowerChar
  rw [BitVec.toNat_ofNat]
  exact Nat.mod_eq_of_lt (by omega)

end Ansak.Unicode
