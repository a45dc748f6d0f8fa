import Verif.Lemmas.Compose
import Verif.Spec.Order

/-!
# The order of encoded text
-/

namespace Ansak

open Spec (NatsBefore Before Encodable Surrogate utf8Of utf16Of utf8Values)

/-- The first number in which the lists differ is less in `a`. -/
def FirstLess (a b : List Nat) : Prop := ∃ p x y s t, a = p ++ x :: s ∧ b = p ++ y :: t ∧ x < y

theorem FirstLess.head {x y : Nat} {s t : List Nat} (h : x < y) : FirstLess (x :: s) (y :: t) :=
  ⟨[], x, y, s, t, rfl, rfl, h⟩

theorem FirstLess.step {x y : Nat} {s t : List Nat} (h : x ≤ y) (hs : x = y → FirstLess s t) :
    FirstLess (x :: s) (y :: t) := by
  by_cases e : x = y
  · obtain ⟨p, a, b, s', t', rfl, rfl, hl⟩ := hs e
    subst e
    exact ⟨x :: p, a, b, s', t', rfl, rfl, hl⟩
  · exact .head (by omega)

theorem FirstLess.append {a b : List Nat} (h : FirstLess a b) (s t : List Nat) :
    FirstLess (a ++ s) (b ++ t) := by
  obtain ⟨p, x, y, u, v, rfl, rfl, hl⟩ := h
  exact ⟨p, x, y, u ++ s, v ++ t, by simp, by simp, hl⟩

theorem FirstLess.prefix {a b : List Nat} (h : FirstLess a b) (p : List Nat) :
    FirstLess (p ++ a) (p ++ b) := by
  obtain ⟨q, x, y, u, v, rfl, rfl, hl⟩ := h
  exact ⟨p ++ q, x, y, u, v, by simp, by simp, hl⟩

theorem natsBefore_nil {b : List Nat} (h : b ≠ []) : NatsBefore [] b := .inl ⟨b, h, rfl⟩

theorem natsBefore_cons {x y : Nat} {s t : List Nat} :
    NatsBefore (x :: s) (y :: t) ↔ x < y ∨ (x = y ∧ NatsBefore s t) := by
  constructor
  · rintro (⟨u, hu, e⟩ | ⟨p, a, b, u, v, e1, e2, hl⟩)
    · rw [List.cons_append, List.cons.injEq] at e
      exact .inr ⟨e.1.symm, .inl ⟨u, hu, e.2⟩⟩
    · cases p with
      | nil =>
        rw [List.nil_append, List.cons.injEq] at e1 e2
        rw [e1.1, e2.1]; exact .inl hl
      | cons q p =>
        rw [List.cons_append, List.cons.injEq] at e1 e2
        exact .inr ⟨by rw [e1.1, e2.1], .inr ⟨p, a, b, u, v, e1.2, e2.2, hl⟩⟩
  · rintro (h | ⟨rfl, ⟨u, hu, rfl⟩ | ⟨p, a, b, u, v, rfl, rfl, hl⟩⟩)
    · exact .inr (FirstLess.head h)
    · exact .inl ⟨u, hu, rfl⟩
    · exact .inr ⟨x :: p, a, b, u, v, rfl, rfl, hl⟩

theorem not_natsBefore_nil {a : List Nat} : ¬ NatsBefore a [] := by
  rintro (⟨t, ht, e⟩ | ⟨p, x, y, s, t, _, e, _⟩)
  · exact ht (List.append_eq_nil_iff.1 e.symm).2
  · exact nomatch (List.append_eq_nil_iff.1 e.symm).2

theorem natsBefore_irrefl (a : List Nat) : ¬ NatsBefore a a := by
  induction a with
  | nil => exact not_natsBefore_nil
  | cons x a ih =>
    rw [natsBefore_cons]
    rintro (h | ⟨_, h⟩)
    · exact Nat.lt_irrefl _ h
    · exact ih h

theorem natsBefore_asymm {a b : List Nat} (h : NatsBefore a b) : ¬ NatsBefore b a := by
  induction a generalizing b with
  | nil => exact not_natsBefore_nil
  | cons x a ih =>
    cases b with
    | nil => exact absurd h not_natsBefore_nil
    | cons y b =>
      rw [natsBefore_cons] at h ⊢
      rintro (h' | ⟨e, h'⟩)
      · rcases h with h | ⟨e, _⟩ <;> omega
      · rcases h with h | ⟨_, h⟩
        · omega
        · exact ih h h'

theorem natsBefore_total (a b : List Nat) : NatsBefore a b ∨ a = b ∨ NatsBefore b a := by
  induction a generalizing b with
  | nil =>
    by_cases h : b = []
    · exact .inr (.inl h.symm)
    · exact .inl (natsBefore_nil h)
  | cons x a ih =>
    cases b with
    | nil => exact .inr (.inr (natsBefore_nil (by simp)))
    | cons y b =>
      rw [natsBefore_cons, natsBefore_cons]
      rcases Nat.lt_trichotomy x y with h | rfl | h
      · exact .inl (.inl h)
      · rcases ih b with h | rfl | h
        · exact .inl (.inr ⟨rfl, h⟩)
        · exact .inr (.inl rfl)
        · exact .inr (.inr (.inr ⟨rfl, h⟩))
      · exact .inr (.inr (.inl h))

/-- An encoding that puts single characters in order, in the first unit in which their encodings
differ, puts texts in order. -/
theorem natsBefore_flatMap {f : Nat → List Nat} {P : Nat → Prop} (hne : ∀ v, P v → f v ≠ [])
    (hf : ∀ v w, P v → P w → v < w → FirstLess (f v) (f w)) {vs ws : List Nat}
    (hv : ∀ v ∈ vs, P v) (hw : ∀ w ∈ ws, P w) :
    NatsBefore (vs.flatMap f) (ws.flatMap f) ↔ NatsBefore vs ws := by
  have one : ∀ (vs ws : List Nat), (∀ v ∈ vs, P v) → (∀ w ∈ ws, P w) → NatsBefore vs ws →
      NatsBefore (vs.flatMap f) (ws.flatMap f) := by
    rintro _ _ hv hw (⟨t, ht, rfl⟩ | ⟨p, x, y, s, t, rfl, rfl, hl⟩)
    · refine .inl ⟨t.flatMap f, ?_, by rw [List.flatMap_append]⟩
      cases t with
      | nil => exact absurd rfl ht
      | cons x t =>
        intro e
        rw [List.flatMap_cons] at e
        exact hne x (hw x (by simp)) (List.append_eq_nil_iff.1 e).1
    · rw [List.flatMap_append, List.flatMap_append, List.flatMap_cons, List.flatMap_cons]
      exact .inr (((hf x y (hv x (by simp)) (hw y (by simp)) hl).append _ _).prefix _)
  refine ⟨fun h => ?_, one vs ws hv hw⟩
  rcases natsBefore_total vs ws with h' | rfl | h'
  · exact h'
  · exact absurd h (natsBefore_irrefl _)
  · exact absurd (one ws vs hw hv h') (natsBefore_asymm h)

/-! ## UTF-8 -/

theorem utf8Values_firstLess {v w : Nat} (hw : w ≤ 0x7FFFFFFF) (h : v < w) :
    FirstLess (utf8Values v) (utf8Values w) := by
  unfold utf8Values
  by_cases v1 : v < 0x80
  · rw [if_pos v1]
    by_cases w1 : w < 0x80
    · rw [if_pos w1]; exact .head h
    rw [if_neg w1]
    by_cases w2 : w < 0x800
    · rw [if_pos w2]; exact .head (by omega)
    rw [if_neg w2]
    by_cases w3 : w < 0x10000
    · rw [if_pos w3]; exact .head (by omega)
    rw [if_neg w3]
    by_cases w4 : w < 0x200000
    · rw [if_pos w4]; exact .head (by omega)
    rw [if_neg w4]
    by_cases w5 : w < 0x4000000
    · rw [if_pos w5]; exact .head (by omega)
    rw [if_neg w5]; exact .head (by omega)
  rw [if_neg v1, if_neg (show ¬ w < 0x80 by omega)]
  by_cases v2 : v < 0x800
  · rw [if_pos v2]
    by_cases w2 : w < 0x800
    · rw [if_pos w2]
      exact .step (by omega) fun e1 => .head (by omega)
    rw [if_neg w2]
    by_cases w3 : w < 0x10000
    · rw [if_pos w3]; exact .head (by omega)
    rw [if_neg w3]
    by_cases w4 : w < 0x200000
    · rw [if_pos w4]; exact .head (by omega)
    rw [if_neg w4]
    by_cases w5 : w < 0x4000000
    · rw [if_pos w5]; exact .head (by omega)
    rw [if_neg w5]; exact .head (by omega)
  rw [if_neg v2, if_neg (show ¬ w < 0x800 by omega)]
  by_cases v3 : v < 0x10000
  · rw [if_pos v3]
    by_cases w3 : w < 0x10000
    · rw [if_pos w3]
      exact .step (by omega) fun e1 => .step (by omega) fun e2 => .head (by omega)
    rw [if_neg w3]
    by_cases w4 : w < 0x200000
    · rw [if_pos w4]; exact .head (by omega)
    rw [if_neg w4]
    by_cases w5 : w < 0x4000000
    · rw [if_pos w5]; exact .head (by omega)
    rw [if_neg w5]; exact .head (by omega)
  rw [if_neg v3, if_neg (show ¬ w < 0x10000 by omega)]
  by_cases v4 : v < 0x200000
  · rw [if_pos v4]
    by_cases w4 : w < 0x200000
    · rw [if_pos w4]
      exact .step (by omega) fun e1 => .step (by omega) fun e2 => .step (by omega) fun e3 =>
        .head (by omega)
    rw [if_neg w4]
    by_cases w5 : w < 0x4000000
    · rw [if_pos w5]; exact .head (by omega)
    rw [if_neg w5]; exact .head (by omega)
  rw [if_neg v4, if_neg (show ¬ w < 0x200000 by omega)]
  by_cases v5 : v < 0x4000000
  · rw [if_pos v5]
    by_cases w5 : w < 0x4000000
    · rw [if_pos w5]
      exact .step (by omega) fun e1 => .step (by omega) fun e2 => .step (by omega) fun e3 =>
        .step (by omega) fun e4 => .head (by omega)
    rw [if_neg w5]; exact .head (by omega)
  rw [if_neg v5, if_neg (show ¬ w < 0x4000000 by omega)]
  exact .step (by omega) fun e1 => .step (by omega) fun e2 => .step (by omega) fun e3 =>
    .step (by omega) fun e4 => .step (by omega) fun e5 => .head (by omega)

theorem utf8Values_byte {v : Nat} (h : v ≤ 0x7FFFFFFF) : ∀ b ∈ utf8Values v, b < 256 := by
  unfold utf8Values
  intro b
  repeat' split
  all_goals
    simp only [List.mem_cons, List.not_mem_nil, or_false]
    omega

theorem vals_utf8 {v : Nat} (h : v ≤ 0x7FFFFFFF) : vals (Spec.utf8 v) = utf8Values v := by
  unfold vals Spec.utf8
  rw [List.map_map]
  refine (List.map_congr_left fun b hb => ?_).trans (List.map_id _)
  exact toNat_byte (utf8Values_byte h b hb)

theorem vals_utf8Of {vs : List Nat} (h : ∀ v ∈ vs, v ≤ 0x7FFFFFFF) :
    vals (utf8Of vs) = vs.flatMap utf8Values := by
  induction vs with
  | nil => rfl
  | cons v vs ih =>
    rw [List.forall_mem_cons] at h
    have := ih h.2
    unfold utf8Of vals at this ⊢
    rw [List.flatMap_cons, List.map_append, this, List.flatMap_cons]
    exact congrArg (· ++ _) (vals_utf8 h.1)

theorem utf8Of_before {vs ws : List Nat} (hv : ∀ v ∈ vs, v ≤ 0x7FFFFFFF)
    (hw : ∀ w ∈ ws, w ≤ 0x7FFFFFFF) : Before (utf8Of vs) (utf8Of ws) ↔ NatsBefore vs ws := by
  show NatsBefore (vals _) (vals _) ↔ _
  rw [vals_utf8Of hv, vals_utf8Of hw]
  refine natsBefore_flatMap (P := (· ≤ 0x7FFFFFFF)) ?_ (fun v w _ h2 h => utf8Values_firstLess h2 h)
    hv hw
  intro v _ e
  obtain ⟨b, cs, h⟩ := utf8Values_cons v
  rw [h] at e
  cases e

/-! ## UTF-16 -/

/-- The values of the units of `Spec.utf16 v`. -/
theorem vals_utf16 {v : Nat} (h : v ≤ 0x10FFFF) : vals (Spec.utf16 v) =
    if v < 0x10000 then [v] else [0xD800 + (v - 0x10000) / 0x400, 0xDC00 + (v - 0x10000) % 0x400] := by
  unfold Spec.utf16 vals
  by_cases e : v < 0x10000
  · rw [if_pos e, if_pos e, List.map_cons, List.map_nil, BitVec.toNat_ofNat, Nat.mod_eq_of_lt (by omega)]
  · rw [if_neg e, if_neg e, List.map_cons, List.map_cons, List.map_nil, BitVec.toNat_ofNat,
      BitVec.toNat_ofNat, Nat.mod_eq_of_lt (by omega), Nat.mod_eq_of_lt (by omega)]

theorem vals_utf16Of {vs : List Nat} :
    vals (utf16Of vs) = vs.flatMap fun v => vals (Spec.utf16 v) := by
  induction vs with
  | nil => rfl
  | cons v vs ih =>
    unfold utf16Of vals at ih ⊢
    rw [List.flatMap_cons, List.map_append, ih, List.flatMap_cons]

/-- The order is kept among characters of a set which does not contain both characters above the
surrogates and characters beyond the BMP. -/
theorem utf16Of_before {P : Nat → Prop} (hP : ∀ v, P v → v ≤ 0x10FFFF)
    (hsep : ∀ v w, P v → P w → 0xD800 ≤ v → v ≤ 0xFFFF → w ≤ 0xFFFF) {vs ws : List Nat}
    (hv : ∀ v ∈ vs, P v) (hw : ∀ w ∈ ws, P w) :
    Before (utf16Of vs) (utf16Of ws) ↔ NatsBefore vs ws := by
  show NatsBefore (vals _) (vals _) ↔ _
  rw [vals_utf16Of, vals_utf16Of]
  refine natsBefore_flatMap (P := P) ?_ ?_ hv hw
  · intro v h e
    rw [vals_utf16 (hP v h)] at e
    by_cases c : v < 0x10000
    · rw [if_pos c] at e; cases e
    · rw [if_neg c] at e; cases e
  · intro v w h1 h2 h
    have b1 := hP v h1
    have b2 := hP w h2
    rw [vals_utf16 b1, vals_utf16 b2]
    by_cases c : v < 0x10000
    · rw [if_pos c]
      by_cases d : w < 0x10000
      · rw [if_pos d]; exact .head h
      · rw [if_neg d]
        have := hsep v w h1 h2
        exact .head (by omega)
    · rw [if_neg c, if_neg (by omega)]
      exact .step (by omega) fun e => .head (by omega)

/-! ## UCS-2 and UCS-4 -/

theorem ucs4Of_before {vs ws : List Nat} (hv : ∀ v ∈ vs, Encodable v) (hw : ∀ v ∈ ws, Encodable v) :
    Before (Spec.ucs4Of vs) (Spec.ucs4Of ws) ↔ NatsBefore vs ws := by
  show NatsBefore (vals _) (vals _) ↔ _
  rw [vals_ucs4Of hv, vals_ucs4Of hw]

theorem ucs2Of_before {vs ws : List Nat} (hv : ∀ v ∈ vs, Spec.Bmp v) (hw : ∀ v ∈ ws, Spec.Bmp v) :
    Before (Spec.ucs2Of vs) (Spec.ucs2Of ws) ↔ NatsBefore vs ws := by
  show NatsBefore (vals _) (vals _) ↔ _
  rw [vals_ucs2Of hv, vals_ucs2Of hw]

end Ansak
