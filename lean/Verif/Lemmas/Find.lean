import Verif.Lemmas.Alone
import Verif.Lemmas.Text

/-!
# Encoded text inside encoded text
-/

namespace Ansak

open Spec (Utf8Char Utf8Text Scalar Surrogate HighSurrogate LowSurrogate utf8Of utf16Of IsCont Malformed)

section
variable {w : Nat} {R : List (BitVec w) → Nat → Prop}

/-- No encoding begins another, and none begins inside another. -/
structure Synchronised (R : List (BitVec w) → Nat → Prop) : Prop where
  nonempty : ∀ {bs v}, R bs v → bs ≠ []
  unique : ∀ {b1 b2 r1 r2 v1 v2}, R b1 v1 → R b2 v2 → b1 ++ r1 = b2 ++ r2 →
    b1 = b2 ∧ r1 = r2 ∧ v1 = v2
  inside : ∀ {p q r bs rest v v'}, R (p ++ q) v → p ≠ [] → q ≠ [] → R bs v' → q ++ r ≠ bs ++ rest

theorem EncText.ne_nil {m : List (BitVec w)} {ws : List Nat} (h : EncText R m ws) (hm : m ≠ []) :
    ∃ bs m' v ws', m = bs ++ m' ∧ ws = v :: ws' ∧ R bs v := by
  cases h with
  | nil => exact absurd rfl hm
  | cons hc _ => exact ⟨_, _, _, _, rfl, rfl, hc⟩

/-- Text that begins with a text continues with text. -/
theorem EncText.after (hR : Synchronised R) {m b : List (BitVec w)} {ws vs : List Nat}
    (hm : EncText R m ws) (h : EncText R (m ++ b) vs) : ∃ xs, vs = ws ++ xs ∧ EncText R b xs := by
  induction hm generalizing vs with
  | nil => exact ⟨vs, rfl, h⟩
  | @cons bs m v ws hc _ ih =>
    generalize hs : bs ++ m ++ b = s at h
    cases h with
    | nil => exact absurd (List.append_eq_nil_iff.1 (List.append_eq_nil_iff.1 hs).1).1 (hR.nonempty hc)
    | @cons bs' s' v' vs' hc' h' =>
      rw [List.append_assoc] at hs
      obtain ⟨_, rfl, rfl⟩ := hR.unique hc hc' hs
      obtain ⟨xs, rfl, hx⟩ := ih h'
      exact ⟨xs, rfl, hx⟩

/-- A non-empty text inside another text is there as characters. -/
theorem EncText.occurs (hR : Synchronised R) {s a m b : List (BitVec w)} {vs ws : List Nat}
    (h : EncText R s vs) (hm : EncText R m ws) (hne : m ≠ []) (e : s = a ++ m ++ b) :
    ∃ us xs, EncText R a us ∧ EncText R b xs ∧ vs = us ++ ws ++ xs := by
  induction h generalizing a with
  | nil =>
    have := (List.append_eq_nil_iff.1 (List.append_eq_nil_iff.1 e.symm).1).2
    exact absurd this hne
  | @cons bs s v vs hc hs ih =>
    cases a with
    | nil =>
      have : EncText R (m ++ b) (v :: vs) := by
        have := EncText.cons hc hs
        rw [e, List.nil_append] at this
        exact this
      obtain ⟨xs, hx, hb⟩ := EncText.after hR hm this
      exact ⟨[], xs, .nil, hb, by rw [hx]; rfl⟩
    | cons x a =>
      rw [List.append_assoc] at e
      rcases List.append_eq_append_iff.1 e with ⟨a', h1, h2⟩ | ⟨c', h1, h2⟩
      · rw [← List.append_assoc] at h2
        obtain ⟨us, xs, hu, hx, hv⟩ := ih h2
        rw [h1]
        exact ⟨v :: us, xs, .cons hc hu, hx, by rw [hv]; rfl⟩
      · by_cases hc' : c' = []
        · subst hc'
          rw [List.append_nil] at h1
          rw [List.nil_append] at h2
          obtain ⟨us, xs, hu, hx, hv⟩ := ih (a := []) h2.symm
          have := EncText.cons hc hu
          rw [List.append_nil, h1] at this
          exact ⟨v :: us, xs, this, hx, by rw [hv]; rfl⟩
        · obtain ⟨b0, m', v0, ws', rfl, _, hc0⟩ := hm.ne_nil hne
          rw [h1] at hc
          rw [List.append_assoc] at h2
          exact absurd h2.symm (hR.inside hc (by simp) hc' hc0)

theorem Synchronised.mono {R' : List (BitVec w) → Nat → Prop} (hR : Synchronised R)
    (h : ∀ {bs v}, R' bs v → R bs v) : Synchronised R' where
  nonempty h1 := hR.nonempty (h h1)
  unique h1 h2 := hR.unique (h h1) (h h2)
  inside h1 hp hq h2 := hR.inside (h h1) hp hq (h h2)

end

/-! ## UTF-8 -/

/-- The shortest form of a character. -/
def Plain8 (bs : List Byte) (v : Nat) : Prop := Spec.Encodable v ∧ bs = Spec.utf8 v

theorem encText_plain8 {s : List Byte} {vs : List Nat} :
    EncText Plain8 s vs ↔ s = utf8Of vs ∧ ∀ v ∈ vs, Spec.Encodable v := by
  constructor
  · intro h
    induction h with
    | nil => exact ⟨rfl, fun _ h => nomatch h⟩
    | @cons bs s v vs hc _ ih =>
      obtain ⟨h1, rfl⟩ := hc
      obtain ⟨rfl, h2⟩ := ih
      refine ⟨rfl, ?_⟩
      rw [List.forall_mem_cons]
      exact ⟨h1, h2⟩
  · rintro ⟨rfl, h⟩
    induction vs with
    | nil => exact .nil
    | cons v vs ih =>
      rw [List.forall_mem_cons] at h
      exact .cons ⟨h.1, rfl⟩ (ih h.2)

theorem cont_malformed {c : Byte} (h : IsCont c) (s : List Byte) : Malformed (c :: s) := .stray (.inl h)

theorem prefix_cons {p q cs : List Byte} {b : Byte} (h : p ++ q = b :: cs) (hp : p ≠ []) (hq : q ≠ []) :
    ∃ c q', q = c :: q' ∧ c ∈ cs := by
  cases p with
  | nil => exact absurd rfl hp
  | cons x p =>
    cases q with
    | nil => exact absurd rfl hq
    | cons c q' =>
      refine ⟨c, q', rfl, ?_⟩
      rw [← (List.cons.inj h).2]
      exact List.mem_append.2 (.inr List.mem_cons_self)

/-- What is left when a character is cut is malformed. -/
theorem char_inside {p q : List Byte} {v : Nat} (h : Utf8Char (p ++ q) v) (hp : p ≠ []) (hq : q ≠ [])
    (r : List Byte) : Malformed (q ++ r) := by
  generalize hs : p ++ q = s at h
  have mid : ∀ (p q : List Byte) (v : Nat), 0x80 ≤ v → v ≤ 0x7FFFFFFF → p ++ q = Spec.utf8 v → p ≠ [] →
      q ≠ [] → ∀ r, Malformed (q ++ r) := by
    intro p q v h1 h2 hs hp hq r
    obtain ⟨b, cs, e, hcs, _⟩ := utf8_shape h1 h2
    rw [e] at hs
    obtain ⟨c, q', rfl, hc⟩ := prefix_cons hs hp hq
    exact cont_malformed (hcs c hc) _
  cases h with
  | plain hv =>
    by_cases h : v < 0x80
    · rw [alone_low h] at hs
      obtain ⟨c, _, _, hc⟩ := prefix_cons hs hp hq
      cases hc
    · exact mid p q v (by omega) hv.2.1 hs hp hq r
  | @pair hi lo hh hl =>
    unfold HighSurrogate at hh
    unfold LowSurrogate at hl
    rcases List.append_eq_append_iff.1 hs with ⟨a', h1, h2⟩ | ⟨c', h1, h2⟩
    · by_cases ha : a' = []
      · subst ha
        rw [List.nil_append] at h2
        rw [h2, utf8_three (v := lo) (by omega) (by omega)]
        refine .loneLow ?_ ?_ ?_ ?_
        · rw [toNat_byte (by omega)]; omega
        · rw [toNat_byte (by omega)]; omega
        · rw [toNat_byte (by omega)]; omega
        · unfold IsCont; rw [toNat_byte (by omega)]; omega
      · rw [h2, List.append_assoc]
        exact mid p a' hi (by omega) (by omega) h1.symm hp ha _
    · by_cases hc : c' = []
      · subst hc
        rw [List.nil_append] at h2
        rw [← h2, utf8_three (v := lo) (by omega) (by omega)]
        refine .loneLow ?_ ?_ ?_ ?_
        · rw [toNat_byte (by omega)]; omega
        · rw [toNat_byte (by omega)]; omega
        · rw [toNat_byte (by omega)]; omega
        · unfold IsCont; rw [toNat_byte (by omega)]; omega
      · exact mid c' q lo (by omega) (by omega) h2.symm hc hq r

theorem utf8_synchronised : Synchronised Utf8Char where
  nonempty := char_ne_nil
  unique := char_unique
  inside h hp hq hc := malformed_not_char (char_inside h hp hq _) hc

theorem plain8_synchronised : Synchronised Plain8 :=
  utf8_synchronised.mono (by rintro bs v ⟨hv, rfl⟩; exact .plain hv)

/-- Where the shortest form of a text occurs in that of another. -/
theorem utf8Of_occurs {vs ws : List Nat} (hv : ∀ v ∈ vs, Spec.Encodable v)
    (hw : ∀ v ∈ ws, Spec.Encodable v) (hne : ws ≠ []) {a : List Byte} :
    (∃ b, utf8Of vs = a ++ utf8Of ws ++ b) ↔ ∃ us xs, vs = us ++ ws ++ xs ∧ a = utf8Of us := by
  constructor
  · rintro ⟨b, e⟩
    have tne : utf8Of ws ≠ [] := fun e => hne ((text_eq_nil_iff (text_utf8Of hw)).1 e)
    obtain ⟨us, xs, hu, _, h⟩ := EncText.occurs plain8_synchronised (encText_plain8.2 ⟨rfl, hv⟩)
      (encText_plain8.2 ⟨rfl, hw⟩) tne e
    exact ⟨us, xs, h, (encText_plain8.1 hu).1⟩
  · rintro ⟨us, xs, rfl, rfl⟩
    exact ⟨utf8Of xs, by simp [utf8Of]⟩

/-! ## UTF-16 -/

theorem utf16_small {v : Nat} (h : v < 0x10000) : Spec.utf16 v = [BitVec.ofNat 16 v] := by
  unfold Spec.utf16; rw [if_pos h]

theorem utf16_large {v : Nat} (h : 0x10000 ≤ v) (h2 : v ≤ 0x10FFFF) : ∃ a b : U16, Spec.utf16 v = [a, b] ∧
    a.toNat = 0xD800 + (v - 0x10000) / 0x400 ∧ b.toNat = 0xDC00 + (v - 0x10000) % 0x400 := by
  unfold Spec.utf16; rw [if_neg (by omega)]
  exact ⟨_, _, rfl, toNat_u16 (by omega), toNat_u16 (by omega)⟩

theorem utf16_synchronised : Synchronised Utf16Char where
  nonempty := by
    rintro bs v ⟨hv, rfl⟩ e
    by_cases h : v < 0x10000
    · rw [utf16_small h] at e; cases e
    · obtain ⟨a, b, e', _⟩ := utf16_large (v := v) (by omega) hv.2.1
      rw [e'] at e; cases e
  unique := by
    rintro b1 b2 r1 r2 v1 v2 ⟨hv1, rfl⟩ ⟨hv2, rfl⟩ e
    have n1 := hv1.2.2
    have n2 := hv2.2.2
    unfold Surrogate at n1 n2
    have u1 := hv1.2.1
    have u2 := hv2.2.1
    by_cases h1 : v1 < 0x10000
    · by_cases h2 : v2 < 0x10000
      · rw [utf16_small h1, utf16_small h2] at e
        obtain ⟨e1, e2⟩ := List.cons.inj e
        have e1 := congrArg BitVec.toNat e1
        rw [toNat_u16 h1, toNat_u16 h2] at e1
        subst e1
        exact ⟨rfl, e2, rfl⟩
      · obtain ⟨a, b, e', ha, _⟩ := utf16_large (v := v2) (by omega) u2
        rw [utf16_small h1, e'] at e
        have e1 := congrArg BitVec.toNat (List.cons.inj e).1
        rw [toNat_u16 h1, ha] at e1
        omega
    · obtain ⟨a, b, e', ha, hb⟩ := utf16_large (v := v1) (by omega) u1
      by_cases h2 : v2 < 0x10000
      · rw [utf16_small h2, e'] at e
        have e1 := congrArg BitVec.toNat (List.cons.inj e).1
        rw [toNat_u16 h2, ha] at e1
        omega
      · obtain ⟨c, d, e'', hc, hd⟩ := utf16_large (v := v2) (by omega) u2
        rw [e', e''] at e
        obtain ⟨e1, e2⟩ := List.cons.inj e
        obtain ⟨e2, e3⟩ := List.cons.inj e2
        have e1 := congrArg BitVec.toNat e1
        have e2 := congrArg BitVec.toNat e2
        have : v1 = v2 := by omega
        subst this
        exact ⟨rfl, e3, rfl⟩
  inside := by
    rintro p q r bs rest v v' ⟨hv, e⟩ hp hq ⟨hv', rfl⟩ e2
    have n2 := hv'.2.2
    unfold Surrogate at n2
    have u2 := hv'.2.1
    cases p with
    | nil => exact hp rfl
    | cons x p =>
      cases q with
      | nil => exact hq rfl
      | cons c q =>
        by_cases h1 : v < 0x10000
        · rw [utf16_small h1] at e
          have := (List.append_eq_nil_iff.1 (List.cons.inj e).2).2
          cases this
        · obtain ⟨a, b, e', ha, hb⟩ := utf16_large (v := v) (by omega) hv.2.1
          rw [e'] at e
          have e := (List.cons.inj e).2
          cases p with
          | cons y p =>
            have := (List.append_eq_nil_iff.1 (List.cons.inj e).2).2
            cases this
          | nil =>
            have ec : c = b := (List.cons.inj e).1
            by_cases h2 : v' < 0x10000
            · rw [utf16_small h2] at e2
              have e1 := congrArg BitVec.toNat (List.cons.inj e2).1
              rw [toNat_u16 h2, ec, hb] at e1
              omega
            · obtain ⟨c', d, e'', hc, hd⟩ := utf16_large (v := v') (by omega) u2
              rw [e''] at e2
              have e1 := congrArg BitVec.toNat (List.cons.inj e2).1
              rw [ec, hb, hc] at e1
              omega

theorem utf16Of_occurs {vs ws : List Nat} (hv : ∀ v ∈ vs, Scalar v)
    (hw : ∀ v ∈ ws, Scalar v) (hne : ws ≠ []) {a : List U16} :
    (∃ b, utf16Of vs = a ++ utf16Of ws ++ b) ↔ ∃ us xs, vs = us ++ ws ++ xs ∧ a = utf16Of us := by
  constructor
  · rintro ⟨b, e⟩
    have tne : utf16Of ws ≠ [] := by
      intro e
      cases ws with
      | nil => exact hne rfl
      | cons v ws =>
        have := (List.append_eq_nil_iff.1 e).1
        exact utf16_synchronised.nonempty ⟨hw v List.mem_cons_self, rfl⟩ this
    obtain ⟨us, xs, hu, _, h⟩ := EncText.occurs utf16_synchronised (encText_utf16.2 ⟨rfl, hv⟩)
      (encText_utf16.2 ⟨rfl, hw⟩) tne e
    exact ⟨us, xs, h, (encText_utf16.1 hu).1⟩
  · rintro ⟨us, xs, rfl, rfl⟩
    exact ⟨utf16Of xs, by simp [utf16Of]⟩

end Ansak
