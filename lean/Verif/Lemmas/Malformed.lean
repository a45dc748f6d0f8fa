import Verif.Lemmas.Text

/-!
# Every byte string starts with a character, is truncated, or is malformed
-/

namespace Ansak

open Spec (NulFree Utf8Char Utf8Text Utf8Reads Encodable Surrogate HighSurrogate LowSurrogate IsCont announced
  Truncated Malformed)

/-- The continuation bytes at the start, up to a number of them. -/
theorem conts_split (n : Nat) (r : List Byte) :
    (∃ cs s, r = cs ++ s ∧ (∀ c ∈ cs, IsCont c) ∧ cs.length = n) ∨
    ((∀ c ∈ r, IsCont c) ∧ r.length < n) ∨
    (∃ cs c s, r = cs ++ c :: s ∧ (∀ c ∈ cs, IsCont c) ∧ cs.length < n ∧ ¬ IsCont c) := by
  induction n generalizing r with
  | zero => exact .inl ⟨[], r, rfl, conts_nil, rfl⟩
  | succ n ih =>
    cases r with
    | nil => exact .inr (.inl ⟨conts_nil, Nat.succ_pos n⟩)
    | cons a r =>
      by_cases ha : IsCont a
      · rcases ih r with ⟨cs, s, rfl, h1, h2⟩ | ⟨h1, h2⟩ | ⟨cs, c, s, rfl, h1, h2, h3⟩
        · exact .inl ⟨a :: cs, s, rfl, List.forall_mem_cons.2 ⟨ha, h1⟩, by rw [List.length_cons, h2]⟩
        · exact .inr (.inl ⟨List.forall_mem_cons.2 ⟨ha, h1⟩, by rw [List.length_cons]; omega⟩)
        · exact .inr (.inr ⟨a :: cs, c, s, rfl, List.forall_mem_cons.2 ⟨ha, h1⟩,
            by rw [List.length_cons]; omega, h3⟩)
      · exact .inr (.inr ⟨[], a, r, rfl, conts_nil, Nat.succ_pos n, ha⟩)

theorem starts_plain {v : Nat} {bs : List Byte} (h : Spec.utf8 v = bs) (hv : Encodable v) (rest : List Byte) :
    StartsChar (bs ++ rest) := ⟨bs, v, rest, rfl, h ▸ .plain hv⟩

section
variable {b c1 c2 c3 c4 c5 : Byte}

theorem utf8_of_two (hb : 0xC2 ≤ b.toNat) (hb2 : b.toNat ≤ 0xDF) (h1 : IsCont c1) :
    ∃ v, Spec.utf8 v = [b, c1] ∧ Encodable v := by
  unfold IsCont at h1
  refine ⟨(b.toNat - 0xC0) * 0x40 + (c1.toNat - 0x80), ?_, ?_⟩
  · unfold Spec.utf8 Spec.utf8Values
    rw [if_neg (by omega), if_pos (by omega)]
    simp only [List.map_cons, List.map_nil]
    rw [byte_eq (b := b) (by omega), byte_eq (b := c1) (by omega)]
  · unfold Encodable Surrogate; omega

theorem utf8_of_three (hb : 0xE0 ≤ b.toNat) (hb2 : b.toNat ≤ 0xEF) (h1 : IsCont c1) (h2 : IsCont c2)
    (ho : ¬ (b.toNat = 0xE0 ∧ c1.toNat < 0xA0)) :
    ∃ v, Spec.utf8 v = [b, c1, c2] ∧ 0x800 ≤ v ∧ v < 0x10000 ∧
      (HighSurrogate v ↔ b.toNat = 0xED ∧ 0xA0 ≤ c1.toNat ∧ c1.toNat ≤ 0xAF) ∧
      (LowSurrogate v ↔ b.toNat = 0xED ∧ 0xB0 ≤ c1.toNat) := by
  unfold IsCont at h1 h2
  refine ⟨(b.toNat - 0xE0) * 0x1000 + (c1.toNat - 0x80) * 0x40 + (c2.toNat - 0x80), ?_, ?_, ?_, ?_, ?_⟩
  · rw [utf8_three (by omega) (by omega), byte_eq (b := b) (by omega), byte_eq (b := c1) (by omega),
      byte_eq (b := c2) (by omega)]
  · omega
  · omega
  · unfold HighSurrogate; omega
  · unfold LowSurrogate; omega

theorem utf8_of_four (hb : 0xF0 ≤ b.toNat) (hb2 : b.toNat ≤ 0xF7) (h1 : IsCont c1) (h2 : IsCont c2)
    (h3 : IsCont c3) (ho : ¬ (b.toNat = 0xF0 ∧ c1.toNat < 0x90)) :
    ∃ v, Spec.utf8 v = [b, c1, c2, c3] ∧ Encodable v := by
  unfold IsCont at h1 h2 h3
  refine ⟨(b.toNat - 0xF0) * 0x40000 + (c1.toNat - 0x80) * 0x1000 + (c2.toNat - 0x80) * 0x40 +
    (c3.toNat - 0x80), ?_, ?_⟩
  · unfold Spec.utf8 Spec.utf8Values
    rw [if_neg (by omega), if_neg (by omega), if_neg (by omega), if_pos (by omega)]
    simp only [List.map_cons, List.map_nil]
    rw [byte_eq (b := b) (by omega), byte_eq (b := c1) (by omega), byte_eq (b := c2) (by omega),
      byte_eq (b := c3) (by omega)]
  · unfold Encodable Surrogate; omega

theorem utf8_of_five (hb : 0xF8 ≤ b.toNat) (hb2 : b.toNat ≤ 0xFB) (h1 : IsCont c1) (h2 : IsCont c2)
    (h3 : IsCont c3) (h4 : IsCont c4) (ho : ¬ (b.toNat = 0xF8 ∧ c1.toNat < 0x88)) :
    ∃ v, Spec.utf8 v = [b, c1, c2, c3, c4] ∧ Encodable v := by
  unfold IsCont at h1 h2 h3 h4
  refine ⟨(b.toNat - 0xF8) * 0x1000000 + (c1.toNat - 0x80) * 0x40000 + (c2.toNat - 0x80) * 0x1000 +
    (c3.toNat - 0x80) * 0x40 + (c4.toNat - 0x80), ?_, ?_⟩
  · unfold Spec.utf8 Spec.utf8Values
    rw [if_neg (by omega), if_neg (by omega), if_neg (by omega), if_neg (by omega), if_pos (by omega)]
    simp only [List.map_cons, List.map_nil]
    rw [byte_eq (b := b) (by omega), byte_eq (b := c1) (by omega), byte_eq (b := c2) (by omega),
      byte_eq (b := c3) (by omega), byte_eq (b := c4) (by omega)]
  · unfold Encodable Surrogate; omega

theorem utf8_of_six (hb : 0xFC ≤ b.toNat) (hb2 : b.toNat ≤ 0xFD) (h1 : IsCont c1) (h2 : IsCont c2)
    (h3 : IsCont c3) (h4 : IsCont c4) (h5 : IsCont c5) (ho : ¬ (b.toNat = 0xFC ∧ c1.toNat < 0x84)) :
    ∃ v, Spec.utf8 v = [b, c1, c2, c3, c4, c5] ∧ Encodable v := by
  unfold IsCont at h1 h2 h3 h4 h5
  refine ⟨(b.toNat - 0xFC) * 0x40000000 + (c1.toNat - 0x80) * 0x1000000 + (c2.toNat - 0x80) * 0x40000 +
    (c3.toNat - 0x80) * 0x1000 + (c4.toNat - 0x80) * 0x40 + (c5.toNat - 0x80), ?_, ?_⟩
  · unfold Spec.utf8 Spec.utf8Values
    rw [if_neg (by omega), if_neg (by omega), if_neg (by omega), if_neg (by omega), if_neg (by omega)]
    simp only [List.map_cons, List.map_nil]
    rw [byte_eq (b := b) (by omega), byte_eq (b := c1) (by omega), byte_eq (b := c2) (by omega),
      byte_eq (b := c3) (by omega), byte_eq (b := c4) (by omega), byte_eq (b := c5) (by omega)]
  · unfold Encodable Surrogate; omega

end

theorem list_one {α : Type} {l : List α} (h : l.length = 1) : ∃ a, l = [a] := by
  match l, h with
  | [a], _ => exact ⟨a, rfl⟩

theorem list_two {α : Type} {l : List α} (h : l.length = 2) : ∃ a b, l = [a, b] := by
  match l, h with
  | [a, b], _ => exact ⟨a, b, rfl⟩

theorem list_three {α : Type} {l : List α} (h : l.length = 3) : ∃ a b c, l = [a, b, c] := by
  match l, h with
  | [a, b, c], _ => exact ⟨a, b, c, rfl⟩

theorem list_four {α : Type} {l : List α} (h : l.length = 4) : ∃ a b c d, l = [a, b, c, d] := by
  match l, h with
  | [a, b, c, d], _ => exact ⟨a, b, c, d, rfl⟩

theorem list_five {α : Type} {l : List α} (h : l.length = 5) : ∃ a b c d e, l = [a, b, c, d, e] := by
  match l, h with
  | [a, b, c, d, e], _ => exact ⟨a, b, c, d, e, rfl⟩

/-- After a high surrogate in 3-byte form. -/
theorem classify_high {b c1 c2 : Byte} (hb : b.toNat = 0xED) (h1 : 0xA0 ≤ c1.toNat) (h1' : c1.toNat ≤ 0xAF)
    (h2 : IsCont c2) (s : List Byte) :
    StartsChar (b :: c1 :: c2 :: s) ∨ Truncated (b :: c1 :: c2 :: s) ∨ Malformed (b :: c1 :: c2 :: s) := by
  have hc1 : IsCont c1 := ⟨by omega, by omega⟩
  cases s with
  | nil => exact .inr (.inl (.half0 hb h1 h1' h2))
  | cons d s =>
    by_cases hd : 0xE0 ≤ d.toNat ∧ d.toNat ≤ 0xEF
    · rcases conts_split 2 s with ⟨cs, r, rfl, hcs, hl⟩ | ⟨hcs, hl⟩ | ⟨cs, c, r, rfl, hcs, hl, hc⟩
      · obtain ⟨e1, e2, rfl⟩ := list_two hl
        have he1 := hcs e1 (by simp)
        have he2 := hcs e2 (by simp)
        by_cases hlow : d.toNat = 0xED ∧ 0xB0 ≤ e1.toNat
        · obtain ⟨hi, ehi, _, _, hhi, _⟩ := utf8_of_three (b := b) (c1 := c1) (c2 := c2) (by omega) (by omega)
            hc1 h2 (by omega)
          obtain ⟨lo, elo, _, _, _, hlo⟩ := utf8_of_three (b := d) (c1 := e1) (c2 := e2) (by omega) (by omega)
            he1 he2 (by omega)
          refine .inl ⟨Spec.utf8 hi ++ Spec.utf8 lo, _, r, ?_, .pair (hhi.2 ⟨hb, h1, h1'⟩) (hlo.2 hlow)⟩
          rw [ehi, elo]
          rfl
        · exact .inr (.inr (.highOther hb h1 h1' h2 he1 he2 hlow))
      · cases s with
        | nil => exact .inr (.inl (.half1 hb h1 h1' h2 hd.1 hd.2))
        | cons e s =>
          cases s with
          | nil => exact .inr (.inl (.half2 hb h1 h1' h2 hd.1 hd.2 (hcs e (by simp))))
          | cons f s => simp only [List.length_cons] at hl; omega
      · exact .inr (.inr (.highBroken hb h1 h1' h2 hd.1 hd.2 hcs hl hc))
    · exact .inr (.inr (.loneHigh hb h1 h1' h2 hd))

/-- A first byte with all the continuation bytes it announces. -/
theorem classify_complete {b : Byte} {cs : List Byte} (hb : 0xC0 ≤ b.toNat) (hb2 : b.toNat ≤ 0xFD)
    (hcs : ∀ c ∈ cs, IsCont c) (hl : cs.length + 1 = announced b) (s : List Byte) :
    StartsChar (b :: cs ++ s) ∨ Truncated (b :: cs ++ s) ∨ Malformed (b :: cs ++ s) := by
  by_cases h2 : b.toNat ≤ 0xDF
  · rw [announced_two (by omega) h2] at hl
    obtain ⟨c1, rfl⟩ := list_one (by omega : cs.length = 1)
    by_cases ho : 0xC2 ≤ b.toNat
    · obtain ⟨v, e, hv⟩ := utf8_of_two ho h2 (hcs c1 (by simp))
      exact .inl (starts_plain e hv s)
    · refine .inr (.inr (.overlong (c := c1) (cs := []) hcs ?_ (by omega)))
      rw [announced_two (by omega) h2]; rfl
  by_cases h3 : b.toNat ≤ 0xEF
  · rw [announced_three (by omega) h3] at hl
    obtain ⟨c1, c2, rfl⟩ := list_two (by omega : cs.length = 2)
    by_cases ho : b.toNat = 0xE0 ∧ c1.toNat < 0xA0
    · refine .inr (.inr (.overlong (c := c1) (cs := [c2]) hcs ?_ (by omega)))
      rw [announced_three (by omega) h3]; rfl
    · have hc1 := hcs c1 (by simp)
      have hc2 := hcs c2 (by simp)
      by_cases hhigh : b.toNat = 0xED ∧ 0xA0 ≤ c1.toNat ∧ c1.toNat ≤ 0xAF
      · exact classify_high hhigh.1 hhigh.2.1 hhigh.2.2 hc2 s
      by_cases hlow : b.toNat = 0xED ∧ 0xB0 ≤ c1.toNat
      · exact .inr (.inr (.loneLow hlow.1 hlow.2 hc1.2 hc2))
      obtain ⟨v, e, v1, v2, hh, hl⟩ := utf8_of_three (by omega) h3 hc1 hc2 ho
      refine .inl (starts_plain e ⟨by omega, by omega, fun hs => ?_⟩ s)
      rcases (surrogate_iff v).1 hs with h | h
      · exact hhigh (hh.1 h)
      · exact hlow (hl.1 h)
  by_cases h4 : b.toNat ≤ 0xF7
  · rw [announced_four (by omega) h4] at hl
    obtain ⟨c1, c2, c3, rfl⟩ := list_three (by omega : cs.length = 3)
    by_cases ho : b.toNat = 0xF0 ∧ c1.toNat < 0x90
    · refine .inr (.inr (.overlong (c := c1) (cs := [c2, c3]) hcs ?_ (by omega)))
      rw [announced_four (by omega) h4]; rfl
    · obtain ⟨v, e, hv⟩ := utf8_of_four (by omega) h4 (hcs c1 (by simp)) (hcs c2 (by simp))
        (hcs c3 (by simp)) ho
      exact .inl (starts_plain e hv s)
  by_cases h5 : b.toNat ≤ 0xFB
  · rw [announced_five (by omega) h5] at hl
    obtain ⟨c1, c2, c3, c4, rfl⟩ := list_four (by omega : cs.length = 4)
    by_cases ho : b.toNat = 0xF8 ∧ c1.toNat < 0x88
    · refine .inr (.inr (.overlong (c := c1) (cs := [c2, c3, c4]) hcs ?_ (by omega)))
      rw [announced_five (by omega) h5]; rfl
    · obtain ⟨v, e, hv⟩ := utf8_of_five (by omega) h5 (hcs c1 (by simp)) (hcs c2 (by simp))
        (hcs c3 (by simp)) (hcs c4 (by simp)) ho
      exact .inl (starts_plain e hv s)
  rw [announced_six (by omega) hb2] at hl
  obtain ⟨c1, c2, c3, c4, c5, rfl⟩ := list_five (by omega : cs.length = 5)
  by_cases ho : b.toNat = 0xFC ∧ c1.toNat < 0x84
  · refine .inr (.inr (.overlong (c := c1) (cs := [c2, c3, c4, c5]) hcs ?_ (by omega)))
    rw [announced_six (by omega) hb2]; rfl
  · obtain ⟨v, e, hv⟩ := utf8_of_six (by omega) hb2 (hcs c1 (by simp)) (hcs c2 (by simp))
      (hcs c3 (by simp)) (hcs c4 (by simp)) (hcs c5 (by simp)) ho
    exact .inl (starts_plain e hv s)

theorem classify {t : List Byte} (hn : NulFree t) (hne : t ≠ []) :
    StartsChar t ∨ Truncated t ∨ Malformed t := by
  cases t with
  | nil => exact absurd rfl hne
  | cons b r =>
    have hb0 := toNat_ne_zero (NulFree.cons.1 hn).1
    by_cases h1 : b.toNat < 0x80
    · refine .inl (starts_plain (v := b.toNat) (bs := [b]) ?_ ⟨by omega, by omega, ?_⟩ r)
      · unfold Spec.utf8 Spec.utf8Values
        rw [if_pos h1]
        exact congrArg (fun x => [x]) (byte_eq rfl)
      · unfold Surrogate; omega
    by_cases h2 : b.toNat ≤ 0xBF
    · exact .inr (.inr (.stray (.inl ⟨by omega, h2⟩)))
    by_cases h3 : 0xFE ≤ b.toNat
    · exact .inr (.inr (.stray (.inr h3)))
    have ha : 2 ≤ announced b := by
      unfold announced
      rw [if_neg (by omega)]
      repeat' split
      all_goals omega
    rcases conts_split (announced b - 1) r with ⟨cs, s, rfl, hcs, hl⟩ | ⟨hcs, hl⟩ | ⟨cs, c, s, rfl, hcs, hl, hc⟩
    · exact classify_complete (by omega) (by omega) hcs (by omega) s
    · exact .inr (.inl (.short hcs (by omega)))
    · exact .inr (.inr (.broken hcs (by omega) hc))

/-- Text that is not readable is malformed somewhere, and well-formed before that. -/
theorem malformed_of_not_reads {s : List Byte} (hn : NulFree s) (h : ¬ ∃ vs t, Utf8Reads s vs t) :
    ∃ a b vs, s = a ++ b ∧ Utf8Text a vs ∧ Malformed b := by
  generalize hk : s.length = k
  induction k using Nat.strongRecOn generalizing s with
  | _ k ih =>
    by_cases hne : s = []
    · subst hne
      exact absurd ⟨[], [], [], rfl, .nil, .inl rfl⟩ h
    rcases classify hn hne with ⟨bs, v, rest, rfl, hc⟩ | ht | hm
    · have hlen : 0 < bs.length := List.length_pos_iff.2 (char_ne_nil hc)
      have hr : ¬ ∃ vs t, Utf8Reads rest vs t := by
        rintro ⟨vs, t, a, e, ha, ht⟩
        exact h ⟨v :: vs, t, bs ++ a, by rw [e, List.append_assoc], .cons hc ha, ht⟩
      obtain ⟨a, b, vs, rfl, ha, hb⟩ := ih rest.length (by rw [← hk, List.length_append]; omega)
        (NulFree.append.1 hn).2 hr rfl
      exact ⟨bs ++ a, b, v :: vs, by rw [List.append_assoc], .cons hc ha, hb⟩
    · exact absurd ⟨[], s, [], rfl, .nil, .inr ht⟩ h
    · exact ⟨[], s, [], rfl, .nil, hm⟩

end Ansak
