import Verif.Lemmas.Entry

/-!
# From scans to the specification's notions of text
-/

namespace Ansak

open Spec (NulFree Utf8Char Utf8Text Encodable HighSurrogate LowSurrogate Surrogate Scalar
  Utf8Incomplete Utf16Incomplete textOf Utf8Reads Malformed)

theorem reads_done {s : List Byte} {vs : List Nat} (h : Utf8Text s vs) : Utf8Reads s vs [] :=
  ⟨s, by simp, h, .inl rfl⟩

theorem reads_cut {a t : List Byte} {vs : List Nat} (h : Utf8Text a vs) (ht : Truncated t) :
    Utf8Reads (a ++ t) vs t := ⟨a, rfl, h, .inr ht⟩

/-- The scan ends as a well-formed reading that leaves `t` does. -/
def endOf (t : List Byte) : End := if t = [] then .done else .cut t

theorem endOf_ok (t : List Byte) : (endOf t).ok = true := by
  unfold endOf; split <;> rfl

theorem scan_of_reads {s t : List Byte} {vs : List Nat} (h : Utf8Reads s vs t) :
    Scan s vs (endOf t) := by
  obtain ⟨a, rfl, ha, rfl | ht⟩ := h
  · rw [List.append_nil]; exact scan_of_text ha
  · unfold endOf; rw [if_neg (truncated_ne_nil ht)]; exact scan_of_cut ha ht

theorem reads_of_scan {s : List Byte} {vs : List Nat} {e : End} (h : Scan s vs e) :
    (∃ t, e = endOf t ∧ Utf8Reads s vs t) ∨ ∃ t, e = .bad t := by
  cases e with
  | done => exact .inl ⟨[], rfl, reads_done (scan_done_iff.1 h)⟩
  | cut t =>
    obtain ⟨a, rfl, ha, ht⟩ := scan_cut_iff.1 h
    refine .inl ⟨t, ?_, reads_cut ha ht⟩
    unfold endOf; rw [if_neg (truncated_ne_nil ht)]
  | bad t => exact .inr ⟨t, rfl⟩

theorem reads_unique {s t t' : List Byte} {vs vs' : List Nat} (h : Utf8Reads s vs t)
    (h' : Utf8Reads s vs' t') : vs = vs' ∧ t = t' := by
  obtain ⟨h1, h2⟩ := scan_unique (scan_of_reads h) (scan_of_reads h')
  refine ⟨h1, ?_⟩
  unfold endOf at h2
  split at h2 <;> split at h2 <;> simp_all

theorem bad_of_not_reads {s : List Byte} (hs : NulFree s) (h : ¬ ∃ vs t, Utf8Reads s vs t) :
    ∃ vs t, Scan s vs (.bad t) := by
  obtain ⟨vs, e, hsc⟩ := scan_exists hs
  rcases reads_of_scan hsc with ⟨t, _, hr⟩ | ⟨t, rfl⟩
  · exact absurd ⟨vs, t, hr⟩ h
  · exact ⟨vs, t, hsc⟩

theorem not_reads_of_bad {s t : List Byte} {vs : List Nat} (h : Scan s vs (.bad t)) :
    ¬ ∃ vs t, Utf8Reads s vs t := by
  rintro ⟨vs', t', hr⟩
  have := (scan_unique h (scan_of_reads hr)).2
  unfold endOf at this
  split at this <;> cases this

theorem reads_nulFree {s t : List Byte} {vs : List Nat} (h : Utf8Reads s vs t) : NulFree s := by
  obtain ⟨a, rfl, ha, rfl | ht⟩ := h
  · rw [List.append_nil]; exact text_nulFree ha
  · exact NulFree.append.2 ⟨text_nulFree ha, truncated_nulFree ht⟩

theorem reads_text {s t : List Byte} {vs : List Nat} (h : Utf8Reads s vs t) :
    ∃ a, Utf8Text a vs := by obtain ⟨a, _, ha, _⟩ := h; exact ⟨a, ha⟩

theorem reads_encodable {s t : List Byte} {vs : List Nat} (h : Utf8Reads s vs t) :
    ∀ v ∈ vs, Encodable v := by obtain ⟨a, _, ha, _⟩ := h; exact text_encodable ha

theorem lead8_iff (r : Spec.Range) (b : Nat) : Lead8 r b ↔ b ≤ r.maxLead := by
  cases r <;> simp only [Lead8, Spec.Range.maxLead] <;> omega

theorem endOk_endOf (r : Spec.Range) (t : List Byte) :
    EndOk r (endOf t) ↔ ∀ b ∈ t.head?, b.toNat ≤ r.maxLead := by
  cases t with
  | nil => simp [endOf, EndOk]
  | cons b t => simp [endOf, EndOk, lead8_iff]

/-- The values the UTF-8 validator lets pass. -/
theorem acc8_iff {r : Spec.Range} (hr : r ≠ .utf16) {v : Nat} (hv : Encodable v) :
    Acc8 r v ↔ r.Has v := by
  have h1 := hv.2.1
  have h2 := hv.2.2
  unfold Surrogate at h2
  cases r <;> simp only [Acc8, Spec.Range.Has, Surrogate, ne_eq, not_true_eq_false] at * <;> omega

theorem acc8_utf16 {v : Nat} : Acc8 .utf16 v ↔ v ≤ 0x13FFFF := by
  simp only [Acc8]; omega

/-! ## Malformed text -/

theorem char_shape {bs : List Byte} {v : Nat} (hc : Utf8Char bs v) :
    (∃ b, bs = [b] ∧ b.toNat < 0x80) ∨
    ∃ b cs more, bs = b :: cs ++ more ∧ (∀ c ∈ cs, IsCont c) ∧ cs.length + 1 = announced b := by
  cases hc with
  | plain hv =>
    by_cases h : v < 0x80
    · left
      refine ⟨BitVec.ofNat 8 v, by simp [Spec.utf8, Spec.utf8Values, h], ?_⟩
      rw [BitVec.toNat_ofNat]; omega
    · right
      obtain ⟨b, cs, h1, h2, h3⟩ := utf8_shape (v := v) (by omega) hv.2.1
      exact ⟨b, cs, [], by rw [h1]; simp, h2, h3⟩
  | @pair hi lo hh hl =>
    right
    unfold HighSurrogate at hh
    obtain ⟨b, cs, h1, h2, h3⟩ := utf8_shape (v := hi) (by omega) (by omega)
    exact ⟨b, cs, _, by rw [h1], h2, h3⟩

theorem char_lead {b : Byte} {t : List Byte} {v : Nat} (hc : Utf8Char (b :: t) v) :
    b.toNat < 0x80 ∨ (0xC0 ≤ b.toNat ∧ b.toNat ≤ 0xFD) := by
  rcases char_shape hc with ⟨b', h, hb⟩ | ⟨b', cs, more, h, _, hl⟩
  · rw [List.cons.injEq] at h; rw [h.1]; exact .inl hb
  · rw [List.cons_append, List.cons.injEq] at h
    obtain ⟨rfl, _⟩ := h
    right
    exact announced_pos (b := b) (by omega)

theorem append_cons_cases {cs cs' more s : List Byte} {c : Byte}
    (h : cs' ++ more = cs ++ c :: s) (hlen : cs.length < cs'.length) : c ∈ cs' := by
  induction cs generalizing cs' with
  | nil =>
    cases cs' with
    | nil => simp at hlen
    | cons x cs' =>
      rw [List.nil_append, List.cons_append, List.cons.injEq] at h
      simp [h.1]
  | cons y cs ih =>
    cases cs' with
    | nil => simp at hlen
    | cons x cs' =>
      rw [List.cons_append, List.cons_append, List.cons.injEq] at h
      have := ih h.2 (by simpa using hlen)
      simp [this]

/-- A malformed start is neither a character nor a truncated sequence. -/
theorem malformed_not_char {t bs rest : List Byte} {v : Nat} (h : Malformed t)
    (hc : Utf8Char bs v) : t ≠ bs ++ rest := by
  obtain ⟨b0, bs', rfl⟩ := cons_of_ne_nil (char_ne_nil hc)
  have hlead := char_lead hc
  intro he
  cases h with
  | stray hb =>
    rw [List.cons_append, List.cons.injEq] at he
    obtain ⟨rfl, _⟩ := he
    unfold IsCont at hb
    omega
  | @broken b c cs s hcs hl hnc =>
    rw [List.cons_append, List.cons_append, List.cons.injEq] at he
    obtain ⟨rfl, he⟩ := he
    rcases char_shape hc with ⟨b', e, hb⟩ | ⟨b', cs', more, e, hcs', hl'⟩
    · rw [List.cons.injEq] at e
      obtain ⟨rfl, rfl⟩ := e
      have := announced_pos (b := b) (by omega)
      omega
    · rw [List.cons_append, List.cons.injEq] at e
      obtain ⟨rfl, rfl⟩ := e
      rw [List.append_assoc] at he
      exact hnc (hcs' c (append_cons_cases he.symm (by omega)))
  | @overlong b c cs s hcs hl ho =>
    simp only [List.cons_append, List.cons.injEq] at he
    obtain ⟨rfl, he⟩ := he
    generalize hbs : b :: bs' = bs at hc
    cases hc with
    | plain hv =>
      have hd := utf8_head hbs.symm hv.2.1
      have hb : 0xC0 ≤ b.toNat := by omega
      have hv2 := hv.2.1
      by_cases h1 : v < 0x80
      · rw [if_pos h1] at hd; omega
      rw [if_neg h1] at hd
      by_cases h2 : v < 0x800
      · rw [if_pos h2] at hd; omega
      rw [if_neg h2] at hd
      have hsnd : ∀ {n0 n1 : Nat} {l : List Nat}, b :: bs' =
          List.map (BitVec.ofNat 8) (n0 :: n1 :: l) → n1 < 256 → c.toNat = n1 := by
        intro n0 n1 l e hn
        simp only [List.map_cons, List.cons.injEq] at e
        rw [e.2, List.cons_append, List.cons.injEq] at he
        rw [he.1, BitVec.toNat_ofNat]; omega
      unfold Spec.utf8 Spec.utf8Values at hbs
      rw [if_neg h1, if_neg h2] at hbs
      by_cases h3 : v < 0x10000
      · rw [if_pos h3] at hd hbs
        have := hsnd hbs (by omega)
        omega
      rw [if_neg h3] at hd hbs
      by_cases h4 : v < 0x200000
      · rw [if_pos h4] at hd hbs
        have := hsnd hbs (by omega)
        omega
      rw [if_neg h4] at hd hbs
      by_cases h5 : v < 0x4000000
      · rw [if_pos h5] at hd hbs
        have := hsnd hbs (by omega)
        omega
      rw [if_neg h5] at hd hbs
      have := hsnd hbs (by omega)
      omega
    | pair hh hl' =>
      have := pair_head hh hbs.symm
      omega
  | @loneLow b c1 c2 s hb h1 h2 h3 =>
    simp only [List.cons_append, List.cons.injEq] at he
    obtain ⟨rfl, he⟩ := he
    generalize hbs : b :: bs' = bs at hc
    cases hc with
    | plain hv =>
      have hd := utf8_head hbs.symm hv.2.1
      have hv2 := hv.2.1
      have hv3 := hv.2.2
      unfold Surrogate at hv3
      rw [hb] at hd
      by_cases h4 : v < 0x10000
      · have h5 : 0x800 ≤ v := by
          by_cases h6 : v < 0x800
          · exfalso
            by_cases h7 : v < 0x80
            · rw [if_pos h7] at hd; omega
            · rw [if_neg h7, if_pos h6] at hd; omega
          · omega
        rw [if_neg (by omega), if_neg (by omega), if_pos h4] at hd
        rw [utf8_three h5 h4, List.cons.injEq] at hbs
        rw [hbs.2] at he
        simp only [List.cons_append, List.cons.injEq] at he
        have e1 := he.1
        rw [e1, BitVec.toNat_ofNat] at h1
        omega
      · rw [if_neg (by omega), if_neg (by omega), if_neg h4] at hd
        split at hd
        · omega
        split at hd <;> omega
    | @pair hi lo hh hl' =>
      unfold HighSurrogate at hh
      rw [utf8_three (v := hi) (by omega) (by omega)] at hbs
      simp only [List.cons_append, List.cons.injEq] at hbs
      rw [hbs.2] at he
      simp only [List.cons_append, List.cons.injEq] at he
      have e1 := he.1
      rw [e1, BitVec.toNat_ofNat] at h1
      omega
  | @loneHigh b c1 c2 d s hb h1 h2 h3 h4 =>
    simp only [List.cons_append, List.cons.injEq] at he
    obtain ⟨rfl, he⟩ := he
    exact high_char_aux hb h1 h2 hc he.symm (fun hd _ _ _ => h4 hd)
  | @highOther b c1 c2 d e1 e2 s hb h1 h2 h3 h4 h5 h6 =>
    simp only [List.cons_append, List.cons.injEq] at he
    obtain ⟨rfl, he⟩ := he
    refine high_char_aux hb h1 h2 hc he.symm fun hd hd2 hd3 _ => h6 ⟨hd2, ?_⟩
    exact hd3 _ _ rfl
  | @highBroken b c1 c2 d e cs s hb h1 h2 h3 h4 h5 h6 h7 h8 =>
    simp only [List.cons_append, List.cons.injEq] at he
    obtain ⟨rfl, he⟩ := he
    exact high_char_aux hb h1 h2 hc he.symm fun _ _ _ hd4 => h8 (hd4 _ _ _ rfl h7)
where
  /-- A character starting with a high surrogate goes on with a low one. -/
  high_char_aux {b c1 c2 d : Byte} {s bs' rest : List Byte} {v : Nat} (hb : b.toNat = 0xED)
      (h1 : 0xA0 ≤ c1.toNat) (h2 : c1.toNat ≤ 0xAF) (hc : Utf8Char (b :: bs') v)
      (he : bs' ++ rest = c1 :: c2 :: d :: s)
      (h : (0xE0 ≤ d.toNat ∧ d.toNat ≤ 0xEF) → d.toNat = 0xED →
        (∀ e s', s = e :: s' → 0xB0 ≤ e.toNat) →
        (∀ cs e s', s = cs ++ e :: s' → cs.length < 2 → IsCont e) → False) : False := by
    generalize hbs : b :: bs' = bs at hc
    cases hc with
    | plain hv =>
      have hd := utf8_head hbs.symm hv.2.1
      have hv2 := hv.2.1
      have hv3 := hv.2.2
      unfold Surrogate at hv3
      rw [hb] at hd
      by_cases h4 : v < 0x10000
      · have h5 : 0x800 ≤ v := by
          by_cases h6 : v < 0x800
          · exfalso
            by_cases h7 : v < 0x80
            · rw [if_pos h7] at hd; omega
            · rw [if_neg h7, if_pos h6] at hd; omega
          · omega
        rw [if_neg (by omega), if_neg (by omega), if_pos h4] at hd
        rw [utf8_three h5 h4, List.cons.injEq] at hbs
        rw [hbs.2] at he
        simp only [List.cons_append, List.cons.injEq] at he
        have e1 := he.1
        rw [← e1, BitVec.toNat_ofNat] at h1
        omega
      · rw [if_neg (by omega), if_neg (by omega), if_neg h4] at hd
        split at hd
        · omega
        split at hd <;> omega
    | @pair hi lo hh hl' =>
      unfold HighSurrogate at hh
      unfold LowSurrogate at hl'
      rw [utf8_three (v := hi) (by omega) (by omega), utf8_three (v := lo) (by omega) (by omega)] at hbs
      simp only [List.cons_append, List.nil_append, List.cons.injEq] at hbs
      rw [hbs.2] at he
      simp only [List.cons_append, List.nil_append, List.cons.injEq] at he
      obtain ⟨_, _, e3, e4⟩ := he
      have hd : d.toNat = 0xED := by rw [← e3, BitVec.toNat_ofNat]; omega
      refine h (by omega) hd ?_ ?_
      · rintro e s' rfl
        rw [List.cons.injEq] at e4
        rw [← e4.1, BitVec.toNat_ofNat]; omega
      · rintro cs e s' rfl hl
        unfold IsCont
        rcases cs with _ | ⟨x, _ | ⟨y, cs⟩⟩
        · rw [List.nil_append, List.cons.injEq] at e4
          rw [← e4.1, BitVec.toNat_ofNat]; omega
        · rw [List.cons_append, List.nil_append, List.cons.injEq, List.cons.injEq] at e4
          rw [← e4.2.1, BitVec.toNat_ofNat]; omega
        · simp only [List.length_cons] at hl; omega

theorem malformed_not_truncated {t : List Byte} (h : Malformed t) : ¬ Truncated t := by
  intro ht
  cases h with
  | stray hb =>
    obtain ⟨b', t', e, h1, h2⟩ := truncated_cons ht
    rw [List.cons.injEq] at e
    obtain ⟨rfl, _⟩ := e
    unfold IsCont at hb
    omega
  | @broken b c cs s hcs hl hnc =>
    generalize e : b :: cs ++ c :: s = u at ht
    have aux : ∀ {b1 c1 c2 : Byte} {w : List Byte}, b :: cs ++ c :: s = b1 :: c1 :: c2 :: w →
        b1.toNat = 0xED → IsCont c1 → IsCont c2 → False := by
      intro b1 c1 c2 w e hb h1 h2
      rw [List.cons_append, List.cons.injEq] at e
      obtain ⟨rfl, e⟩ := e
      have ha : announced b = 3 := announced_three (by omega) (by omega)
      have hm : c ∈ [c1, c2] := by
        refine append_cons_cases (cs := cs) (s := s) (more := w) ?_ (by simp; omega)
        rw [e]; rfl
      simp only [List.mem_cons, List.not_mem_nil, or_false] at hm
      rcases hm with rfl | rfl
      · exact hnc h1
      · exact hnc h2
    cases ht with
    | @short b' cs' hc' hl' =>
      rw [List.cons_append, List.cons.injEq] at e
      exact hnc (hc' c (by rw [← e.2]; simp))
    | half0 hb h1 h2 h3 => exact aux e hb ⟨by omega, by omega⟩ h3
    | half1 hb h1 h2 h3 => exact aux e hb ⟨by omega, by omega⟩ h3
    | half2 hb h1 h2 h3 => exact aux e hb ⟨by omega, by omega⟩ h3
  | @overlong b c cs s hcs hl ho =>
    generalize e : b :: c :: cs ++ s = u at ht
    have hb2 : b.toNat ≠ 0xED := by omega
    cases ht with
    | @short b' cs' hc' hl' =>
      simp only [List.cons_append, List.cons.injEq] at e
      obtain ⟨rfl, rfl⟩ := e
      rw [← hl, List.length_cons, List.length_append] at hl'
      omega
    | half0 hb h1 h2 h3 => simp only [List.cons_append, List.cons.injEq] at e; exact hb2 (e.1 ▸ hb)
    | half1 hb h1 h2 h3 => simp only [List.cons_append, List.cons.injEq] at e; exact hb2 (e.1 ▸ hb)
    | half2 hb h1 h2 h3 => simp only [List.cons_append, List.cons.injEq] at e; exact hb2 (e.1 ▸ hb)
  | @loneLow b c1 c2 s hb h1 h2 h3 =>
    have ha : announced b = 3 := announced_three (by omega) (by omega)
    cases ht with
    | short hc' hl' => rw [ha] at hl'; simp only [List.length_cons] at hl'; omega
    | half0 _ _ _ _ => omega
    | half1 _ _ _ _ => omega
    | half2 _ _ _ _ => omega
  | @loneHigh b c1 c2 d s hb h1 h2 h3 h4 =>
    have ha : announced b = 3 := announced_three (by omega) (by omega)
    cases ht with
    | short hc' hl' => rw [ha] at hl'; simp only [List.length_cons] at hl'; omega
    | half1 _ _ _ _ h5 h6 => exact h4 ⟨h5, h6⟩
    | half2 _ _ _ _ h5 h6 => exact h4 ⟨h5, h6⟩
  | @highOther b c1 c2 d e1 e2 s hb h1 h2 h3 h4 h5 h6 =>
    have ha : announced b = 3 := announced_three (by omega) (by omega)
    cases ht with
    | short hc' hl' => rw [ha] at hl'; simp only [List.length_cons] at hl'; omega
  | @highBroken b c1 c2 d e cs s hb h1 h2 h3 h4 h5 h6 h7 h8 =>
    have ha : announced b = 3 := announced_three (by omega) (by omega)
    generalize hu : b :: c1 :: c2 :: d :: cs ++ e :: s = u at ht
    simp only [List.cons_append] at hu
    cases ht with
    | short hc' hl' =>
      rw [List.cons.injEq] at hu
      rw [← hu.1, ← hu.2, ha] at hl'
      simp only [List.length_cons] at hl'
      omega
    | half0 _ _ _ _ => simp only [List.cons.injEq, reduceCtorEq, and_false] at hu
    | half1 _ _ _ _ =>
      simp only [List.cons.injEq] at hu
      have := (List.append_eq_nil_iff.1 hu.2.2.2.2).2
      cases this
    | @half2 _ _ _ _ c4 _ _ _ _ _ _ h9 =>
      simp only [List.cons.injEq] at hu
      have hu := hu.2.2.2.2
      cases cs with
      | nil =>
        rw [List.nil_append, List.cons.injEq] at hu
        rw [hu.1] at h8
        exact h8 h9
      | cons x cs =>
        have := (List.append_eq_nil_iff.1 (List.cons.inj hu).2).2
        cases this

theorem malformed_not_reads {a t : List Byte} {ws : List Nat} (ha : Utf8Text a ws) (h : Malformed t)
    : ¬ ∃ vs u, Utf8Reads (a ++ t) vs u := by
  rintro ⟨vs, u, hr⟩
  have hsc := scan_of_reads hr
  clear hr
  induction ha generalizing vs with
  | nil =>
    rw [List.nil_append] at hsc
    generalize hu : endOf u = e at hsc
    cases hsc with
    | done => cases h
    | cut ht => exact malformed_not_truncated h ht
    | bad _ _ => unfold endOf at hu; split at hu <;> cases hu
    | char hc _ => exact malformed_not_char h hc rfl
  | cons hc _ ih =>
    rw [List.append_assoc] at hsc
    obtain ⟨vs', rfl, hsc'⟩ := scan_char hc hsc
    exact ih vs' hsc'

end Ansak
