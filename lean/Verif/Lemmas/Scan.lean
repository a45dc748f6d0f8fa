import Verif.Lemmas.Decode

/-!
# The scan of a UTF-8 text

`Scan s vs e`: reading the text `s` from the left gives the characters `vs` and then ends as `e`
says. Every UTF-8 loop of the library is a function of the scan.
-/

namespace Ansak

open Spec (NulFree Utf8Char Utf8Text Encodable HighSurrogate LowSurrogate Surrogate)

/-- How a scan ends. -/
inductive End where
  /-- at the end of the text -/
  | done
  /-- with a truncated sequence at the end of the text -/
  | cut (t : List Byte)
  /-- at a place where decoding fails -/
  | bad (t : List Byte)

inductive Scan : List Byte → List Nat → End → Prop
  | done : Scan [] [] .done
  | cut {t : List Byte} : Truncated t → Scan t [] (.cut t)
  | bad {t : List Byte} : t ≠ [] → Fails t → Scan t [] (.bad t)
  | char {bs s : List Byte} {v : Nat} {vs : List Nat} {e : End} :
      Utf8Char bs v → Scan s vs e → Scan (bs ++ s) (v :: vs) e

/-! ## Facts about characters -/

theorem pairValue_bounds {hi lo : Nat} (hh : HighSurrogate hi) (hl : LowSurrogate lo) :
    0x10000 ≤ Spec.pairValue hi lo ∧ Spec.pairValue hi lo ≤ 0x10FFFF := by
  unfold HighSurrogate at hh; unfold LowSurrogate at hl; unfold Spec.pairValue; omega

theorem char_encodable {bs : List Byte} {v : Nat} (h : Utf8Char bs v) : Encodable v := by
  cases h with
  | plain hv => exact hv
  | pair hh hl =>
    have := pairValue_bounds hh hl
    exact ⟨by omega, by omega, by unfold Surrogate; omega⟩

theorem char_ne_zero {bs : List Byte} {v : Nat} (h : Utf8Char bs v) : BitVec.ofNat 32 v ≠ 0 := by
  have ⟨h1, h2, _⟩ := char_encodable h
  apply bv_ne_zero
  rw [BitVec.toNat_ofNat]; omega

theorem char_toNat {bs : List Byte} {v : Nat} (h : Utf8Char bs v) : (BitVec.ofNat 32 v).toNat = v := by
  have ⟨h1, h2, _⟩ := char_encodable h
  rw [BitVec.toNat_ofNat]; omega

theorem utf8Values_cons (v : Nat) : ∃ b cs, Spec.utf8Values v = b :: cs := by
  unfold Spec.utf8Values
  split; · exact ⟨_, _, rfl⟩
  split; · exact ⟨_, _, rfl⟩
  split; · exact ⟨_, _, rfl⟩
  split; · exact ⟨_, _, rfl⟩
  split; · exact ⟨_, _, rfl⟩
  exact ⟨_, _, rfl⟩

theorem utf8_ne_nil (v : Nat) : Spec.utf8 v ≠ [] := by
  obtain ⟨b, cs, h⟩ := utf8Values_cons v
  unfold Spec.utf8; rw [h]; simp

theorem char_ne_nil {bs : List Byte} {v : Nat} (h : Utf8Char bs v) : bs ≠ [] := by
  cases h with
  | plain hv => exact utf8_ne_nil _
  | pair hh hl => simp [utf8_ne_nil]

theorem utf8Values_pos {v : Nat} (h1 : 1 ≤ v) (h2 : v ≤ 0x7FFFFFFF) :
    ∀ n ∈ Spec.utf8Values v, 1 ≤ n ∧ n < 256 := by
  intro n hn
  unfold Spec.utf8Values at hn
  split at hn
  · simp only [List.mem_cons, List.not_mem_nil, or_false] at hn; omega
  split at hn
  · simp only [List.mem_cons, List.not_mem_nil, or_false] at hn; omega
  split at hn
  · simp only [List.mem_cons, List.not_mem_nil, or_false] at hn; omega
  split at hn
  · simp only [List.mem_cons, List.not_mem_nil, or_false] at hn; omega
  split at hn
  · simp only [List.mem_cons, List.not_mem_nil, or_false] at hn; omega
  · simp only [List.mem_cons, List.not_mem_nil, or_false] at hn; omega

theorem utf8_nulFree {v : Nat} (h1 : 1 ≤ v) (h2 : v ≤ 0x7FFFFFFF) : NulFree (Spec.utf8 v) := by
  intro c hc
  unfold Spec.utf8 at hc
  obtain ⟨n, hn, rfl⟩ := List.mem_map.1 hc
  have := utf8Values_pos h1 h2 n hn
  apply bv_ne_zero
  rw [toNat_byte (by omega)]; omega

theorem char_nulFree {bs : List Byte} {v : Nat} (h : Utf8Char bs v) : NulFree bs := by
  cases h with
  | plain hv => exact utf8_nulFree hv.1 hv.2.1
  | pair hh hl =>
    unfold HighSurrogate at hh; unfold LowSurrogate at hl
    exact NulFree.append.2 ⟨utf8_nulFree (by omega) (by omega), utf8_nulFree (by omega) (by omega)⟩

theorem text_nulFree {s : List Byte} {vs : List Nat} (h : Utf8Text s vs) : NulFree s := by
  induction h with
  | nil => exact NulFree.nil
  | cons hc _ ih => exact NulFree.append.2 ⟨char_nulFree hc, ih⟩

theorem announced_pos {b : Byte} (h : 0 < announced b) : 0xC0 ≤ b.toNat ∧ b.toNat ≤ 0xFD := by
  unfold announced at h
  have := b.isLt
  split at h; · omega
  split at h; · omega
  split at h; · omega
  split at h; · omega
  split at h; · omega
  split at h <;> omega

theorem cont_ne_zero {b : Byte} (h : IsCont b) : b ≠ 0 := bv_ne_zero (by unfold IsCont at h; omega)

theorem truncated_nulFree {s : List Byte} (h : Truncated s) : NulFree s := by
  cases h with
  | short hc hl =>
    refine NulFree.cons.2 ⟨bv_ne_zero (by have := announced_pos (Nat.lt_trans (Nat.succ_pos _) hl); omega), ?_⟩
    exact fun c hm => cont_ne_zero (hc c hm)
  | half0 hb h1 h2 h3 =>
    simp only [NulFree.cons, NulFree.nil, and_true]
    exact ⟨bv_ne_zero (by omega), bv_ne_zero (by omega), cont_ne_zero h3⟩
  | half1 hb h1 h2 h3 h4 h5 =>
    simp only [NulFree.cons, NulFree.nil, and_true]
    exact ⟨bv_ne_zero (by omega), bv_ne_zero (by omega), cont_ne_zero h3, bv_ne_zero (by omega)⟩
  | half2 hb h1 h2 h3 h4 h5 h6 =>
    simp only [NulFree.cons, NulFree.nil, and_true]
    exact ⟨bv_ne_zero (by omega), bv_ne_zero (by omega), cont_ne_zero h3, bv_ne_zero (by omega),
      cont_ne_zero h6⟩

theorem truncated_cons {s : List Byte} (h : Truncated s) :
    ∃ b t, s = b :: t ∧ 0xC0 ≤ b.toNat ∧ b.toNat ≤ 0xFD := by
  cases h with
  | @short b cs hc hl =>
    have := announced_pos (Nat.lt_trans (Nat.succ_pos _) hl)
    exact ⟨b, cs, rfl, this⟩
  | half0 hb => exact ⟨_, _, rfl, by omega, by omega⟩
  | half1 hb => exact ⟨_, _, rfl, by omega, by omega⟩
  | half2 hb => exact ⟨_, _, rfl, by omega, by omega⟩

theorem truncated_ne_nil {s : List Byte} (h : Truncated s) : s ≠ [] := by
  obtain ⟨b, t, rfl, _⟩ := truncated_cons h; simp

/-! ## Every text has exactly one scan -/

theorem scan_exists {s : List Byte} (hs : NulFree s) : ∃ vs e, Scan s vs e := by
  generalize hn : s.length = n
  induction n using Nat.strongRecOn generalizing s with
  | ind n ih =>
    by_cases hne : s = []
    · subst hne; exact ⟨[], .done, .done⟩
    rcases decode_cases hs hne with ⟨bs, v, rest, rfl, hc⟩ | ht | hf
    · have hlen : rest.length < n := by
        have := List.length_pos_iff.2 (char_ne_nil hc)
        rw [List.length_append] at hn; omega
      obtain ⟨vs, e, h⟩ := ih rest.length hlen (NulFree.append.1 hs).2 rfl
      exact ⟨v :: vs, e, .char hc h⟩
    · exact ⟨[], _, .cut ht⟩
    · exact ⟨[], _, .bad hne hf⟩

/-- Two encodings at the start of the same text are the same. -/
theorem char_unique {b1 b2 r1 r2 : List Byte} {v1 v2 : Nat} (h1 : Utf8Char b1 v1)
    (h2 : Utf8Char b2 v2) (h : b1 ++ r1 = b2 ++ r2) : b1 = b2 ∧ r1 = r2 ∧ v1 = v2 := by
  obtain ⟨x1, e1⟩ := decode_char h1 r1
  obtain ⟨x2, e2⟩ := decode_char h2 r2
  rw [h, e2] at e1
  obtain ⟨hv, hr⟩ := ok_some_inj e1
  simp only [List.cons.injEq] at hr
  have hr' : r1 = r2 := hr.2
  subst hr'
  refine ⟨List.append_cancel_right h, rfl, ?_⟩
  have := congrArg BitVec.toNat hv
  rw [char_toNat h1, char_toNat h2] at this
  exact this

theorem not_char_of_truncated {t bs rest : List Byte} {v : Nat} (ht : Truncated t)
    (hc : Utf8Char bs v) : t ≠ bs ++ rest := by
  intro h
  have e1 := stops_truncated ht []
  obtain ⟨b, e2⟩ := decode_char hc (rest ++ 0 :: [])
  rw [h, List.append_assoc, e2] at e1
  exact char_ne_zero hc (ok_some_inj e1).1.symm

theorem not_char_of_fails {t bs rest : List Byte} {v : Nat} (ht : Fails t)
    (hc : Utf8Char bs v) : t ≠ bs ++ rest := by
  intro h
  obtain ⟨c, e1⟩ := ht []
  obtain ⟨b, e2⟩ := decode_char hc (rest ++ 0 :: [])
  rw [h, List.append_assoc, e2] at e1
  simp at e1

theorem not_fails_of_truncated {t : List Byte} (ht : Truncated t) : ¬ Fails t := by
  intro hf
  obtain ⟨c, e1⟩ := hf []
  rw [stops_truncated ht []] at e1
  simp at e1

theorem scan_nil {vs : List Nat} {e : End} (h : Scan [] vs e) : vs = [] ∧ e = .done := by
  generalize hs : ([] : List Byte) = s at h
  cases h with
  | done => exact ⟨rfl, rfl⟩
  | cut ht => exact absurd hs.symm (truncated_ne_nil ht)
  | bad hne _ => exact absurd hs.symm hne
  | char hc _ =>
    exact absurd (List.append_eq_nil_iff.1 hs.symm).1 (char_ne_nil hc)

theorem scan_char {bs rest : List Byte} {v : Nat} {vs : List Nat} {e : End} (hc : Utf8Char bs v)
    (h : Scan (bs ++ rest) vs e) : ∃ vs', vs = v :: vs' ∧ Scan rest vs' e := by
  generalize hs : bs ++ rest = s at h
  cases h with
  | done => exact absurd (List.append_eq_nil_iff.1 hs).1 (char_ne_nil hc)
  | cut ht => exact absurd hs.symm (not_char_of_truncated ht hc)
  | bad hne hf => exact absurd hs.symm (not_char_of_fails hf hc)
  | char hc' h' =>
    obtain ⟨_, rfl, rfl⟩ := char_unique hc hc' hs
    exact ⟨_, rfl, h'⟩

theorem scan_unique {s : List Byte} {vs vs' : List Nat} {e e' : End} (h : Scan s vs e)
    (h' : Scan s vs' e') : vs = vs' ∧ e = e' := by
  induction h generalizing vs' with
  | done => have := scan_nil h'; exact ⟨this.1.symm, this.2.symm⟩
  | @cut t ht =>
    cases h' with
    | done => exact absurd rfl (truncated_ne_nil ht)
    | cut _ => exact ⟨rfl, rfl⟩
    | bad _ hf => exact absurd hf (not_fails_of_truncated ht)
    | char hc _ => exact absurd rfl (not_char_of_truncated ht hc)
  | @bad t hne hf =>
    cases h' with
    | done => exact absurd rfl hne
    | cut ht => exact absurd hf (not_fails_of_truncated ht)
    | bad _ _ => exact ⟨rfl, rfl⟩
    | char hc _ => exact absurd rfl (not_char_of_fails hf hc)
  | char hc _ ih =>
    obtain ⟨vs1, rfl, h1⟩ := scan_char hc h'
    obtain ⟨rfl, rfl⟩ := ih h1
    exact ⟨rfl, rfl⟩

/-! ## Scans and well-formed texts -/

theorem scan_text_append {a t : List Byte} {vs vs' : List Nat} {e : End} (ha : Utf8Text a vs)
    (ht : Scan t vs' e) : Scan (a ++ t) (vs ++ vs') e := by
  induction ha with
  | nil => exact ht
  | cons hc _ ih => rw [List.append_assoc]; exact .char hc ih

theorem scan_of_text {s : List Byte} {vs : List Nat} (h : Utf8Text s vs) : Scan s vs .done := by
  have := scan_text_append h .done
  rwa [List.append_nil, List.append_nil] at this

theorem scan_of_cut {a t : List Byte} {vs : List Nat} (h : Utf8Text a vs) (ht : Truncated t) :
    Scan (a ++ t) vs (.cut t) := by
  have := scan_text_append h (.cut ht)
  rwa [List.append_nil] at this

/-- The unread rest `t` is what `e` says. -/
def End.Left : End → List Byte → Prop
  | .done, t => t = []
  | .cut t', t => t = t' ∧ Truncated t
  | .bad t', t => t = t' ∧ t ≠ [] ∧ Fails t

theorem text_of_scan {s : List Byte} {vs : List Nat} {e : End} (h : Scan s vs e) :
    ∃ a t, s = a ++ t ∧ Utf8Text a vs ∧ e.Left t := by
  induction h with
  | done => exact ⟨[], [], rfl, .nil, rfl⟩
  | cut ht => exact ⟨[], _, rfl, .nil, rfl, ht⟩
  | bad hne hf => exact ⟨[], _, rfl, .nil, rfl, hne, hf⟩
  | char hc _ ih =>
    obtain ⟨a, t, rfl, ha, he⟩ := ih
    exact ⟨_ ++ a, t, (List.append_assoc ..).symm, .cons hc ha, he⟩

theorem scan_done_iff {s : List Byte} {vs : List Nat} : Scan s vs .done ↔ Utf8Text s vs := by
  constructor
  · intro h
    obtain ⟨a, t, rfl, ha, rfl⟩ := text_of_scan h
    rwa [List.append_nil]
  · exact scan_of_text

theorem scan_cut_iff {s t : List Byte} {vs : List Nat} :
    Scan s vs (.cut t) ↔ ∃ a, s = a ++ t ∧ Utf8Text a vs ∧ Truncated t := by
  constructor
  · intro h
    obtain ⟨a, t', rfl, ha, rfl, ht⟩ := text_of_scan h
    exact ⟨a, rfl, ha, ht⟩
  · rintro ⟨a, rfl, ha, ht⟩; exact scan_of_cut ha ht

theorem text_append {a b : List Byte} {vs ws : List Nat} (ha : Utf8Text a vs) (hb : Utf8Text b ws) :
    Utf8Text (a ++ b) (vs ++ ws) := by
  rw [← scan_done_iff] at hb ⊢
  exact scan_text_append ha hb

theorem text_unique {s : List Byte} {vs ws : List Nat} (h1 : Utf8Text s vs) (h2 : Utf8Text s ws) :
    vs = ws := (scan_unique (scan_of_text h1) (scan_of_text h2)).1

theorem text_encodable {s : List Byte} {vs : List Nat} (h : Utf8Text s vs) : ∀ v ∈ vs, Encodable v := by
  induction h with
  | nil => simp
  | cons hc _ ih =>
    intro v hv
    rcases List.mem_cons.1 hv with rfl | hv
    · exact char_encodable hc
    · exact ih v hv

theorem scan_encodable {s : List Byte} {vs : List Nat} {e : End} (h : Scan s vs e) :
    ∀ v ∈ vs, Encodable v := by
  obtain ⟨a, t, _, ha, _⟩ := text_of_scan h
  exact text_encodable ha

theorem text_utf8Of {vs : List Nat} (h : ∀ v ∈ vs, Encodable v) : Utf8Text (Spec.utf8Of vs) vs := by
  induction vs with
  | nil => exact .nil
  | cons v vs ih =>
    exact .cons (.plain (h v (by simp))) (ih fun w hw => h w (by simp [hw]))

theorem text_eq_nil_iff {s : List Byte} {vs : List Nat} (h : Utf8Text s vs) : s = [] ↔ vs = [] := by
  cases h with
  | nil => simp
  | cons hc _ => simp [char_ne_nil hc]

end Ansak
