import Verif.Lemmas.Alone
import Verif.Lemmas.Compose

/-!
# C53: ASCII text

`s.map (BitVec.setWidth n)` is the string with the same unit values in units of `n` bits.
-/

namespace Ansak.Props

open Spec (Encodable Scalar Bmp Surrogate utf8Of utf16Of ucs2Of ucs4Of NulFree)

/-- Every unit is an ASCII character other than NUL. -/
def Ascii {w : Nat} (s : List (BitVec w)) : Prop := ∀ c ∈ s, 1 ≤ c.toNat ∧ c.toNat ≤ 0x7F

section
variable {w : Nat} {s : List (BitVec w)}

theorem Ascii.vals (h : Ascii s) : ∀ v ∈ vals s, 1 ≤ v ∧ v ≤ 0x7F := by
  intro v hv
  obtain ⟨c, hc, rfl⟩ := List.mem_map.1 hv
  exact h c hc

theorem Ascii.bmp (h : Ascii s) : ∀ v ∈ Ansak.vals s, Bmp v := by
  intro v hv
  have := h.vals v hv
  refine ⟨this.1, by omega, ?_⟩
  unfold Surrogate
  omega

theorem Ascii.scalar (h : Ascii s) : ∀ v ∈ Ansak.vals s, Scalar v := fun v hv => bmp_scalar (h.bmp v hv)

theorem Ascii.encodable (h : Ascii s) : ∀ v ∈ Ansak.vals s, Encodable v :=
  fun v hv => scalar_encodable (h.scalar v hv)

theorem Ascii.nulFree (h : Ascii s) : NulFree s := by
  intro c hc e
  have := (h c hc).1
  rw [e] at this
  simp at this

theorem ofNat_vals (n : Nat) (s : List (BitVec w)) :
    (Ansak.vals s).map (BitVec.ofNat n) = s.map (BitVec.setWidth n) := by
  unfold Ansak.vals
  rw [List.map_map]
  exact List.map_congr_left fun c _ => BitVec.ofNat_toNat n c

theorem Ascii.utf8Of (h : Ascii s) : utf8Of (Ansak.vals s) = s.map (BitVec.setWidth 8) := by
  rw [← ofNat_vals]
  have := h.vals
  generalize Ansak.vals s = vs at this
  unfold Spec.utf8Of
  induction vs with
  | nil => rfl
  | cons v vs ih =>
    rw [List.forall_mem_cons] at this
    rw [List.flatMap_cons, alone_low (by omega), ih this.2]
    rfl

theorem Ascii.utf16Of (h : Ascii s) : utf16Of (Ansak.vals s) = s.map (BitVec.setWidth 16) := by
  rw [utf16Of_bmp fun v hv => (h.bmp v hv).2.1]
  exact ofNat_vals 16 s

theorem Ascii.ucs2Of (_ : Ascii s) : ucs2Of (Ansak.vals s) = s.map (BitVec.setWidth 16) := ofNat_vals 16 s
theorem Ascii.ucs4Of (_ : Ascii s) : ucs4Of (Ansak.vals s) = s.map (BitVec.setWidth 32) := ofNat_vals 32 s

end

theorem map_same {w : Nat} (s : List (BitVec w)) : s.map (BitVec.setWidth w) = s := by
  refine (List.map_congr_left fun c _ => ?_).trans (List.map_id _)
  exact BitVec.setWidth_eq c

/-- Converting ASCII text from UTF-8 keeps every unit. -/
theorem C53_from_utf8 {s : List Byte} (h : Ascii s) :
    toUtf16From8S s = .ok (s.map (BitVec.setWidth 16)) ∧
    toUcs2From8S s = .ok (s.map (BitVec.setWidth 16)) ∧
    toUcs4From8S s = .ok (s.map (BitVec.setWidth 32)) := by
  have e := h.utf8Of
  rw [map_same] at e
  have h1 := toUtf16From8S_utf8Of h.scalar
  have h2 := toUcs2From8S_utf8Of h.bmp
  have h3 := toUcs4From8S_utf8Of h.encodable
  rw [e] at h1 h2 h3
  rw [h1, h2, h3, h.utf16Of, h.ucs2Of, h.ucs4Of]
  exact ⟨rfl, rfl, rfl⟩

/-- From UTF-16 (and UCS-2). -/
theorem C53_from_utf16 {s : List U16} (h : Ascii s) :
    toUtf8From16S s = .ok (s.map (BitVec.setWidth 8)) ∧
    toUcs4From16S s = .ok (s.map (BitVec.setWidth 32)) := by
  have e := h.utf16Of
  rw [map_same] at e
  have h1 := toUtf8From16S_utf16Of h.scalar
  have h2 := toUcs4From16S_utf16Of h.scalar
  rw [e] at h1 h2
  rw [h1, h2, h.utf8Of, h.ucs4Of]
  exact ⟨rfl, rfl⟩

/-- From UCS-4. -/
theorem C53_from_ucs4 {s : List U32} (h : Ascii s) :
    toUtf8From32S s = .ok (s.map (BitVec.setWidth 8)) ∧
    toUtf16From32S s = .ok (s.map (BitVec.setWidth 16)) ∧
    toUcs2From32S s = .ok (s.map (BitVec.setWidth 16)) := by
  have h1 := toUtf8From32S_ucs4Of h.encodable
  have h2 := toUtf16From32S_ucs4Of h.encodable
  have h3 := toUcs2From32S_ucs4Of h.encodable
  rw [if_pos fun v hv => (h.scalar v hv).2.1] at h2
  rw [if_pos fun v hv => (h.bmp v hv).2.1] at h3
  rw [ucs4Of_vals] at h1 h2 h3
  rw [h1, h2, h3, h.utf8Of, h.utf16Of, h.ucs2Of]
  exact ⟨rfl, rfl, rfl⟩

theorem pred_none32 (U : CharClass) (v : Nat) : Pred.none.call32 U v = true := call32_none U (by rfl) v
theorem pred_none16 (U : CharClass) (v : Nat) : Pred.none.call16 U v = true := call16_none U (by rfl) v

/-- All validators accept ASCII text, for every target range. -/
theorem C53_accepted (U : CharClass) (r : Spec.Range) {s : List Byte} (hs : Ascii s) {t : List U16}
    (ht : Ascii t) {u : List U32} (hu : Ascii u) :
    isUtf8S U s r.code Pred.none = .ok true ∧ isUtf16S U t r.code Pred.none = .ok true ∧
    isUcs2S U t r.code Pred.none = .ok true ∧ isUcs4S U u r.code Pred.none = .ok true := by
  have acc8 : ∀ v, v ≤ 0x7F → Acc8 r v := by intro v hv; cases r <;> unfold Acc8 <;> omega
  have acc : ∀ v, v ≤ 0x7F → AccFlags r v := by
    intro v hv; cases r <;> unfold AccFlags <;> first | omega | trivial
  have nosur : ∀ v, v ≤ 0x7F → ¬ Surrogate v := by intro v hv; unfold Surrogate; omega
  refine ⟨?_, ?_, ?_, ?_⟩
  · have h := scan_of_text (text_utf8Of hs.encodable)
    rw [hs.utf8Of, map_same] at h
    rw [← textOf_of_nulFree hs.nulFree] at h
    refine ok_true_of (isUtf8S_any U r Pred.none h) ⟨fun v hv => ⟨acc8 v (hs.vals v ?_).2, pred_none32 U v⟩, trivial⟩
    rwa [textOf_of_nulFree hs.nulFree] at hv
  · have h := scan16_utf16Of (lenient := false) ht.scalar
    rw [ht.utf16Of, map_same] at h
    rw [← textOf_of_nulFree ht.nulFree] at h
    refine ok_true_of (isUtf16S_any U r Pred.none h) ⟨fun v hv => ⟨acc v (ht.vals v ?_).2, pred_none16 U _⟩, trivial⟩
    rwa [textOf_of_nulFree ht.nulFree] at hv
  · refine ok_true_of (isUcs2S_any U r Pred.none t) fun c hc => ?_
    rw [textOf_of_nulFree ht.nulFree] at hc
    exact ⟨nosur _ (ht c hc).2, acc _ (ht c hc).2, pred_none16 U _⟩
  · refine ok_true_of (isUcs4S_any U r Pred.none u) fun c hc => ?_
    rw [textOf_of_nulFree hu.nulFree] at hc
    exact ⟨nosur _ (hu c hc).2, acc _ (hu c hc).2, pred_none32 U _⟩

/-- Only ASCII text is accepted for the range ASCII. -/
theorem C53_only (U : CharClass) {s : List Byte} (hs : isUtf8S U s Spec.Range.ascii.code Pred.none = .ok true) :
    Ascii (Spec.textOf s) := by
  obtain ⟨vs, e, h⟩ := scan_exists (textOf_nulFree s)
  obtain ⟨hv, he⟩ := of_ok_true (isUtf8S_any U .ascii Pred.none h) hs
  have hdone : e = .done := by
    cases e with
    | done => rfl
    | bad => exact he.elim
    | cut t =>
      obtain ⟨b, t', rfl, hb⟩ := he
      obtain ⟨a, _, _, ht⟩ := scan_cut_iff.1 h
      obtain ⟨b', t'', e, hl⟩ := truncated_cons ht
      rw [(List.cons.inj e).1] at hb
      rw [lead8_iff] at hb
      simp only [Spec.Range.maxLead] at hb
      omega
  subst hdone
  have ht := scan_done_iff.1 h
  clear h hs he
  generalize Spec.textOf s = z at ht ⊢
  induction ht with
  | nil => exact fun _ h => nomatch h
  | @cons bs s v vs hc _ ih =>
    rw [List.forall_mem_cons] at hv
    have hlt : v < 0x80 := hv.1.1
    have hbs : bs = [BitVec.ofNat 8 v] := by
      cases hc with
      | plain _ => exact alone_low hlt
      | pair hh hl => have := pairValue_bounds hh hl; omega
    have he := (char_encodable hc).1
    subst hbs
    intro c hm
    rw [List.cons_append, List.nil_append, List.mem_cons] at hm
    rcases hm with rfl | hm
    · rw [BitVec.toNat_ofNat, Nat.mod_eq_of_lt (by omega)]; omega
    · exact ih hv.2 c hm

/-- The number of code points of ASCII text is the number of its units, as far as an `unsigned int` can
hold it. -/
theorem C53_length {s : List Byte} (hs : Ascii s) (h8 : s.length < 4294967296) {t : List U16} (ht : Ascii t)
    (h16 : t.length < 4294967296) {u : List U32} (hu : Ascii u) (h32 : u.length < 4294967296) :
    (∃ n, unicodeLength8S s = .ok n ∧ n.toNat = s.length) ∧
    (∃ n, unicodeLength16S t = .ok n ∧ n.toNat = t.length) ∧
    (∃ n, unicodeLength32S u = .ok n ∧ n.toNat = u.length) := by
  refine ⟨?_, ?_, ?_⟩
  · have h := scan_of_text (text_utf8Of hs.encodable)
    rw [hs.utf8Of, map_same] at h
    unfold unicodeLength8S
    rw [cStr_nulFree hs.nulFree, unicodeLength8_text hs.nulFree h, if_pos fun v hv => (hs.scalar v hv).2.1]
    refine ⟨_, rfl, ?_⟩
    unfold countEnd uintOf vals
    rw [BitVec.toNat_ofNat, List.length_map, Nat.mod_eq_of_lt h8]
  · have h := scan16_utf16Of (lenient := false) ht.scalar
    rw [ht.utf16Of, map_same] at h
    unfold unicodeLength16S
    rw [cStr_nulFree ht.nulFree, unicodeLength16_text h]
    refine ⟨_, rfl, ?_⟩
    unfold countEnd16 uintOf vals
    rw [BitVec.toNat_ofNat, List.length_map, Nat.mod_eq_of_lt h16]
  · unfold unicodeLength32S
    rw [cStr_nulFree hu.nulFree, unicodeLength32_buf hu.nulFree, if_pos]
    · refine ⟨_, rfl, ?_⟩
      unfold uintOf
      rw [BitVec.toNat_ofNat, Nat.mod_eq_of_lt h32]
    · intro c hc
      have := hu c hc
      unfold Surrogate
      omega

/-! ## The hypotheses can be met -/

example : Ascii ([0x41, 0x7F, 0x01] : List Byte) ∧ Ascii ([0x7E, 0x20] : List U16) ∧
    Ascii ([0x30] : List U32) := by unfold Ascii; decide
example : toUcs4From8S [0x48, 0x69] = .ok [0x48, 0x69] := (C53_from_utf8 (by unfold Ascii; decide)).2.2
example (U : CharClass) : isUtf8S U [0x48, 0x69] Spec.Range.ascii.code Pred.none = .ok true := by
  exact (C53_accepted _ .ascii (by unfold Ascii; decide) (t := []) (by unfold Ascii; decide) (u := [])
    (by unfold Ascii; decide)).1

end Ansak.Props
