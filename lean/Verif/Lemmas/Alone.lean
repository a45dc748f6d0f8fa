import Verif.Lemmas.SplitJoin
import Verif.Lemmas.Trim

/-!
# Units that stand for themselves in an encoding

An ASCII character never occurs inside the encoding of another character in UTF-8, nor does a character
of the BMP in UTF-16. So splitting at such a unit, or trimming such units, treats the characters.
-/

namespace Ansak

open Spec (Utf8Char Utf8Text Scalar Surrogate HighSurrogate LowSurrogate utf8Of utf16Of TrimmedTo)

/-- `s` is a sequence of encodings (as `R` says) of the characters `vs`. -/
inductive EncText {w : Nat} (R : List (BitVec w) → Nat → Prop) : List (BitVec w) → List Nat → Prop
  | nil : EncText R [] []
  | cons {bs s : List (BitVec w)} {v : Nat} {vs : List Nat} :
      R bs v → EncText R s vs → EncText R (bs ++ s) (v :: vs)

/-- The unit `d` stands for the character of its value, and is no part of any other encoding. -/
def Alone {w : Nat} (R : List (BitVec w) → Nat → Prop) (d : BitVec w) : Prop :=
  ∀ bs v, R bs v → bs ≠ [] ∧ (d ∈ bs → bs = [d]) ∧ (bs = [d] ↔ v = d.toNat)

section
variable {w : Nat} {R : List (BitVec w) → Nat → Prop}

theorem EncText.append {a b : List (BitVec w)} {vs ws : List Nat} (ha : EncText R a vs)
    (hb : EncText R b ws) : EncText R (a ++ b) (vs ++ ws) := by
  induction ha with
  | nil => exact hb
  | cons hc _ ih => rw [List.append_assoc]; exact .cons hc ih

theorem EncText.split {s : List (BitVec w)} {vs ws : List Nat} (h : EncText R s (vs ++ ws)) :
    ∃ a b, s = a ++ b ∧ EncText R a vs ∧ EncText R b ws := by
  induction vs generalizing s with
  | nil => exact ⟨[], s, rfl, .nil, h⟩
  | cons v vs ih =>
    cases h with
    | cons hc h =>
      obtain ⟨a, b, rfl, ha, hb⟩ := ih h
      exact ⟨_, b, (List.append_assoc ..).symm, .cons hc ha, hb⟩

/-- A list of pairs of pieces, of the units and of the characters. -/
theorem pieces_enc {d : BitVec w} (hd : Alone R d) {s : List (BitVec w)} {vs : List Nat}
    (h : EncText R s vs) :
    ∃ parts : List (List (BitVec w) × List Nat), pieces d s = parts.map Prod.fst ∧
      pieces d.toNat vs = parts.map Prod.snd ∧ ∀ p ∈ parts, EncText R p.1 p.2 := by
  induction h with
  | nil => exact ⟨[([], [])], rfl, rfl, by simpa using EncText.nil⟩
  | @cons bs s v vs hc hs ih =>
    obtain ⟨parts, h1, h2, h3⟩ := ih
    obtain ⟨hne, hin, hv⟩ := hd bs v hc
    by_cases e : v = d.toNat
    · refine ⟨([], []) :: parts, ?_, ?_, ?_⟩
      · rw [hv.2 e, List.cons_append, List.nil_append, pieces_cons, if_pos rfl, h1]; rfl
      · rw [pieces_cons, if_pos e, h2]; rfl
      · rw [List.forall_mem_cons]; exact ⟨.nil, h3⟩
    · have hnot : d ∉ bs := fun hm => e (hv.1 (hin hm))
      have hpre : ∀ (bs : List (BitVec w)) (s p : List (BitVec w)) (ps : List (List (BitVec w))),
          d ∉ bs → pieces d s = p :: ps → pieces d (bs ++ s) = (bs ++ p) :: ps := by
        intro bs
        induction bs with
        | nil => intro s p ps _ h; exact h
        | cons c bs ih =>
          intro s p ps hn h
          rw [List.mem_cons, not_or] at hn
          rw [List.cons_append, pieces_cons, if_neg (Ne.symm hn.1), ih s p ps hn.2 h]
          rfl
      cases parts with
      | nil => exact absurd h1 (pieces_ne_nil d s)
      | cons p parts =>
        rw [List.forall_mem_cons] at h3
        refine ⟨(bs ++ p.1, v :: p.2) :: parts, ?_, ?_, ?_⟩
        · exact hpre bs s p.1 _ hnot h1
        · rw [pieces_cons, if_neg e, h2]; rfl
        · rw [List.forall_mem_cons]; exact ⟨.cons hc h3.1, h3.2⟩

theorem EncText.singles {s : List (BitVec w)} {vs : List Nat} (h : EncText R s vs)
    {spaces : List (BitVec w)} (hsp : ∀ d ∈ spaces, Alone R d)
    (hv : ∀ v ∈ vs, v ∈ spaces.map BitVec.toNat) : ∀ c ∈ s, c ∈ spaces := by
  induction h with
  | nil => exact fun _ h => nomatch h
  | @cons bs s v vs hc hs ih =>
    rw [List.forall_mem_cons] at hv
    obtain ⟨d, hd, e⟩ := List.mem_map.1 hv.1
    have := (hsp d hd bs v hc).2.2.2 e.symm
    subst this
    rw [List.cons_append, List.nil_append, List.forall_mem_cons]
    exact ⟨hd, ih hv.2⟩

theorem head_append {α : Type} {a b : List α} (ha : a ≠ []) : (a ++ b).head? = a.head? := by
  cases a with
  | nil => exact absurd rfl ha
  | cons => rfl

theorem trim_enc {spaces : List (BitVec w)} (hsp : ∀ d ∈ spaces, Alone R d) {s : List (BitVec w)}
    {vs ws : List Nat} (h : EncText R s vs) (ht : TrimmedTo (· ∈ spaces.map BitVec.toNat) vs ws) :
    ∃ r, TrimmedTo (· ∈ spaces) s r ∧ EncText R r ws := by
  obtain ⟨⟨pre, suf, rfl, hpre, hsuf⟩, hh, hl⟩ := ht
  obtain ⟨s', c, rfl, h', hc⟩ := h.split
  obtain ⟨a, b, rfl, ha, hb⟩ := h'.split
  have out : ∀ {bs : List (BitVec w)} {v : Nat}, R bs v → v ∉ spaces.map BitVec.toNat →
      ∀ x ∈ bs, x ∉ spaces := by
    intro bs v hc hv x hx hxs
    obtain ⟨_, h1, h2⟩ := hsp x hxs bs v hc
    exact hv (List.mem_map.2 ⟨x, hxs, (h2.1 (h1 hx)).symm⟩)
  refine ⟨b, ⟨⟨a, c, rfl, ha.singles hsp hpre, hc.singles hsp hsuf⟩, ?_, ?_⟩, hb⟩
  · cases hb with
    | nil => exact fun _ h => nomatch h
    | @cons bs s v vs hr hs =>
      intro x hx
      by_cases hbs : bs = []
      · by_cases hsp' : spaces = []
        · subst hsp'; exact fun h => nomatch h
        · obtain ⟨d, hd⟩ := List.exists_mem_of_ne_nil _ hsp'
          exact absurd hbs (hsp d hd bs v hr).1
      · rw [head_append hbs] at hx
        exact out hr (hh v rfl) x (List.mem_of_head? hx)
  · by_cases hws : ws = []
    · subst hws
      cases hb
      exact fun _ h => nomatch h
    · have hsplit := List.dropLast_concat_getLast hws
      rw [← hsplit] at hb
      obtain ⟨b1, b2, rfl, _, hb2⟩ := hb.split
      have hlast : ws.getLast? = some (ws.getLast hws) := List.getLast?_eq_some_getLast hws
      cases hb2 with
      | @cons bs s v vs hr hs =>
        cases hs
        rw [List.append_nil]
        intro x hx
        by_cases hbs : bs = []
        · by_cases hsp' : spaces = []
          · subst hsp'; exact fun h => nomatch h
          · obtain ⟨d, hd⟩ := List.exists_mem_of_ne_nil _ hsp'
            exact absurd hbs (hsp d hd bs _ hr).1
        · rw [getLast?_of_suffix hbs] at hx
          exact out hr (hl _ hlast) x (List.mem_of_getLast? hx)

end

/-! ## UTF-8 -/

theorem encText_utf8 {s : List Byte} {vs : List Nat} : EncText Utf8Char s vs ↔ Utf8Text s vs := by
  constructor
  · intro h
    induction h with
    | nil => exact .nil
    | cons hc _ ih => exact .cons hc ih
  · intro h
    induction h with
    | nil => exact .nil
    | cons hc _ ih => exact .cons hc ih

theorem alone_high {v : Nat} (h1 : 0x80 ≤ v) (h2 : v ≤ 0x7FFFFFFF) : ∀ b ∈ Spec.utf8 v, 0x80 ≤ b.toNat := by
  unfold Spec.utf8
  rw [List.forall_mem_map]
  have key : ∀ n ∈ Spec.utf8Values v, 0x80 ≤ n ∧ n < 0x100 := by
    unfold Spec.utf8Values
    rw [if_neg (by omega)]
    split
    · simp only [List.forall_mem_cons, List.not_mem_nil, false_implies, implies_true, and_true]; omega
    split
    · simp only [List.forall_mem_cons, List.not_mem_nil, false_implies, implies_true, and_true]; omega
    split
    · simp only [List.forall_mem_cons, List.not_mem_nil, false_implies, implies_true, and_true]; omega
    split
    · simp only [List.forall_mem_cons, List.not_mem_nil, false_implies, implies_true, and_true]; omega
    · simp only [List.forall_mem_cons, List.not_mem_nil, false_implies, implies_true, and_true]; omega
  intro n hn
  have := key n hn
  rw [BitVec.toNat_ofNat, Nat.mod_eq_of_lt this.2]
  exact this.1

theorem alone_low {v : Nat} (h : v < 0x80) : Spec.utf8 v = [BitVec.ofNat 8 v] := by
  unfold Spec.utf8 Spec.utf8Values
  rw [if_pos h]
  rfl

/-- ASCII stands alone in UTF-8. -/
theorem alone_ascii {d : Byte} (hd : d.toNat < 0x80) : Alone Utf8Char d := by
  intro bs v hc
  have hne := char_ne_nil hc
  have big : 0x80 ≤ v → (∀ b ∈ bs, 0x80 ≤ b.toNat) →
      bs ≠ [] ∧ (d ∈ bs → bs = [d]) ∧ (bs = [d] ↔ v = d.toNat) := by
    intro hv hb
    refine ⟨hne, fun hm => absurd (hb d hm) (by omega), iff_of_false (fun e => ?_) (by omega)⟩
    have := hb d (by rw [e]; exact List.mem_singleton_self d)
    omega
  cases hc with
  | plain hv =>
    by_cases h : v < 0x80
    · rw [alone_low h]
      have ht : (BitVec.ofNat 8 v).toNat = v := by
        rw [BitVec.toNat_ofNat]; exact Nat.mod_eq_of_lt (by omega)
      refine ⟨by simp, fun hm => by rw [List.mem_singleton.1 hm], ?_, fun e => ?_⟩
      · intro e
        have e := (List.cons.inj e).1
        rw [← e, ht]
      · rw [e, BitVec.ofNat_toNat, BitVec.setWidth_eq]
    · exact big (by omega) (alone_high (by omega) hv.2.1)
  | pair hh hl =>
    have hb := pairValue_bounds hh hl
    unfold HighSurrogate at hh
    unfold LowSurrogate at hl
    refine big (by omega) fun b hm => ?_
    rcases List.mem_append.1 hm with h | h
    · exact alone_high (by omega) (by omega) b h
    · exact alone_high (by omega) (by omega) b h

/-! ## UTF-16 -/

/-- One character of UTF-16. -/
def Utf16Char (bs : List U16) (v : Nat) : Prop := Scalar v ∧ bs = Spec.utf16 v

theorem encText_utf16 {s : List U16} {vs : List Nat} :
    EncText Utf16Char s vs ↔ s = utf16Of vs ∧ ∀ v ∈ vs, Scalar v := by
  constructor
  · intro h
    induction h with
    | nil => exact ⟨rfl, fun _ h => nomatch h⟩
    | @cons bs s v vs hc _ ih =>
      obtain ⟨h1, rfl⟩ := hc
      obtain ⟨rfl, h2⟩ := ih
      refine ⟨rfl, ?_⟩
      rw [List.forall_mem_cons]
      exact ⟨h1, h2⟩
  · rintro ⟨rfl, h⟩
    induction vs with
    | nil => exact .nil
    | cons v vs ih =>
      rw [List.forall_mem_cons] at h
      exact .cons ⟨h.1, rfl⟩ (ih h.2)

/-- Characters of the BMP stand alone in UTF-16. -/
theorem alone_bmp {d : U16} (hd : ¬ Surrogate d.toNat) : Alone Utf16Char d := by
  rintro bs v ⟨hv, rfl⟩
  have hlt := d.isLt
  unfold Scalar at hv
  unfold Spec.utf16
  by_cases h : v < 0x10000
  · rw [if_pos h]
    have ht : (BitVec.ofNat 16 v).toNat = v := toNat_u16 h
    refine ⟨by simp, fun hm => by rw [List.mem_singleton.1 hm], ?_, fun e => ?_⟩
    · intro e
      have e := (List.cons.inj e).1
      rw [← e, ht]
    · rw [e, BitVec.ofNat_toNat, BitVec.setWidth_eq]
  · rw [if_neg h]
    have h1 : (BitVec.ofNat 16 (0xD800 + (v - 0x10000) / 0x400)).toNat =
      0xD800 + (v - 0x10000) / 0x400 := toNat_u16 (by omega)
    have h2 : (BitVec.ofNat 16 (0xDC00 + (v - 0x10000) % 0x400)).toNat =
      0xDC00 + (v - 0x10000) % 0x400 := toNat_u16 (by omega)
    unfold Surrogate at hd
    refine ⟨by simp, fun hm => ?_, iff_of_false (fun e => by simp at e) (by omega)⟩
    rw [List.mem_cons, List.mem_singleton] at hm
    rcases hm with rfl | rfl
    · omega
    · omega

end Ansak
