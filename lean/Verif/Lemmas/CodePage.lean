import Verif.Model.CodePage
import Verif.Spec.CodePage
import Verif.Lemmas.Compose

namespace Ansak

open Spec (NulFree cpChar cp1252Upper cp1250Upper Bmp Encodable utf8Of)

/-! ## The tables -/

theorem table1252 : cp125280_9F.map BitVec.toNat = cp1252Upper.take 32 := by decide
theorem upper1252 : cp1252Upper = cp1252Upper.take 32 ++ List.range' 0xA0 96 := by decide
theorem table1250 : cp125080_FF.map BitVec.toNat = cp1250Upper := by decide

theorem cpChar_low {u : List Nat} {b : Byte} (h : b.toNat ≤ 0x7F) : cpChar u b = b.toNat := by
  unfold cpChar; rw [if_pos (by omega)]

theorem cpChar_high {u : List Nat} {b : Byte} (h : ¬ b.toNat ≤ 0x7F) :
    cpChar u b = u[b.toNat - 0x80]?.getD 0 := by
  unfold cpChar; rw [if_neg (by omega)]; rfl

theorem read1252 {b : Byte} (h : ¬ b.toNat ≤ 0x7F) (h2 : b.toNat ≤ 0x9F) :
    ∃ c, readAt cp125280_9F (b.toNat - 0x80) = .ok c ∧ c.toNat = cpChar cp1252Upper b := by
  have hl : cp125280_9F.length = 32 := rfl
  have hk : b.toNat - 0x80 < cp125280_9F.length := by omega
  refine ⟨cp125280_9F[b.toNat - 0x80], ?_, ?_⟩
  · unfold readAt; rw [List.getElem?_eq_getElem hk]
  · rw [cpChar_high h]
    have := congrArg (fun l : List Nat => l[b.toNat - 0x80]?) table1252
    simp only [List.getElem?_map, List.getElem?_eq_getElem hk, Option.map_some] at this
    rw [List.getElem?_take_of_lt (by omega)] at this
    rw [← this]; rfl

theorem high1252 {b : Byte} (h : ¬ b.toNat ≤ 0x9F) : cpChar cp1252Upper b = b.toNat := by
  have hb := b.isLt
  have hl : (cp1252Upper.take 32).length = 32 := rfl
  rw [cpChar_high (by omega), upper1252, List.getElem?_append_right (by omega), hl,
    List.getElem?_range' (by omega)]
  show 0xA0 + 1 * (b.toNat - 0x80 - 32) = _
  omega

theorem read1250 {b : Byte} (h : ¬ b.toNat ≤ 0x7F) :
    ∃ c, readAt cp125080_FF (b.toNat - 0x80) = .ok c ∧ c.toNat = cpChar cp1250Upper b := by
  have hb := b.isLt
  have hl : cp125080_FF.length = 128 := rfl
  have hk : b.toNat - 0x80 < cp125080_FF.length := by omega
  refine ⟨cp125080_FF[b.toNat - 0x80], ?_, ?_⟩
  · unfold readAt; rw [List.getElem?_eq_getElem hk]
  · rw [cpChar_high h]
    have := congrArg (fun l : List Nat => l[b.toNat - 0x80]?) table1250
    simp only [List.getElem?_map, List.getElem?_eq_getElem hk, Option.map_some] at this
    rw [← this]; rfl

/-- A table of characters of the basic plane, 0 apart. -/
def TableOk (u : List Nat) : Prop := ∀ v ∈ u, v = 0 ∨ Bmp v

theorem ok1252 : TableOk cp1252Upper := by unfold TableOk; decide +kernel
theorem ok1250 : TableOk cp1250Upper := by unfold TableOk; decide +kernel

theorem cpChar_bmp {u : List Nat} (hu : TableOk u) {b : Byte} (h : cpChar u b ≠ 0) : Bmp (cpChar u b) := by
  by_cases hb : b.toNat ≤ 0x7F
  · rw [cpChar_low hb] at *
    exact ⟨by omega, by omega, by unfold Spec.Surrogate; omega⟩
  · rw [cpChar_high hb] at *
    cases he : u[b.toNat - 0x80]? with
    | none => rw [he] at h; exact absurd rfl h
    | some v =>
      rw [he] at h
      exact (hu v (List.mem_of_getElem? he)).resolve_left h

/-! ## No two bytes stand for the same character -/

/-- No value other than 0 occurs twice. -/
def distinct : List Nat → Bool
  | [] => true
  | x :: l => (Nat.beq x 0 || l.all (fun y => !Nat.beq y x)) && distinct l

theorem distinct_getElem {l : List Nat} (h : distinct l = true) {i j v : Nat} (hij : i < j)
    (hi : l[i]? = some v) (hj : l[j]? = some v) : v = 0 := by
  induction l generalizing i j with
  | nil => simp at hj
  | cons x l ih =>
    unfold distinct at h
    rw [Bool.and_eq_true, Bool.or_eq_true, Nat.beq_eq, List.all_eq_true] at h
    match i, j with
    | 0, j + 1 =>
      rw [List.getElem?_cons_zero] at hi
      cases hi
      rw [List.getElem?_cons_succ] at hj
      refine h.1.resolve_right fun h => ?_
      have := h v (List.mem_of_getElem? hj)
      simp at this
    | i + 1, j + 1 =>
      rw [List.getElem?_cons_succ] at hi hj
      exact ih h.2 (by omega) hi hj

theorem distinct1252 : distinct (List.range 0x80 ++ cp1252Upper) = true := by decide +kernel
theorem distinct1250 : distinct (List.range 0x80 ++ cp1250Upper) = true := by decide +kernel

theorem cpChar_getElem {u : List Nat} (b : Byte) (h : cpChar u b ≠ 0) :
    (List.range 0x80 ++ u)[b.toNat]? = some (cpChar u b) := by
  by_cases hb : b.toNat ≤ 0x7F
  · rw [cpChar_low hb, List.getElem?_append_left (by simp; omega), List.getElem?_range (by omega)]
  · rw [cpChar_high hb] at *
    rw [List.getElem?_append_right (by simp; omega), List.length_range]
    cases he : u[b.toNat - 0x80]? with
    | none => rw [he] at h; exact absurd rfl h
    | some v => rfl

theorem cpChar_inj {u : List Nat} (hd : distinct (List.range 0x80 ++ u) = true) {b c : Byte}
    (h : cpChar u b = cpChar u c) (h0 : cpChar u b ≠ 0) : b = c := by
  have hb := cpChar_getElem b h0
  have hc := cpChar_getElem c (h ▸ h0)
  rw [← h] at hc
  refine BitVec.eq_of_toNat_eq ?_
  rcases Nat.lt_trichotomy b.toNat c.toNat with hlt | he | hlt
  · exact absurd (distinct_getElem hd hlt hb hc) h0
  · exact he
  · exact absurd (distinct_getElem hd hlt hc hb) h0

/-! ## The loops -/

/-- What both loops do with a byte. -/
def PageLoop (u : List Nat) (loop : List Byte → List Byte → Res (List Byte)) : Prop :=
  (∀ p acc, loop (0 :: p) acc = .ok acc) ∧
  ∀ b p acc, b ≠ 0 → loop (b :: p) acc =
    if cpChar u b = 0 then .ok [] else loop p (acc ++ Spec.utf8 (cpChar u b))

theorem utf8_low {b : Byte} (h : b.toNat ≤ 0x7F) : Spec.utf8 b.toNat = [b] := by
  unfold Spec.utf8 Spec.utf8Values
  rw [if_pos (by omega)]
  show [BitVec.ofNat 8 b.toNat] = _
  rw [BitVec.ofNat_toNat, BitVec.setWidth_eq]

theorem pageLoop1252 : PageLoop cp1252Upper toUtf8From1252Loop := by
  refine ⟨fun p acc => if_pos rfl, fun b p acc h0 => ?_⟩
  have hb : b.toNat ≠ 0 := fun h => h0 (BitVec.eq_of_toNat_eq h)
  have hlt := b.isLt
  rw [toUtf8From1252Loop]
  rw [if_neg h0]
  by_cases h1 : b.toNat ≤ 0x7F
  · rw [if_pos h1, cpChar_low h1, if_neg hb, utf8_low h1]
  · rw [if_neg h1]
    by_cases h2 : b.toNat ≤ 0x9F
    · rw [if_pos h2]
      obtain ⟨c, hr, hc⟩ := read1252 h1 h2
      have hz : c = 0 ↔ cpChar cp1252Upper b = 0 := by
        rw [← hc]; exact ⟨fun h => by rw [h]; rfl, fun h => BitVec.eq_of_toNat_eq h⟩
      rw [hr, Res.bind_ok, hc, encodeUtf8_eq (by rw [← hc]; have := c.isLt; omega)]
      by_cases h : c = 0
      · rw [if_pos h, if_pos (hz.1 h)]
      · rw [if_neg h, if_neg (fun h' => h (hz.2 h'))]
    · rw [if_neg h2, high1252 h2, if_neg hb, encodeUtf8_eq (by omega)]

theorem pageLoop1250 : PageLoop cp1250Upper toUtf8From1250Loop := by
  refine ⟨fun p acc => if_pos rfl, fun b p acc h0 => ?_⟩
  have hb : b.toNat ≠ 0 := fun h => h0 (BitVec.eq_of_toNat_eq h)
  rw [toUtf8From1250Loop]
  rw [if_neg h0]
  by_cases h1 : b.toNat ≤ 0x7F
  · rw [if_pos h1, cpChar_low h1, if_neg hb, utf8_low h1]
  · rw [if_neg h1]
    obtain ⟨c, hr, hc⟩ := read1250 h1
    have hz : c = 0 ↔ cpChar cp1250Upper b = 0 := by
      rw [← hc]; exact ⟨fun h => by rw [h]; rfl, fun h => BitVec.eq_of_toNat_eq h⟩
    rw [hr, Res.bind_ok, hc, encodeUtf8_eq (by rw [← hc]; have := c.isLt; omega)]
    by_cases h : c = 0
    · rw [if_pos h, if_pos (hz.1 h)]
    · rw [if_neg h, if_neg (fun h' => h (hz.2 h'))]

theorem pageLoop_text {u : List Nat} {loop : List Byte → List Byte → Res (List Byte)} (hl : PageLoop u loop)
    {s : List Byte} (hs : NulFree s) (post : List Byte) (acc : List Byte) :
    loop (s ++ 0 :: post) acc =
      .ok (if ∀ b ∈ s, cpChar u b ≠ 0 then acc ++ utf8Of (s.map (cpChar u)) else []) := by
  induction s generalizing acc with
  | nil =>
    rw [List.nil_append, hl.1, if_pos (by simp)]
    simp [utf8Of]
  | cons b s ih =>
    have ⟨h0, hs⟩ := NulFree.cons.1 hs
    rw [List.cons_append, hl.2 b _ _ h0, ih hs]
    by_cases hb : cpChar u b = 0
    · rw [if_pos hb, if_neg (fun h => h b (by simp) hb)]
    · rw [if_neg hb]
      congr 1
      have e : (∀ c ∈ b :: s, cpChar u c ≠ 0) ↔ ∀ c ∈ s, cpChar u c ≠ 0 := by
        rw [List.forall_mem_cons]; exact and_iff_right hb
      by_cases h : ∀ c ∈ s, cpChar u c ≠ 0
      · rw [if_pos h, if_pos (e.2 h), List.append_assoc]; rfl
      · rw [if_neg h, if_neg (fun h' => h (e.1 h'))]

theorem utf8Of_inj {vs ws : List Nat} (hv : ∀ v ∈ vs, Encodable v) (hw : ∀ v ∈ ws, Encodable v)
    (h : utf8Of vs = utf8Of ws) : vs = ws := by
  have h1 := scan_of_text (text_utf8Of hv)
  rw [h] at h1
  exact (scan_unique h1 (scan_of_text (text_utf8Of hw))).1

theorem page_result (s : List Byte) (u : List Nat) :
    ((∀ b ∈ s, cpChar u b ≠ 0) →
      (if ∀ b ∈ s, cpChar u b ≠ 0 then utf8Of (s.map (cpChar u)) else []) = utf8Of (s.map (cpChar u))) ∧
    ((∃ b ∈ s, cpChar u b = 0) →
      (if ∀ b ∈ s, cpChar u b ≠ 0 then utf8Of (s.map (cpChar u)) else []) = []) ∧
    ((if ∀ b ∈ s, cpChar u b ≠ 0 then utf8Of (s.map (cpChar u)) else []) = [] ↔
      s = [] ∨ ∃ b ∈ s, cpChar u b = 0) := by
  by_cases h : ∀ b ∈ s, cpChar u b ≠ 0
  · rw [if_pos h]
    have hno : ¬ ∃ b ∈ s, cpChar u b = 0 := fun ⟨b, hb, h0⟩ => h b hb h0
    refine ⟨fun _ => rfl, fun h' => absurd h' hno, ?_⟩
    rw [or_iff_left hno]
    cases s with
    | nil => simp [utf8Of]
    | cons b s =>
      refine ⟨fun h => ?_, fun h => by simp at h⟩
      have : Spec.utf8 (cpChar u b) = [] := (List.append_eq_nil_iff.1 h).1
      exact absurd this (utf8_ne_nil _)
  · rw [if_neg h]
    refine ⟨fun h' => absurd h' h, fun _ => rfl, fun _ => .inr ?_, fun _ => rfl⟩
    false_or_by_contra
    rename_i hn
    exact h fun b hb h0 => hn ⟨b, hb, h0⟩

/-- The whole function, for a code page. -/
theorem toUtf8FromPage_text {u : List Nat} {loop : List Byte → List Byte → Res (List Byte)} (hl : PageLoop u loop)
    {s : List Byte} (hs : NulFree s) (post : List Byte) :
    ifNonEmpty (some (s ++ 0 :: post)) (fun p => loop p []) =
      .ok (if ∀ b ∈ s, cpChar u b ≠ 0 then utf8Of (s.map (cpChar u)) else []) := by
  rw [← List.nil_append (utf8Of (s.map (cpChar u))), ← pageLoop_text hl hs post []]
  unfold ifNonEmpty
  cases s with
  | nil => rw [List.nil_append, hl.1]; rfl
  | cons b s =>
    have ⟨h0, _⟩ := NulFree.cons.1 hs
    show (Res.ok b).bind _ = _
    rw [Res.bind_ok, if_neg h0]

theorem stringOfPtr_text {w : Nat} {s : List (BitVec w)} (hs : NulFree s) (post : List (BitVec w)) :
    stringOfPtr (some (s ++ 0 :: post)) = .ok s := by
  unfold stringOfPtr
  show stringOfPtr.go _ = _
  induction s with
  | nil => exact if_pos rfl
  | cons b s ih =>
    have ⟨h0, hs⟩ := NulFree.cons.1 hs
    rw [List.cons_append, stringOfPtr.go, if_neg h0, ih hs]
    rfl

end Ansak
