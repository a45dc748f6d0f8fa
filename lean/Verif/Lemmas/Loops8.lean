import Verif.Lemmas.Scan
import Verif.Model.UnicodeLength

/-!
# The null-terminated UTF-8 loops in terms of the scan of the text
-/

namespace Ansak

open Spec (NulFree Utf8Char Utf8Text Encodable HighSurrogate LowSurrogate Surrogate)

/-- The scan did not end in a decoding failure. -/
def End.ok : End → Bool
  | .bad _ => false
  | _ => true

theorem cons_of_ne_nil {α : Type} {l : List α} (h : l ≠ []) : ∃ a t, l = a :: t := by
  cases l with
  | nil => exact absurd rfl h
  | cons a t => exact ⟨a, t, rfl⟩

/-- What a loop sees at the start of a character. -/
theorem at_char {bs : List Byte} {v : Nat} (h : Utf8Char bs v) (rest : List Byte) :
    ∃ b t x, bs = b :: t ∧ b ≠ 0 ∧
      decodeUtf8 (b :: (t ++ rest)) = .ok (BitVec.ofNat 32 v, some (x :: rest)) := by
  obtain ⟨b, t, rfl⟩ := cons_of_ne_nil (char_ne_nil h)
  obtain ⟨x, hx⟩ := decode_char h rest
  exact ⟨b, t, x, rfl, (NulFree.cons.1 (char_nulFree h)).1, hx⟩

theorem at_cut {s : List Byte} (h : Truncated s) (post : List Byte) :
    ∃ b t, s = b :: t ∧ b ≠ 0 ∧ decodeUtf8 (b :: (t ++ 0 :: post)) = .ok (0, some (0 :: post)) := by
  obtain ⟨b, t, rfl⟩ := cons_of_ne_nil (truncated_ne_nil h)
  exact ⟨b, t, rfl, (NulFree.cons.1 (truncated_nulFree h)).1, stops_truncated h post⟩

theorem fails_head {b : Byte} {t : List Byte} (hf : Fails (b :: t)) : b ≠ 0 := by
  rintro rfl
  obtain ⟨c, h⟩ := hf []
  simp [decodeUtf8] at h

theorem at_bad {s : List Byte} (hne : s ≠ []) (h : Fails s) (post : List Byte) :
    ∃ b t c, s = b :: t ∧ b ≠ 0 ∧ decodeUtf8 (b :: (t ++ 0 :: post)) = .ok (c, none) := by
  obtain ⟨b, t, rfl⟩ := cons_of_ne_nil hne
  obtain ⟨c, hc⟩ := h post
  exact ⟨b, t, c, rfl, fails_head h, hc⟩

/-! ## `toUcs4` -/

theorem toUcs4From8Loop_eq (b : Byte) (t : List Byte) (res : List U32) :
    toUcs4From8Loop (b :: t) res =
      if b = 0 then .ok res
      else match decodeUtf8 (b :: t) with
        | .ub => .ub
        | .ok (_, none) => .ok []
        | .ok (c, some q) =>
          if c = 0 then .ok res else toUcs4From8Loop q.tail (res ++ [c]) := by
  rw [toUcs4From8Loop]
  split
  · rfl
  · split <;> simp_all

theorem toUcs4_scan {s : List Byte} {vs : List Nat} {e : End} (h : Scan s vs e) (post : List Byte)
    (res : List U32) :
    toUcs4From8Loop (s ++ 0 :: post) res = .ok (if e.ok then res ++ Spec.ucs4Of vs else []) := by
  induction h generalizing res with
  | done => rw [List.nil_append, toUcs4From8Loop_eq]; simp [End.ok, Spec.ucs4Of]
  | cut ht =>
    obtain ⟨b, t, rfl, hb, hd⟩ := at_cut ht post
    rw [List.cons_append, toUcs4From8Loop_eq, if_neg hb, hd]
    simp [End.ok, Spec.ucs4Of]
  | bad hne hf =>
    obtain ⟨b, t, c, rfl, hb, hd⟩ := at_bad hne hf post
    rw [List.cons_append, toUcs4From8Loop_eq, if_neg hb, hd]
    simp [End.ok]
  | @char bs s v vs e hc _ ih =>
    obtain ⟨b, t, x, rfl, hb, hd⟩ := at_char hc (s ++ 0 :: post)
    rw [List.append_assoc, List.cons_append, toUcs4From8Loop_eq, if_neg hb, hd]
    simp only [if_neg (char_ne_zero hc), List.tail_cons]
    rw [ih]
    simp [Spec.ucs4Of]

/-! ## `toUtf16` -/

theorem toUtf16From8Loop_eq (b : Byte) (t : List Byte) (res : List U16) :
    toUtf16From8Loop (b :: t) res =
      if b = 0 then .ok res
      else match decodeUtf8 (b :: t) with
        | .ub => .ub
        | .ok (_, none) => .ok []
        | .ok (c, some q) =>
          if ¬ isUtf16Encodable c.toNat then .ok []
          else if c = 0 then .ok res
          else toUtf16From8Loop q.tail (res ++ rawEncodeUtf16 c.toNat) := by
  rw [toUtf16From8Loop]
  split
  · rfl
  · split <;> simp_all

theorem toUtf16_scan {s : List Byte} {vs : List Nat} {e : End} (h : Scan s vs e) (post : List Byte)
    (res : List U16) :
    toUtf16From8Loop (s ++ 0 :: post) res =
      .ok (if e.ok ∧ ∀ v ∈ vs, v ≤ 0x10FFFF then res ++ Spec.utf16Of vs else []) := by
  induction h generalizing res with
  | done => rw [List.nil_append, toUtf16From8Loop_eq]; simp [End.ok, Spec.utf16Of]
  | cut ht =>
    obtain ⟨b, t, rfl, hb, hd⟩ := at_cut ht post
    rw [List.cons_append, toUtf16From8Loop_eq, if_neg hb, hd]
    simp [End.ok, Spec.utf16Of, isUtf16Encodable]
  | bad hne hf =>
    obtain ⟨b, t, c, rfl, hb, hd⟩ := at_bad hne hf post
    rw [List.cons_append, toUtf16From8Loop_eq, if_neg hb, hd]
    simp [End.ok]
  | @char bs s v vs e hc _ ih =>
    obtain ⟨b, t, x, rfl, hb, hd⟩ := at_char hc (s ++ 0 :: post)
    rw [List.append_assoc, List.cons_append, toUtf16From8Loop_eq, if_neg hb, hd]
    simp only [List.tail_cons, char_toNat hc, if_neg (char_ne_zero hc), isUtf16Encodable_iff]
    by_cases hv : v ≤ 0x10ffff
    · rw [if_neg (by simpa using hv), ih, rawEncodeUtf16_eq hv]
      simp [hv, Spec.utf16Of]
    · rw [if_pos hv, if_neg]
      simp only [List.forall_mem_cons]
      exact fun h => hv h.2.1

/-! ## `toUcs2` -/

theorem toUcs2From8Loop_eq (b : Byte) (t : List Byte) (res : List U16) :
    toUcs2From8Loop (b :: t) res =
      if b = 0 then .ok res
      else match decodeUtf8 (b :: t) with
        | .ub => .ub
        | .ok (_, none) => .ok []
        | .ok (c, some q) =>
          if c.toNat > 0xffff then .ok []
          else if c = 0 then .ok res
          else toUcs2From8Loop q.tail (res ++ [BitVec.ofNat 16 c.toNat]) := by
  rw [toUcs2From8Loop]
  split
  · rfl
  · split <;> simp_all

theorem toUcs2_scan {s : List Byte} {vs : List Nat} {e : End} (h : Scan s vs e) (post : List Byte)
    (res : List U16) :
    toUcs2From8Loop (s ++ 0 :: post) res =
      .ok (if e.ok ∧ ∀ v ∈ vs, v ≤ 0xFFFF then res ++ Spec.ucs2Of vs else []) := by
  induction h generalizing res with
  | done => rw [List.nil_append, toUcs2From8Loop_eq]; simp [End.ok, Spec.ucs2Of]
  | cut ht =>
    obtain ⟨b, t, rfl, hb, hd⟩ := at_cut ht post
    rw [List.cons_append, toUcs2From8Loop_eq, if_neg hb, hd]
    simp [End.ok, Spec.ucs2Of]
  | bad hne hf =>
    obtain ⟨b, t, c, rfl, hb, hd⟩ := at_bad hne hf post
    rw [List.cons_append, toUcs2From8Loop_eq, if_neg hb, hd]
    simp [End.ok]
  | @char bs s v vs e hc _ ih =>
    obtain ⟨b, t, x, rfl, hb, hd⟩ := at_char hc (s ++ 0 :: post)
    rw [List.append_assoc, List.cons_append, toUcs2From8Loop_eq, if_neg hb, hd]
    simp only [List.tail_cons, char_toNat hc, if_neg (char_ne_zero hc)]
    by_cases hv : v ≤ 0xffff
    · rw [if_neg (by omega), ih]
      simp [hv, Spec.ucs2Of]
    · rw [if_pos (by omega), if_neg]
      simp only [List.forall_mem_cons]
      exact fun h => hv h.2.1

/-! ## `isUtf8` -/

/-- The flag of a target range. -/
def flagOf (r : Spec.Range) : Nat := rangeTypeToRangeFlag r.code

/-- The values the UTF-8 validator lets pass for a target range. -/
def Acc8 : Spec.Range → Nat → Prop
  | .ascii, v => v < 0x80
  | .ucs2, v => v < 0x10000
  | .unicode, v => v < 0x110000
  | .utf16, v => v < 0x140000
  | .utf8, v => v < 0x80000000
  | .ucs4, v => v < 0x80000000

instance (r : Spec.Range) (v : Nat) : Decidable (Acc8 r v) := by
  cases r <;> unfold Acc8 <;> infer_instance

/-- The first bytes the UTF-8 validator lets pass for a target range. -/
def Lead8 : Spec.Range → Nat → Prop
  | .ascii, b => b < 0x80
  | .ucs2, b => b < 0xF0
  | .unicode, b => b < 0xF5
  | .utf16, b => b < 0xF5
  | .utf8, b => b < 0xFE
  | .ucs4, b => b < 0xFE

instance (r : Spec.Range) (v : Nat) : Decidable (Lead8 r v) := by
  cases r <;> unfold Lead8 <;> infer_instance

theorem lead_flags (r : Spec.Range) {b : Nat} (hb : b < 0x80 ∨ 0xC0 ≤ b) :
    getRangeFlag8 b &&& flagOf r ≠ 0 ↔ Lead8 r b := by
  unfold getRangeFlag8
  by_cases h1 : b ≤ 0x7f
  · rw [if_pos h1]
    cases r <;> unfold Lead8 <;>
      exact iff_of_true (by decide) (by omega)
  rw [if_neg h1, if_neg (by omega)]
  by_cases h2 : b ≤ 0xef
  · rw [if_pos h2]
    cases r <;> unfold Lead8
    · exact iff_of_false (by decide) (by omega)
    all_goals exact iff_of_true (by decide) (by omega)
  rw [if_neg h2]
  by_cases h3 : b ≤ 0xf4
  · rw [if_pos (by omega)]
    cases r <;> unfold Lead8
    · exact iff_of_false (by decide) (by omega)
    · exact iff_of_true (by decide) (by omega)
    · exact iff_of_false (by decide) (by omega)
    all_goals exact iff_of_true (by decide) (by omega)
  rw [if_neg (by omega)]
  by_cases h4 : b ≤ 0xfd
  · rw [if_pos (by omega)]
    cases r <;> unfold Lead8
    · exact iff_of_false (by decide) (by omega)
    · exact iff_of_true (by decide) (by omega)
    · exact iff_of_false (by decide) (by omega)
    · exact iff_of_false (by decide) (by omega)
    · exact iff_of_true (by decide) (by omega)
    · exact iff_of_false (by decide) (by omega)
  rw [if_neg (by omega)]
  cases r <;> unfold Lead8 <;> exact iff_of_false (by decide) (by omega)

/-- The numbers the flags of a decoded value let pass for a target range. -/
def AccFlags : Spec.Range → Nat → Prop
  | .ascii, v => v < 0x80
  | .ucs2, v => v < 0x10000
  | .unicode, v => v < 0x110000
  | .utf16, v => v < 0x200000
  | .utf8, v => v < 0x80000000
  | .ucs4, _ => True

instance (r : Spec.Range) (v : Nat) : Decidable (AccFlags r v) := by
  cases r <;> unfold AccFlags <;> infer_instance

theorem surrogate_flags (r : Spec.Range) {v : Nat} (hs : Surrogate v) :
    getCharEncodableRangeFlags v &&& flagOf r = 0 := by
  unfold Surrogate at hs
  unfold getCharEncodableRangeFlags
  rw [if_neg (by omega), if_pos (by omega)]
  cases r <;> decide

theorem char_flags (r : Spec.Range) {v : Nat} (hv : v < 2 ^ 32) (hs : ¬ Surrogate v) :
    getCharEncodableRangeFlags v &&& flagOf r ≠ 0 ↔ AccFlags r v := by
  unfold Surrogate at hs
  unfold getCharEncodableRangeFlags getUnicodeEncodableRangeFlag
  by_cases h1 : v ≤ 0x7f
  · rw [if_pos h1]
    cases r <;> unfold AccFlags <;>
      exact iff_of_true (by decide) (by first | trivial | omega)
  rw [if_neg h1, if_neg (by omega)]
  by_cases h2 : v < 0x10000
  · rw [if_pos h2]
    cases r <;> unfold AccFlags
    · exact iff_of_false (by decide) (by omega)
    all_goals exact iff_of_true (by decide) (by first | trivial | omega)
  rw [if_neg h2]
  by_cases h3 : v < 0x110000
  · rw [if_pos (by omega), if_pos (by omega)]
    cases r <;> unfold AccFlags
    · exact iff_of_false (by decide) (by omega)
    · exact iff_of_true (by decide) (by first | trivial | omega)
    · exact iff_of_false (by decide) (by omega)
    all_goals exact iff_of_true (by decide) (by first | trivial | omega)
  by_cases h4 : v < 0x200000
  · rw [if_pos h4, if_neg (by omega)]
    cases r <;> unfold AccFlags
    · exact iff_of_false (by decide) (by omega)
    · exact iff_of_true (by decide) (by first | trivial | omega)
    · exact iff_of_false (by decide) (by omega)
    · exact iff_of_true (by decide) (by first | trivial | omega)
    · exact iff_of_true (by decide) (by first | trivial | omega)
    · exact iff_of_false (by decide) (by omega)
  rw [if_neg h4]
  by_cases h5 : v < 0x80000000
  · rw [if_pos ((and_80000000 hv).2 h5)]
    cases r <;> unfold AccFlags
    · exact iff_of_false (by decide) (by omega)
    · exact iff_of_true (by decide) (by first | trivial | omega)
    · exact iff_of_false (by decide) (by omega)
    · exact iff_of_false (by decide) (by omega)
    · exact iff_of_true (by decide) (by first | trivial | omega)
    · exact iff_of_false (by decide) (by omega)
  · rw [if_neg (fun h => h5 ((and_80000000 hv).1 h))]
    cases r <;> unfold AccFlags
    · exact iff_of_false (by decide) (by omega)
    · exact iff_of_false (by decide) (by omega)
    · exact iff_of_false (by decide) (by omega)
    · exact iff_of_false (by decide) (by omega)
    · exact iff_of_true (by decide) (by first | trivial | omega)
    · exact iff_of_false (by decide) (by omega)

/-- The first byte of an encoding, as a number. -/
theorem utf8_head {v : Nat} {b : Byte} {t : List Byte} (h : Spec.utf8 v = b :: t)
    (hv : v ≤ 0x7FFFFFFF) :
    b.toNat = if v < 0x80 then v else if v < 0x800 then 0xC0 + v / 0x40
      else if v < 0x10000 then 0xE0 + v / 0x1000 else if v < 0x200000 then 0xF0 + v / 0x40000
      else if v < 0x4000000 then 0xF8 + v / 0x1000000 else 0xFC + v / 0x40000000 := by
  unfold Spec.utf8 Spec.utf8Values at h
  have key : ∀ {n : Nat} {l : List Nat}, List.map (BitVec.ofNat 8) (n :: l) = b :: t → n < 256 →
      b.toNat = n := by
    intro n l e hn
    simp only [List.map_cons, List.cons.injEq] at e
    rw [← e.1, toNat_byte hn]
  by_cases h1 : v < 0x80
  · rw [if_pos h1] at h ⊢; exact key h (by omega)
  rw [if_neg h1] at h ⊢
  by_cases h2 : v < 0x800
  · rw [if_pos h2] at h ⊢; exact key h (by omega)
  rw [if_neg h2] at h ⊢
  by_cases h3 : v < 0x10000
  · rw [if_pos h3] at h ⊢; exact key h (by omega)
  rw [if_neg h3] at h ⊢
  by_cases h4 : v < 0x200000
  · rw [if_pos h4] at h ⊢; exact key h (by omega)
  rw [if_neg h4] at h ⊢
  by_cases h5 : v < 0x4000000
  · rw [if_pos h5] at h ⊢; exact key h (by omega)
  · rw [if_neg h5] at h ⊢; exact key h (by omega)

theorem pair_head {hi lo : Nat} {b : Byte} {t : List Byte} (hh : HighSurrogate hi)
    (h : Spec.utf8 hi ++ Spec.utf8 lo = b :: t) : b.toNat = 0xED := by
  obtain ⟨x, y, hx⟩ := cons_of_ne_nil (utf8_ne_nil hi)
  unfold HighSurrogate at hh
  rw [hx, List.cons_append] at h
  simp only [List.cons.injEq] at h
  rw [← h.1, utf8_head hx (by omega)]
  rw [if_neg (by omega), if_neg (by omega), if_pos (by omega)]
  omega

theorem char_head {b : Byte} {t : List Byte} {v : Nat} (hc : Utf8Char (b :: t) v) :
    b.toNat < 0x80 ∨ 0xC0 ≤ b.toNat := by
  generalize hb : b :: t = bs at hc
  cases hc with
  | plain hv =>
    rw [utf8_head hb.symm hv.2.1]
    have := hv.2.1
    repeat' split
    all_goals omega
  | pair hh hl => rw [pair_head hh hb.symm]; omega

/-- Both range tests of the UTF-8 validator on one character. -/
theorem accept_char (r : Spec.Range) {b : Byte} {t : List Byte} {v : Nat} (hc : Utf8Char (b :: t) v) :
    (Lead8 r b.toNat ∧ AccFlags r v) ↔ Acc8 r v := by
  generalize hb : b :: t = bs at hc
  cases hc with
  | plain hv =>
    have hv2 := hv.2.1
    have e := utf8_head hb.symm hv2
    have hlt : v < 0x80000000 := by omega
    cases r
    · unfold Lead8 AccFlags Acc8
      constructor
      · exact fun h => h.2
      · intro h; rw [if_pos h] at e; omega
    · unfold Lead8 AccFlags Acc8
      refine ⟨fun h => h.2, fun h => ⟨?_, h⟩⟩
      repeat' split at e
      all_goals omega
    · unfold Lead8 AccFlags Acc8
      refine ⟨fun h => h.2, fun h => ⟨?_, h⟩⟩
      repeat' split at e
      all_goals omega
    · unfold Lead8 AccFlags Acc8
      constructor
      · rintro ⟨h1, h2⟩
        repeat' split at e
        all_goals omega
      · intro h
        refine ⟨?_, by omega⟩
        repeat' split at e
        all_goals omega
    · unfold Lead8 AccFlags Acc8
      refine ⟨fun h => by omega, fun h => ⟨?_, trivial⟩⟩
      repeat' split at e
      all_goals omega
    · unfold Lead8 AccFlags Acc8
      refine ⟨fun h => h.2, fun h => ⟨?_, h⟩⟩
      repeat' split at e
      all_goals omega
  | pair hh hl =>
    have e := pair_head hh hb.symm
    have hv := pairValue_bounds hh hl
    rw [e]
    cases r <;> simp only [Lead8, AccFlags, Acc8, and_true] <;> omega

theorem call32_none (U : CharClass) {pred : Pred} (h : pred.eq Pred.none = true) (v : Nat) :
    pred.call32 U v = true := by
  unfold Pred.eq Pred.none at h
  simp only [Bool.and_eq_true, beq_iff_eq] at h
  unfold Pred.call32 Pred.test
  simp [h.1]

theorem call16_none (U : CharClass) {pred : Pred} (h : pred.eq Pred.none = true) (v : Nat) :
    pred.call16 U v = true := by
  unfold Pred.eq Pred.none at h
  simp only [Bool.and_eq_true, beq_iff_eq] at h
  unfold Pred.call16 Pred.test
  simp [h.1]

theorem pred32_reject (U : CharClass) (pred : Pred) (v : Nat) :
    (¬ pred.eq Pred.none = true ∧ ¬ pred.call32 U v = true) ↔ pred.call32 U v = false := by
  constructor
  · intro h; simpa using h.2
  · intro h
    refine ⟨fun hn => ?_, by simp [h]⟩
    rw [call32_none U hn] at h; exact absurd h (by decide)

theorem pred16_reject (U : CharClass) (pred : Pred) (v : Nat) :
    (¬ pred.eq Pred.none = true ∧ ¬ pred.call16 U v = true) ↔ pred.call16 U v = false := by
  constructor
  · intro h; simpa using h.2
  · intro h
    refine ⟨fun hn => ?_, by simp [h]⟩
    rw [call16_none U hn] at h; exact absurd h (by decide)

/-- The unfolding of the loop without length. -/
theorem isUtf8Loop_eq (U : CharClass) (f : Nat) (pred : Pred) (b : Byte) (t : List Byte)
    (l pl : Nat) :
    isUtf8Loop U false f pred (b :: t) l pl =
      if b = 0 then .ok true
      else if getRangeFlag8 b.toNat &&& f = 0 then .ok false
      else match decodeUtf8 (b :: t) with
        | .ub => .ub
        | .ok (_, none) => .ok false
        | .ok (c, some q) =>
          if c = 0 then (readAt q 0).bind fun b' => .ok (b' == 0)
          else if getCharEncodableRangeFlags c.toNat &&& f = 0 ∨ pred.call32 U c.toNat = false then
            .ok false
          else isUtf8Loop U false f pred q.tail l pl := by
  rw [isUtf8Loop]
  simp only [seqCheckIf, Bool.false_eq_true, if_false, false_and, Bool.not_false, pred32_reject]
  split
  · rfl
  · split
    · rfl
    · split <;> simp_all

/-- How the UTF-8 validator judges the end of the scan. -/
def EndOk (r : Spec.Range) : End → Prop
  | .done => True
  | .cut t => ∃ b t', t = b :: t' ∧ Lead8 r b.toNat
  | .bad _ => False

theorem isUtf8_scan (U : CharClass) (r : Spec.Range) (pred : Pred) {s : List Byte} {vs : List Nat}
    {e : End} (h : Scan s vs e) (post : List Byte) (l pl : Nat) :
    ∃ b, isUtf8Loop U false (flagOf r) pred (s ++ 0 :: post) l pl = .ok b ∧
      (b = true ↔ ((∀ v ∈ vs, Acc8 r v ∧ pred.call32 U v = true) ∧ EndOk r e)) := by
  induction h with
  | done => rw [List.nil_append, isUtf8Loop_eq]; simp [EndOk]
  | cut ht =>
    obtain ⟨b, t, rfl, hb, hd⟩ := at_cut ht post
    obtain ⟨b', t', heq, hb1, hb2⟩ := truncated_cons ht
    obtain ⟨rfl, rfl⟩ := List.cons.inj heq
    rw [List.cons_append, isUtf8Loop_eq, if_neg hb, hd]
    by_cases hl : Lead8 r b.toNat
    · rw [if_neg ((lead_flags r (by omega)).2 hl)]
      simp [EndOk, hl, readAt, Res.bind]
    · rw [if_pos (by have := mt (lead_flags r (by omega)).1 hl; omega)]
      simp [EndOk, hl]
  | bad hne hf =>
    obtain ⟨b, t, c, rfl, hb, hd⟩ := at_bad hne hf post
    rw [List.cons_append, isUtf8Loop_eq, if_neg hb, hd]
    refine ⟨false, ?_, by simp [EndOk]⟩
    split <;> rfl
  | @char bs s v vs e hc _ ih =>
    obtain ⟨b, t, x, rfl, hb, hd⟩ := at_char hc (s ++ 0 :: post)
    have henc := char_encodable hc
    have hlead := char_head hc
    have hacc := accept_char r hc
    have hcf := char_flags r (v := v) (by have := henc.2.1; omega) henc.2.2
    rw [List.append_assoc, List.cons_append, isUtf8Loop_eq, if_neg hb, hd]
    simp only [List.tail_cons, char_toNat hc, if_neg (char_ne_zero hc), List.forall_mem_cons]
    by_cases ha : Acc8 r v
    · obtain ⟨h1, h2⟩ := hacc.2 ha
      rw [if_neg ((lead_flags r hlead).2 h1)]
      have h2' := hcf.2 h2
      by_cases hp : pred.call32 U v = true
      · rw [if_neg (by rw [hp]; simp [h2'])]
        obtain ⟨b', hb1, hb2⟩ := ih
        exact ⟨b', hb1, by rw [hb2]; simp [ha, hp]⟩
      · rw [if_pos (.inr (by simpa using hp))]
        exact ⟨false, rfl, by simp [hp]⟩
    · refine ⟨false, ?_, by simp [ha]⟩
      by_cases h1 : Lead8 r b.toNat
      · rw [if_neg ((lead_flags r hlead).2 h1)]
        have h2 : ¬ AccFlags r v := fun h2 => ha (hacc.1 ⟨h1, h2⟩)
        rw [if_pos (.inl (by have := mt hcf.1 h2; omega))]
      · rw [if_pos (by have := mt (lead_flags r hlead).1 h1; omega)]

/-! ## `unicodeLength` -/

theorem unicodeLength8Loop_eq (b : Byte) (t : List Byte) (l pl r : Nat) :
    unicodeLength8Loop false (b :: t) l pl r =
      if b = 0 then .ok (uintOf r)
      else match decodeUtf8 (b :: t) with
        | .ub => .ub
        | .ok (_, none) => .ok 0
        | .ok (c, some q) =>
          if kUnicodeFlag &&& getCharEncodableRangeFlags c.toNat = 0 then .ok 0
          else if c = 0 then
            (readAt q 0).bind fun b' => .ok (if b' = 0 then uintOf r - 1 else 0)
          else unicodeLength8Loop false q.tail l pl (r + 1) := by
  rw [unicodeLength8Loop]
  simp only [seqCheckIf, Bool.false_eq_true, if_false]
  split
  · rfl
  · split <;> simp_all

/-- The value of the null-terminated count at the end of the scan. -/
def countEnd (n : Nat) : End → U32
  | .done => uintOf n
  | .cut _ => uintOf n - 1
  | .bad _ => 0

theorem unicodeLength8_scan {s : List Byte} {vs : List Nat}
    {e : End} (h : Scan s vs e) (post : List Byte) (l pl n : Nat) :
    unicodeLength8Loop false (s ++ 0 :: post) l pl n =
      .ok (if ∀ v ∈ vs, v ≤ 0x10FFFF then countEnd (n + vs.length) e else 0) := by
  induction h generalizing n with
  | done => rw [List.nil_append, unicodeLength8Loop_eq]; simp [countEnd]
  | cut ht =>
    obtain ⟨b, t, rfl, hb, hd⟩ := at_cut ht post
    rw [List.cons_append, unicodeLength8Loop_eq, if_neg hb, hd]
    have : kUnicodeFlag &&& getCharEncodableRangeFlags (0 : U32).toNat ≠ 0 := by decide
    simp only [if_neg this, readAt, Res.bind]
    simp [countEnd]
  | bad hne hf =>
    obtain ⟨b, t, c, rfl, hb, hd⟩ := at_bad hne hf post
    rw [List.cons_append, unicodeLength8Loop_eq, if_neg hb, hd]
    simp [countEnd]
  | @char bs s v vs e hc _ ih =>
    obtain ⟨b, t, x, rfl, hb, hd⟩ := at_char hc (s ++ 0 :: post)
    have henc := char_encodable hc
    have hcf := char_flags .unicode (v := v) (by have := henc.2.1; omega) henc.2.2
    rw [Nat.and_comm] at hcf
    rw [List.append_assoc, List.cons_append, unicodeLength8Loop_eq, if_neg hb, hd]
    simp only [List.tail_cons, char_toNat hc, if_neg (char_ne_zero hc), List.forall_mem_cons]
    have hfl : flagOf .unicode = kUnicodeFlag := by decide
    rw [hfl] at hcf
    simp only [AccFlags] at hcf
    by_cases hv : v ≤ 0x10FFFF
    · rw [if_neg (hcf.2 (by omega)), ih]
      simp only [hv, true_and, List.length_cons]
      have : n + 1 + vs.length = n + (vs.length + 1) := by omega
      rw [this]
    · have h0 : kUnicodeFlag &&& getCharEncodableRangeFlags v = 0 := by
        have := mt hcf.1 (by omega : ¬ v < 0x110000); omega
      rw [if_pos h0, if_neg (fun h => hv h.1)]

end Ansak
