import Verif.Lemmas.LengthEntry
import Verif.Lemmas.Bounds

/-!
# C11, C21, C22: the length-terminated functions

`p` is always what the caller passes, `n` its length, and `x` the memory that follows it.
-/

namespace Ansak.Props

open Spec (NulFree Utf8Char Utf8Text Surrogate HighSurrogate LowSurrogate LooksLow wanted NoChar CutByNul
  TailOk EndsInThree EndsInUnit Truncated Utf8Incomplete Scalar utf16Of Utf16Incomplete)

/-! ## C21: validation -/

/-- Every byte string is well-formed text followed by a rest at which no character starts, so the next
theorem covers every input. -/
theorem C21_covers (p : List Byte) :
    ∃ a vs t, p = a ++ t ∧ Utf8Text a vs ∧ (t = [] ∨ NoChar t) := text_split p

/-- Exactly what `isUtf8(p, n)` accepts. Missing from the full property: for some tails the answer
differs from that of the NUL-terminated function (see `C21_agrees_partial` and the violations). -/
theorem C21_exact_partial (U : CharClass) (pred : Pred) {a t : List Byte} {vs : List Nat}
    (ha : Utf8Text a vs) (ht : t = [] ∨ NoChar t) (hne : a ++ t ≠ []) {n : U32}
    (hlen : n.toNat = (a ++ t).length) (x : List Byte) (hx : x ≠ []) :
    isUtf8Len U (some (a ++ t ++ x)) n pred = .ok true ↔
      (a ++ t).head? = some 0 ∨ ((∀ v ∈ vs, pred.call32 U v = true) ∧ (t = [] ∨ TailOk t)) := by
  have := isUtf8Len_buf U pred ha ht hne hlen x (OneMore.of_ne hx)
  rw [List.append_assoc]
  exact ok_true_iff this

/-- Complete text: the answer is that of the NUL-terminated function, and nothing after the `n` bytes
is read. -/
theorem C21_complete (U : CharClass) (pred : Pred) {p : List Byte} {vs : List Nat}
    (hp : Utf8Text p vs) (hne : p ≠ []) {n : U32} (hlen : n.toNat = p.length) (x : List Byte) :
    isUtf8Len U (some (p ++ x)) n pred = isUtf8S U p kUtf8 pred ∧
    (isUtf8Len U (some (p ++ x)) n pred = .ok true ↔ ∀ v ∈ vs, pred.call32 U v = true) := by
  have h1 := isUtf8Len_buf U pred hp (t := []) (.inl rfl) (by simpa using hne) (n := n)
    (by simpa using hlen) x (fun _ _ e => by simp at e)
  have hnul : ¬ (p ++ []).head? = some 0 := fun h => hne (head_nul hp h).1
  rw [or_iff_right hnul] at h1
  simp only [List.nil_append, true_or, and_true] at h1
  refine ⟨?_, ok_true_iff h1⟩
  have hnf := text_nulFree hp
  have h2 := isUtf8S_any U .utf8 pred (s := p) (vs := vs) (e := .done)
    (by rw [textOf_of_nulFree hnf]; exact scan_of_text hp)
  obtain ⟨b, hb1, hb2⟩ := h1
  obtain ⟨c, hc1, hc2⟩ := h2
  rw [hb1, show isUtf8S U p kUtf8 pred = .ok c from hc1]
  congr 1
  rw [Bool.eq_iff_iff, hb2, hc2]
  constructor
  · exact fun h => ⟨fun v hv => ⟨by
      have := (text_encodable hp v hv).2.1; unfold Acc8; omega, h v hv⟩, trivial⟩
  · exact fun h v hv => (h.1 v hv).2

example : Utf8Text (Spec.utf8Of [0x41, 0x20AC]) [0x41, 0x20AC] ∧
    Spec.utf8Of [0x41, 0x20AC] = [0x41, 0xE2, 0x82, 0xAC] :=
  ⟨text_utf8Of (by decide), by decide⟩

/-- Agreement on NUL-free input. Missing from the full property: rests of fewer than six bytes at which
no character starts and which are not truncated sequences, and truncated sequences that begin like a
low surrogate. -/
theorem C21_agrees_partial (U : CharClass) (pred : Pred) {a t : List Byte} {vs : List Nat}
    (ha : Utf8Text a vs) (hnf : NulFree (a ++ t))
    (ht : (Truncated t ∧ ¬ LooksLow t) ∨ (NoChar t ∧ 6 ≤ t.length)) {n : U32}
    (hlen : n.toNat = (a ++ t).length) (x : List Byte) (hx : x ≠ []) :
    isUtf8Len U (some (a ++ t ++ x)) n pred = isUtf8S U (a ++ t) kUtf8 pred := by
  have hno : NoChar t := ht.elim (fun h => noChar_truncated h.1) (·.1)
  have htn : t ≠ [] := by
    rcases ht with h | h
    · exact truncated_ne_nil h.1
    · rintro rfl; simp at h
  have htf := (NulFree.append.1 hnf).2
  have hnul : ¬ (a ++ t).head? = some 0 := fun h => hnf 0 (List.mem_of_mem_head? h) rfl
  have h1 := isUtf8Len_buf U pred ha (.inr hno) (by simp [htn]) hlen x (OneMore.of_ne hx)
  rw [or_iff_right hnul, or_iff_right htn] at h1
  rw [← List.append_assoc] at h1
  obtain ⟨b, hb1, hb2⟩ := h1
  have hacc : ∀ v ∈ vs, Acc8 .utf8 v := fun v hv => by
    have := (text_encodable ha v hv).2.1; unfold Acc8; omega
  rcases ht with ⟨ht, hlo⟩ | ⟨_, h6⟩
  · have h2 := isUtf8S_any U .utf8 pred (s := a ++ t) (vs := vs) (e := .cut t)
      (by rw [textOf_of_nulFree hnf]; exact scan_of_cut ha ht)
    obtain ⟨c, hc1, hc2⟩ := h2
    rw [hb1, show isUtf8S U (a ++ t) kUtf8 pred = .ok c from hc1]
    congr 1
    rw [Bool.eq_iff_iff, hb2, hc2]
    obtain ⟨b0, t', e, hb1, hb2⟩ := truncated_cons ht
    constructor
    · exact fun h => ⟨fun v hv => ⟨hacc v hv, h.1 v hv⟩, b0, t', e, by unfold Lead8; omega⟩
    · exact fun h => ⟨fun v hv => (h.1 v hv).2, b0, t', e, hb1, hb2, hlo, .inl (truncated_wanted ht)⟩
  · have hfail : Fails t := by
      rcases decode_cases htf htn with ⟨bs, v, rest, e, hc⟩ | h | h
      · exact absurd ⟨bs, v, rest, e, hc⟩ hno
      · have := truncated_short h; omega
      · exact h
    have hsc : Scan (a ++ t) vs (.bad t) := by
      have := scan_text_append ha (.bad htn hfail)
      rwa [List.append_nil] at this
    have h2 := isUtf8S_any U .utf8 pred (s := a ++ t) (vs := vs) (e := .bad t)
      (by rw [textOf_of_nulFree hnf]; exact hsc)
    have h2 : isUtf8S U (a ++ t) kUtf8 pred = .ok false := ok_false_of h2 (fun h => h.2)
    rw [hb1, h2]
    congr 1
    rw [Bool.eq_false_iff]
    intro h
    obtain ⟨_, b0, t', e, h3, h4, _, h5⟩ := hb2.1 h
    subst e
    rcases h5 with h5 | h5
    · have := wanted_le t' h3 h4; omega
    · exact not_cutByNul htf h5

example : (Truncated [0xE2, 0x82] ∧ ¬ LooksLow [0xE2, 0x82]) ∧ NulFree ([0x41] ++ [0xE2, 0x82] : List Byte) :=
  ⟨⟨.short (by decide) (by decide), by decide⟩, by decide⟩

/-- A NUL right after non-empty complete text is rejected. Missing from the full property: a NUL at the
very start, and a NUL inside a sequence. -/
theorem C21_nul_partial (U : CharClass) (pred : Pred) {a w : List Byte} {vs : List Nat}
    (ha : Utf8Text a vs) (hne : a ≠ []) {n : U32} (hlen : n.toNat = (a ++ 0 :: w).length)
    (x : List Byte) (hx : x ≠ []) :
    isUtf8Len U (some (a ++ 0 :: w ++ x)) n pred = .ok false := by
  have h1 := isUtf8Len_buf U pred ha (.inr (noChar_nul w)) (by simp) hlen x (OneMore.of_ne hx)
  rw [← List.append_assoc] at h1
  refine ok_false_of h1 ?_
  rintro (h | ⟨_, h⟩)
  · exact hne (head_nul ha h).1
  · rcases h with h | ⟨b, t', e, h3, _⟩
    · simp at h
    · rw [List.cons.injEq] at e
      rw [← e.1] at h3
      exact absurd h3 (by decide)

example : Utf8Text [0x41] [0x41] ∧ (3#32).toNat = ([0x41] ++ 0 :: [0x42] : List Byte).length :=
  ⟨text_utf8Of (vs := [0x41]) (by decide), by decide⟩

/-- Violations of C21 with a NUL among the bytes: one inside a sequence, one at the start. -/
theorem C21_nul_violated (U : CharClass) :
    isUtf8Len U (some [0xC3, 0x00, 0x41]) 3 Pred.none = .ok true ∧
    isUtf8Len U (some [0x00, 0x80]) 2 Pred.none = .ok true := by
  refine ⟨?_, rfl⟩
  show isUtf8Loop U true _ _ [0xC3, 0x00, 0x41] 3 4 = _
  rw [isUtf8Loop_len_eq]; rfl

/-- Violations of C21 without NULs: malformed text that only the NUL-terminated function rejects
(`ED 20 80`, `E0 41`), and a truncated sequence that only the length-terminated one rejects (`ED B0`).
The byte `00` after the text is not part of it. -/
theorem C21_agrees_violated (U : CharClass) :
    (isUtf8Len U (some [0xED, 0x20, 0x80, 0x00]) 3 Pred.none = .ok true ∧
      isUtf8S U [0xED, 0x20, 0x80] kUtf8 Pred.none = .ok false) ∧
    (isUtf8Len U (some [0xE0, 0x41, 0x00]) 2 Pred.none = .ok true ∧
      isUtf8S U [0xE0, 0x41] kUtf8 Pred.none = .ok false) ∧
    (isUtf8Len U (some [0xED, 0xB0, 0x00]) 2 Pred.none = .ok false ∧
      isUtf8S U [0xED, 0xB0] kUtf8 Pred.none = .ok true) := by
  refine ⟨⟨?_, ?_⟩, ⟨?_, ?_⟩, ⟨?_, ?_⟩⟩
  · show isUtf8Loop U true _ _ [0xED, 0x20, 0x80, 0x00] 3 5 = _
    rw [isUtf8Loop_len_eq]; rfl
  · show isUtf8Loop U false _ _ [0xED, 0x20, 0x80, 0x00] 0 5 = _
    rw [isUtf8Loop_eq]; rfl
  · show isUtf8Loop U true _ _ [0xE0, 0x41, 0x00] 2 4 = _
    rw [isUtf8Loop_len_eq]; rfl
  · show isUtf8Loop U false _ _ [0xE0, 0x41, 0x00] 0 4 = _
    rw [isUtf8Loop_eq]; rfl
  · show isUtf8Loop U true _ _ [0xED, 0xB0, 0x00] 2 4 = _
    rw [isUtf8Loop_len_eq]; rfl
  · show isUtf8Loop U false _ _ [0xED, 0xB0, 0x00] 0 4 = _
    rw [isUtf8Loop_eq]; rfl

/-- interface/string.hxx:274 says that `isUtf8(p, n)` "always targets kUnicode". It targets `kUtf8`: the
five bytes of 0x200000 are accepted. -/
theorem C21_unicode_only_violated (U : CharClass) :
    isUtf8Len U (some [0xF8, 0x88, 0x80, 0x80, 0x80]) 5 Pred.none = .ok true ∧
    isUtf8S U [0xF8, 0x88, 0x80, 0x80, 0x80] kUnicode Pred.none = .ok false := by
  constructor
  · show isUtf8Loop U true _ _ [0xF8, 0x88, 0x80, 0x80, 0x80] 5 6 = _
    rw [isUtf8Loop_len_eq]; rfl
  · show isUtf8Loop U false _ _ [0xF8, 0x88, 0x80, 0x80, 0x80, 0x00] 0 7 = _
    rw [isUtf8Loop_eq]; rfl

/-! ## C22: counting -/

/-- Complete Unicode text in UTF-8: the number of characters, whatever follows the `n` bytes (nothing
after them is read). -/
theorem C22_utf8_complete {p : List Byte} {vs : List Nat} (hp : Utf8Text p vs) (hne : p ≠ [])
    (hv : ∀ v ∈ vs, v ≤ 0x10FFFF) {n : U32} (hlen : n.toNat = p.length) (x : List Byte) :
    ∃ r, unicodeLength8 (some (p ++ x)) n = .ok r ∧ r.toNat = vs.length ∧
      unicodeLength8S p = .ok r := by
  refine ⟨_, unicodeLength8_valid hp hne hlen hv x, ?_, ?_⟩
  · have := text_length_le hp
    have := n.isLt
    unfold uintOf; rw [BitVec.toNat_ofNat]; omega
  · have := unicodeLength8_text (text_nulFree hp) (scan_of_text hp) []
    rw [if_pos hv] at this
    exact this

example : ∃ r, unicodeLength8 (some ([0x41, 0xE2, 0x82, 0xAC] ++ [0xFF])) 4 = .ok r ∧ r.toNat = 2 := by
  obtain ⟨r, h1, h2, _⟩ := C22_utf8_complete (text_utf8Of (vs := [0x41, 0x20AC]) (by decide))
    (by decide) (by decide) (n := 4) (by decide) [0xFF]
  exact ⟨r, h1, h2⟩

/-- Unicode text followed by a truncated sequence: the number of complete characters. Missing: a truncated
sequence that begins like a low surrogate (which cannot start a character). -/
theorem C22_utf8_truncated_partial {a t : List Byte} {vs : List Nat} (ha : Utf8Text a vs)
    (ht : Truncated t) (hlo : ¬ LooksLow t) (hv : ∀ v ∈ vs, v ≤ 0x10FFFF) {n : U32}
    (hlen : n.toNat = (a ++ t).length) (x : List Byte) (hx : x ≠ []) :
    ∃ r, unicodeLength8 (some (a ++ t ++ x)) n = .ok r ∧ r.toNat = vs.length := by
  have hnf := NulFree.append.2 ⟨text_nulFree ha, truncated_nulFree ht⟩
  rw [List.append_assoc, unicodeLength8_tail ha (truncated_ne_nil ht) hlen
    (fun h => hnf 0 (List.mem_of_mem_head? h) rfl), if_pos hv]
  obtain ⟨b, t, rfl⟩ := cons_of_ne_nil (truncated_ne_nil ht)
  obtain ⟨r, h1, _, h2, _⟩ := unicodeLength8Loop_tail (noChar_truncated ht)
    (NulFree.cons.1 (truncated_nulFree ht)).1 x (OneMore.of_ne hx) ((b :: t ++ x).length + 1) vs.length
  refine ⟨r, h1, ?_⟩
  rw [h2 hlo (truncated_wanted ht)]
  have := text_length_le ha
  have := n.isLt
  rw [List.length_append] at hlen
  unfold uintOf; rw [BitVec.toNat_ofNat]; omega

example : Truncated [0xE2, 0x82] ∧ ¬ LooksLow [0xE2, 0x82] :=
  ⟨.short (by decide) (by decide), by decide⟩

/-- Text with a character above U+10FFFF counts 0. -/
theorem C22_utf8_not_unicode {a t : List Byte} {vs : List Nat} (ha : Utf8Text a vs)
    (hv : ¬ ∀ v ∈ vs, v ≤ 0x10FFFF) {n : U32} (hlen : n.toNat = (a ++ t).length) (x : List Byte) :
    unicodeLength8 (some (a ++ t ++ x)) n = .ok 0 := by
  have hane : a ≠ [] := by
    rintro rfl
    have := (text_eq_nil_iff ha).1 rfl
    subst this
    exact hv (by simp)
  have hne : a ++ t ≠ [] := by simp [hane]
  have h32 := n.isLt
  rw [unicodeLength8_buf hne hlen]
  split
  · rfl
  · rw [List.append_assoc, unicodeLength8Loop_text ha hne x (by omega) 0, if_neg hv]

example : Utf8Text (Spec.utf8Of [0x110000]) [0x110000] ∧ ¬ ∀ v ∈ [0x110000], v ≤ 0x10FFFF :=
  ⟨text_utf8Of (by decide), by decide⟩

/-- Malformed text counts 0. Missing from the full property: a rest that starts with a byte that cannot
start a character (`80..BF`, `FE`, `FF`), and rests of fewer than six bytes. -/
theorem C22_utf8_malformed_partial {a t : List Byte} {b : Byte} {vs : List Nat} (ha : Utf8Text a vs)
    (hno : NoChar (b :: t)) (hnf : NulFree (b :: t)) (h1 : 0xC0 ≤ b.toNat) (h2 : b.toNat ≤ 0xFD)
    (h6 : 6 ≤ (b :: t).length) {n : U32}
    (hlen : n.toNat = (a ++ b :: t).length) (x : List Byte) (hx : x ≠ []) :
    unicodeLength8 (some (a ++ b :: t ++ x)) n = .ok 0 := by
  have hnf' := NulFree.append.2 ⟨text_nulFree ha, hnf⟩
  rw [List.append_assoc, unicodeLength8_tail ha (by simp) hlen
    (fun h => hnf' 0 (List.mem_of_mem_head? h) rfl)]
  split
  · obtain ⟨r, h3, h4, _, _, h5⟩ := unicodeLength8Loop_tail hno (NulFree.cons.1 hnf).1 x
      (OneMore.of_ne hx) ((b :: t ++ x).length + 1) vs.length
    rw [show unicodeLength8Loop true (b :: t ++ x) _ _ _ = _ from h3]
    congr 1
    by_cases hlo : LooksLow (b :: t)
    · exact h4 hlo
    · refine h5 hlo ?_ (not_cutByNul hnf)
      have := wanted_le t h1 h2
      omega
  · rfl

example : NoChar [0xC3, 0x41, 0x41, 0x41, 0x41, 0x41] := by
  rintro ⟨bs, v, rest, e, hc⟩
  exact malformed_not_char (.broken (cs := []) (s := [0x41, 0x41, 0x41, 0x41])
    (b := 0xC3) (c := 0x41) (by decide) (by decide) (by decide)) hc e

/-- A NUL after complete text counts 0. Missing from the full property: a NUL inside a sequence. -/
theorem C22_utf8_nul_partial {a w : List Byte} {vs : List Nat} (ha : Utf8Text a vs) {n : U32}
    (hlen : n.toNat = (a ++ 0 :: w).length) (x : List Byte) :
    unicodeLength8 (some (a ++ 0 :: w ++ x)) n = .ok 0 := by
  have hne : a ++ 0 :: w ≠ [] := by simp
  have h32 := n.isLt
  rw [unicodeLength8_buf hne hlen]
  split
  · rfl
  · rw [List.append_assoc, unicodeLength8Loop_text ha hne x (by omega) 0]
    split
    · rw [if_neg (by simp), List.cons_append, unicodeLength8Loop_len_eq, if_pos rfl]
    · rfl

/-- Violations of C22 in UTF-8: an invalid byte at the end ends the count instead of making it 0; a NUL
inside a sequence makes the count -1. -/
theorem C22_utf8_violated :
    unicodeLength8 (some [0x41, 0x80]) 2 = .ok 1 ∧
    unicodeLength8 (some [0xE0, 0x41, 0x00]) 2 = .ok 0 ∧
    unicodeLength8 (some [0x41, 0xE0, 0x41, 0x00]) 3 = .ok 1 ∧
    unicodeLength8 (some [0xC3, 0x00, 0x41]) 3 = .ok 0xFFFFFFFF := by
  have step : ∀ (b : Byte) (t : List Byte) (l pl n : Nat), unicodeLength8Loop true (b :: t) l pl n = _ :=
    unicodeLength8Loop_len_eq
  refine ⟨?_, ?_, ?_, ?_⟩
  · show unicodeLength8Loop true [0x41, 0x80] 2 3 0 = _
    rw [step]
    show unicodeLength8Loop true [0x80] 1 2 1 = _
    rw [step]; rfl
  · show unicodeLength8Loop true [0xE0, 0x41, 0x00] 2 4 0 = _
    rw [step]; rfl
  · show unicodeLength8Loop true [0x41, 0xE0, 0x41, 0x00] 3 5 0 = _
    rw [step]
    show unicodeLength8Loop true [0xE0, 0x41, 0x00] 2 4 1 = _
    rw [step]; rfl
  · show unicodeLength8Loop true [0xC3, 0x00, 0x41] 3 4 0 = _
    rw [step]; rfl

/-- UTF-16 without a NUL: the number of characters if the text is well-formed (a high surrogate at the
end being ignored), 0 otherwise. -/
theorem C22_utf16 {p : List U16} (hne : p ≠ []) (hnf : NulFree p) {n : U32} (hlen : n.toNat = p.length)
    (x : List U16) (hx : x ≠ []) :
    (∀ vs t, p = utf16Of vs ++ t → (∀ v ∈ vs, Scalar v) → (t = [] ∨ Utf16Incomplete t) →
      ∃ r, unicodeLength16 (some (p ++ x)) n = .ok r ∧ r.toNat = vs.length) ∧
    ((¬ ∃ vs t, p = utf16Of vs ++ t ∧ (∀ v ∈ vs, Scalar v) ∧ (t = [] ∨ Utf16Incomplete t)) →
      unicodeLength16 (some (p ++ x)) n = .ok 0) := by
  have h32 := n.isLt
  constructor
  · rintro vs t rfl hv ht
    have hle : vs.length ≤ (utf16Of vs ++ t).length := by
      have : ∀ ws : List Nat, ws.length ≤ (utf16Of ws).length := by
        intro ws
        induction ws with
        | nil => simp
        | cons w ws ih =>
          have e : utf16Of (w :: ws) = Spec.utf16 w ++ utf16Of ws := rfl
          have : 0 < (Spec.utf16 w).length := by unfold Spec.utf16; split <;> simp
          rw [e, List.length_append, List.length_cons]; omega
      have := this vs
      rw [List.length_append]; omega
    have hr : (uintOf vs.length).toNat = vs.length := by
      unfold uintOf; rw [BitVec.toNat_ofNat]; omega
    refine ⟨uintOf vs.length, ?_, hr⟩
    rw [List.append_assoc, unicodeLength16_prefix hv hne hlen x (OneMore16.of_ne hx)]
    rcases ht with rfl | ⟨h, rfl, hh⟩
    · rw [if_pos rfl]
    · rw [if_neg (by simp)]
      exact unicodeLength16_cut hh x vs.length
  · intro hn
    obtain ⟨vs, t, rfl, hv, ht⟩ := text_split16 p
    rw [List.append_assoc, unicodeLength16_prefix hv hne hlen x (OneMore16.of_ne hx)]
    rcases ht with h | h | ⟨s, rfl⟩ | ⟨c, s, rfl, hl⟩ | ⟨h, c, s, rfl, hh, hl⟩
    · exact absurd ⟨vs, t, rfl, hv, .inl h⟩ hn
    · exact absurd ⟨vs, t, rfl, hv, .inr h⟩ hn
    · exact absurd rfl (hnf 0 (by simp))
    · rw [if_neg (by simp)]; exact unicodeLength16_low hl _ _ _
    · rw [if_neg (by simp)]
      have := unicodeLength16_high hh hl (s ++ x) (l := (h :: c :: s).length) (by simp) vs.length
      rw [if_neg (hnf c (by simp))] at this
      exact this

example : NulFree ([0x41, 0xD83D, 0xDE00] : List U16) ∧
    [0x41, 0xD83D, 0xDE00] = utf16Of [0x41, 0x1F600] := by decide

/-- A NUL after complete text counts 0. Missing: a NUL after a high surrogate. -/
theorem C22_utf16_nul_partial {vs : List Nat} (hv : ∀ v ∈ vs, Scalar v) (w : List U16) {n : U32}
    (hlen : n.toNat = (utf16Of vs ++ 0 :: w).length) (x : List U16) (hx : x ≠ []) :
    unicodeLength16 (some (utf16Of vs ++ 0 :: w ++ x)) n = .ok 0 := by
  rw [List.append_assoc, unicodeLength16_prefix hv (by simp) hlen x (OneMore16.of_ne hx),
    if_neg (by simp)]
  exact unicodeLength16_nul _ _ _

/-- Violation of C22 in UTF-16: a NUL after a high surrogate makes the count -1. -/
theorem C22_utf16_violated : unicodeLength16 (some [0xD83D, 0x0000]) 2 = .ok 0xFFFFFFFF := by decide

/-- UCS-4. Missing from the full property: values above U+10FFFF are counted. -/
theorem C22_ucs4_partial {p : List U32} (hne : p ≠ []) {n : U32} (hlen : n.toNat = p.length)
    (x : List U32) :
    unicodeLength32 (some (p ++ x)) n =
      .ok (if ∀ c ∈ p, c ≠ 0 ∧ ¬ Surrogate c.toNat then n else 0) :=
  unicodeLength32_lenBuf hne hlen x

example : unicodeLength32 (some ([0x41, 0x1F600] ++ [0xD800])) 2 = .ok 2 ∧
    unicodeLength32 (some ([0x41, 0] ++ [])) 2 = .ok 0 := by decide

/-- Violation of C22 in UCS-4. -/
theorem C22_ucs4_violated : unicodeLength32 (some [0x110000]) 1 = .ok 1 := by decide

/-! ## C11: bounds -/

/-- `isUtf8(p, n)`: there is a result, and it does not depend on what follows the `n` bytes, as long as
there is a readable byte after them or they do not end in the start of a three-byte character. Missing
from the full property: that case. -/
theorem C11_isUtf8_partial (U : CharClass) (pred : Pred) {n : U32} (hn : n ≠ 0) {p : List Byte}
    (hlen : n.toNat = p.length) :
    ∃ b, ∀ x, (EndsInThree p → x ≠ []) → isUtf8Len U (some (p ++ x)) n pred = .ok b := by
  have hne := ne_nil_of_length hn hlen
  obtain ⟨a, vs, t, rfl, ha, ht⟩ := text_split p
  have hx : ∀ x, (EndsInThree (a ++ t) → x ≠ []) → OneMore t x :=
    fun x h b c e h1 h2 => h ⟨a, b, c, by rw [e], h1, h2⟩
  by_cases hP : (a ++ t).head? = some 0 ∨ ((∀ v ∈ vs, pred.call32 U v = true) ∧ (t = [] ∨ TailOk t))
  · exact ⟨true, fun x h => by
      rw [List.append_assoc]; exact ok_true_of (isUtf8Len_buf U pred ha ht hne hlen x (hx x h)) hP⟩
  · exact ⟨false, fun x h => by
      rw [List.append_assoc]; exact ok_false_of (isUtf8Len_buf U pred ha ht hne hlen x (hx x h)) hP⟩

/-- `unicodeLength(p, n)` in UTF-8: the same. -/
theorem C11_unicodeLength8_partial {n : U32} (hn : n ≠ 0) {p : List Byte} (hlen : n.toNat = p.length) :
    ∃ r, ∀ x, (EndsInThree p → x ≠ []) → unicodeLength8 (some (p ++ x)) n = .ok r := by
  have hne := ne_nil_of_length hn hlen
  by_cases h0 : p.head? = some 0
  · exact ⟨0, fun x _ => by rw [unicodeLength8_buf hne hlen, if_pos h0]⟩
  obtain ⟨a, vs, t, rfl, ha, ht⟩ := text_split p
  by_cases hv : ∀ v ∈ vs, v ≤ 0x10FFFF
  · rcases ht with rfl | ht
    · refine ⟨uintOf vs.length, fun x _ => ?_⟩
      rw [List.append_nil] at *
      exact unicodeLength8_valid ha hne hlen hv x
    · match t with
      | [] =>
        refine ⟨uintOf vs.length, fun x _ => ?_⟩
        rw [List.append_nil] at *
        exact unicodeLength8_valid ha hne hlen hv x
      | b :: t =>
        by_cases hb : b = 0
        · subst hb
          exact ⟨0, fun x _ => C22_utf8_nul_partial ha hlen x⟩
        · classical
          have key : ∀ x, (EndsInThree (a ++ b :: t) → x ≠ []) →
              ∃ r, unicodeLength8 (some (a ++ b :: t ++ x)) n = .ok r ∧
                r = if LooksLow (b :: t) then 0 else if (b :: t).length < wanted (b :: t) then
                  uintOf vs.length else if CutByNul (b :: t) then uintOf vs.length - 1 else 0 := by
            intro x h
            obtain ⟨r, h1, h2, h3, h4, h5⟩ := unicodeLength8Loop_tail ht hb x
              (fun b' c e h1 h2 => h ⟨a, b', c, by rw [e], h1, h2⟩)
              ((b :: t ++ x).length + 1) vs.length
            refine ⟨r, ?_, ?_⟩
            · rw [List.append_assoc, unicodeLength8_tail ha (by simp) hlen h0, if_pos hv]
              exact h1
            · split
              · exact h2 ‹_›
              · split
                · exact h3 ‹_› ‹_›
                · split
                  · exact h4 ‹_› ‹_› ‹_›
                  · exact h5 ‹_› ‹_› ‹_›
          exact ⟨_, fun x h => by obtain ⟨r, h1, h2⟩ := key x h; rw [h1, h2]⟩
  · exact ⟨0, fun x _ => C22_utf8_not_unicode ha hv hlen x⟩

/-- `unicodeLength(p, n)` in UTF-16: the same, as long as there is a readable unit after the `n` units or
the last unit is half of a surrogate pair. Missing from the full property: that case, which is the usual
one. -/
theorem C11_unicodeLength16_partial {n : U32} (hn : n ≠ 0) {p : List U16} (hlen : n.toNat = p.length) :
    ∃ r, ∀ x, (EndsInUnit p → x ≠ []) → unicodeLength16 (some (p ++ x)) n = .ok r := by
  have hne := ne_nil_of_length hn hlen
  obtain ⟨vs, t, rfl, hv, ht⟩ := text_split16 p
  have key : ∀ x, (EndsInUnit (utf16Of vs ++ t) → x ≠ []) →
      unicodeLength16 (some (utf16Of vs ++ t ++ x)) n =
        if t = [] then .ok (uintOf vs.length)
        else unicodeLength16Loop true (t ++ x) t.length vs.length := by
    intro x h
    rw [List.append_assoc]
    exact unicodeLength16_prefix hv hne hlen x (fun pre c e hc => h ⟨pre, c, e, hc⟩)
  rcases ht with rfl | ⟨h, rfl, hh⟩ | ⟨s, rfl⟩ | ⟨c, s, rfl, hl⟩ | ⟨h, c, s, rfl, hh, hl⟩
  · exact ⟨_, fun x h => by rw [key x h, if_pos rfl]⟩
  · exact ⟨_, fun x h' => by rw [key x h', if_neg (by simp)]; exact unicodeLength16_cut hh x _⟩
  · exact ⟨_, fun x h' => by rw [key x h', if_neg (by simp)]; exact unicodeLength16_nul _ _ _⟩
  · exact ⟨_, fun x h' => by rw [key x h', if_neg (by simp)]; exact unicodeLength16_low hl _ _ _⟩
  · exact ⟨_, fun x h' => by
      rw [key x h', if_neg (by simp)]
      exact unicodeLength16_high hh hl (s ++ x) (l := (h :: c :: s).length) (by simp) vs.length⟩

/-- `unicodeLength(p, n)` in UCS-4 stays in bounds. -/
theorem C11_unicodeLength32 {n : U32} (hn : n ≠ 0) {p : List U32} (hlen : n.toNat = p.length) :
    ∃ r, ∀ x, unicodeLength32 (some (p ++ x)) n = .ok r :=
  ⟨_, fun x => unicodeLength32_lenBuf (ne_nil_of_length hn hlen) hlen x⟩

example : (3#32).toNat = ([0xE2, 0x82, 0xAC] : List Byte).length ∧ ¬ EndsInUnit [0xD83D, 0xDE00] := by
  refine ⟨rfl, ?_⟩
  rintro ⟨pre, c, e, hc⟩
  have : [0xD83D, 0xDE00] = ([0xD83D] : List U16) ++ [0xDE00] := rfl
  rw [this] at e
  have := (List.append_inj' e rfl).2
  rw [List.cons.injEq] at this
  rw [← this.1] at hc
  exact hc (by decide)

/-- Violations of C11: in a buffer of exactly `n` units the functions read past its end, even for the
one-letter UTF-16 string "A". -/
theorem C11_violated (U : CharClass) (pred : Pred) :
    isUtf8Len U (some [0xE0, 0xA0]) 2 pred = .ub ∧
    unicodeLength8 (some [0xE0, 0xA0]) 2 = .ub ∧
    unicodeLength16 (some [0x41]) 1 = .ub := by
  refine ⟨?_, ?_, by decide⟩
  · show isUtf8Loop U true _ _ [0xE0, 0xA0] 2 3 = _
    rw [isUtf8Loop_len_eq]; rfl
  · show unicodeLength8Loop true [0xE0, 0xA0] 2 3 0 = _
    rw [unicodeLength8Loop_len_eq]; rfl

/-- Every non-empty UTF-16 text that does not end in a surrogate pair is over-read. -/
theorem C11_unicodeLength16_violated {vs : List Nat} (hv : ∀ v ∈ vs, Scalar v) {c : U16} (h0 : c ≠ 0)
    (hc : ¬ Surrogate c.toNat) {n : U32} (hlen : n.toNat = (utf16Of vs ++ [c]).length) :
    unicodeLength16 (some (utf16Of vs ++ [c])) n = .ub := by
  have hne : utf16Of vs ++ [c] ≠ [] := by simp
  have h32 := n.isLt
  have := unicodeLength16_buf hne hlen []
  rw [List.append_nil] at this
  rw [this]
  exact unicodeLength16_over hv h0 hc (by omega) 0

/-- A length of 0 makes `isUtf8` and `unicodeLength` read up to a NUL: they are the NUL-terminated
functions. (The property only speaks of `n > 0`.) -/
theorem C11_zero (U : CharClass) (pred : Pred) (p : Ptr Byte) :
    isUtf8Len U p 0 pred = isUtf8 U p kUtf8 pred := by
  rfl

end Ansak.Props
