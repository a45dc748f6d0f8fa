import Verif.Lemmas.Loops16

/-!
# The public functions on NUL-terminated buffers, in terms of the text before the NUL
-/

namespace Ansak

open Spec (NulFree Utf8Char Utf8Text Encodable HighSurrogate LowSurrogate Surrogate Scalar
  Utf8Incomplete Utf16Incomplete textOf)

/-! ## Buffers -/

theorem textOf_cons {w : Nat} {c : BitVec w} (h : c ≠ 0) (s : List (BitVec w)) :
    textOf (c :: s) = c :: textOf s := by
  unfold textOf
  rw [List.takeWhile_cons_of_pos (by simpa using h)]

theorem textOf_nulFree {w : Nat} (s : List (BitVec w)) : NulFree (textOf s) := by
  induction s with
  | nil => exact NulFree.nil
  | cons c s ih =>
    by_cases h : c = 0
    · subst h; exact NulFree.nil
    · rw [textOf_cons h]; exact NulFree.cons.2 ⟨h, ih⟩

theorem textOf_split {w : Nat} (s : List (BitVec w)) : s = textOf s ∨ ∃ r, s = textOf s ++ 0 :: r := by
  induction s with
  | nil => left; rfl
  | cons c s ih =>
    by_cases h : c = 0
    · right; subst h
      exact ⟨s, by simp [textOf]⟩
    · rw [textOf_cons h]
      rcases ih with ih | ⟨r, ih⟩
      · left; rw [← ih]
      · right; exact ⟨r, by rw [List.cons_append, ← ih]⟩

/-- Every `c_str()` is its text, a NUL, and something behind it. -/
theorem cStr_text {w : Nat} (s : List (BitVec w)) : ∃ post, cStr s = some (textOf s ++ 0 :: post) := by
  rcases textOf_split s with h | ⟨r, h⟩
  · exact ⟨[], by rw [← h]; rfl⟩
  · refine ⟨r ++ [0], ?_⟩
    unfold cStr
    rw [show s ++ [0] = (textOf s ++ 0 :: r) ++ [0] by rw [← h]]
    simp

theorem cStr_nulFree {w : Nat} {s : List (BitVec w)} (_ : NulFree s) : cStr s = some (s ++ 0 :: []) :=
  rfl

theorem textOf_of_nulFree {w : Nat} {s : List (BitVec w)} (h : NulFree s) : textOf s = s := by
  induction s with
  | nil => rfl
  | cons c s ih =>
    have ⟨h0, hs⟩ := NulFree.cons.1 h
    rw [textOf_cons h0, ih hs]

theorem ifNonEmpty_text {w : Nat} {β : Type} {s : List (BitVec w)} (hs : NulFree s)
    (post : List (BitVec w)) {loop : List (BitVec w) → Res (List β)}
    (h : loop (0 :: post) = .ok []) :
    ifNonEmpty (some (s ++ 0 :: post)) loop = loop (s ++ 0 :: post) := by
  cases s with
  | nil => simp [ifNonEmpty, readAt]; exact h.symm
  | cons c s =>
    have h0 : c ≠ 0 := (NulFree.cons.1 hs).1
    rw [List.cons_append]
    simp only [ifNonEmpty, readAt, List.getElem?_cons_zero, Res.bind_ok, if_neg h0]

/-! ## Conversions from UTF-8 -/

theorem toUcs4From8_text {s : List Byte} (hs : NulFree s) {vs : List Nat} {e : End}
    (h : Scan s vs e) (post : List Byte) :
    toUcs4From8 (some (s ++ 0 :: post)) = .ok (if e.ok then Spec.ucs4Of vs else []) := by
  unfold toUcs4From8
  rw [ifNonEmpty_text hs, toUcs4_scan h, List.nil_append]
  have := toUcs4_scan .done post []
  simpa [End.ok, Spec.ucs4Of] using this

theorem toUtf16From8_text {s : List Byte} (hs : NulFree s) {vs : List Nat} {e : End}
    (h : Scan s vs e) (post : List Byte) :
    toUtf16From8 (some (s ++ 0 :: post)) =
      .ok (if e.ok ∧ ∀ v ∈ vs, v ≤ 0x10FFFF then Spec.utf16Of vs else []) := by
  unfold toUtf16From8
  rw [ifNonEmpty_text hs, toUtf16_scan h, List.nil_append]
  have := toUtf16_scan .done post []
  simpa [End.ok, Spec.utf16Of] using this

theorem toUcs2From8_text {s : List Byte} (hs : NulFree s) {vs : List Nat} {e : End}
    (h : Scan s vs e) (post : List Byte) :
    toUcs2From8 (some (s ++ 0 :: post)) =
      .ok (if e.ok ∧ ∀ v ∈ vs, v ≤ 0xFFFF then Spec.ucs2Of vs else []) := by
  unfold toUcs2From8
  rw [ifNonEmpty_text hs, toUcs2_scan h, List.nil_append]
  have := toUcs2_scan .done post []
  simpa [End.ok, Spec.ucs2Of] using this

/-! ## Conversions from UTF-16 and UCS-4 -/

theorem toUcs4From16_text {s : List U16} (hs : NulFree s) {vs : List Nat} {e : End16}
    (h : Scan16 false s vs e) (post : List U16) :
    toUcs4From16 (some (s ++ 0 :: post)) = .ok (if e.ok then Spec.ucs4Of vs else []) := by
  unfold toUcs4From16
  rw [ifNonEmpty_text hs, toUcs4From16_scan h, List.nil_append]
  have := toUcs4From16_scan .done post []
  simpa [End16.ok, Spec.ucs4Of] using this

theorem toUtf8From16_text {s : List U16} (hs : NulFree s) {vs : List Nat} {e : End16}
    (h : Scan16 true s vs e) (post : List U16) :
    toUtf8From16 (some (s ++ 0 :: post)) = .ok (if e.ok then Spec.utf8Of vs else []) := by
  unfold toUtf8From16
  rw [ifNonEmpty_text hs, toUtf8From16_scan h, List.nil_append]
  have := toUtf8From16_scan .done post []
  simpa [End16.ok, Spec.utf8Of] using this

theorem toUtf8From32_buf {s : List U32} (hs : NulFree s) (post : List U32) :
    toUtf8From32 (some (s ++ 0 :: post)) =
      .ok (if ∀ c ∈ s, c.toNat ≤ 0x7FFFFFFF ∧ ¬ Surrogate c.toNat then
        Spec.utf8Of (vals s) else []) := by
  unfold toUtf8From32
  rw [ifNonEmpty_text hs, toUtf8From32_text hs, List.nil_append]
  have := toUtf8From32_text (s := []) (NulFree.nil) post []
  simpa [vals, Spec.utf8Of] using this

theorem toUcs2From32_buf {s : List U32} (hs : NulFree s) (post : List U32) :
    toUcs2From32 (some (s ++ 0 :: post)) =
      .ok (if ∀ c ∈ s, c.toNat ≤ 0xFFFF ∧ ¬ Surrogate c.toNat then
        Spec.ucs2Of (vals s) else []) := by
  unfold toUcs2From32
  rw [ifNonEmpty_text hs, toUcs2From32_text hs, List.nil_append]
  have := toUcs2From32_text (s := []) (NulFree.nil) post []
  simpa [vals, Spec.ucs2Of] using this

theorem toUtf16From32_buf {s : List U32} (hs : NulFree s) (post : List U32) :
    toUtf16From32 (some (s ++ 0 :: post)) =
      .ok (if ∀ c ∈ s, c.toNat ≤ 0x10FFFF ∧ ¬ Surrogate c.toNat then
        Spec.utf16Of (vals s) else []) := by
  unfold toUtf16From32
  rw [ifNonEmpty_text hs, toUtf16From32_text hs, List.nil_append]
  have := toUtf16From32_text (s := []) (NulFree.nil) post []
  simpa [vals, Spec.utf16Of] using this

/-! ## Validators -/

theorem code_legal (r : Spec.Range) : ¬ (r.code < kAscii ∨ r.code > kUnicode) := by
  cases r <;> decide

theorem isUtf8_text (U : CharClass) (r : Spec.Range) (pred : Pred) {s : List Byte} (hs : NulFree s)
    {vs : List Nat} {e : End} (h : Scan s vs e) (post : List Byte) :
    ∃ b, isUtf8 U (some (s ++ 0 :: post)) r.code pred = .ok b ∧
      (b = true ↔ ((∀ v ∈ vs, Acc8 r v ∧ pred.call32 U v = true) ∧ EndOk r e)) := by
  obtain ⟨b, hb1, hb2⟩ := isUtf8_scan U r pred h post 0 ((s ++ 0 :: post).length + 1)
  refine ⟨b, ?_, hb2⟩
  rw [← hb1]
  unfold isUtf8 isUtf8Internal
  simp only [if_neg (code_legal r)]
  cases s with
  | nil =>
    simp only [List.nil_append, readAt, List.getElem?_cons_zero, Res.bind_ok, if_true]
    rw [isUtf8Loop_eq, if_pos rfl]
  | cons c s =>
    have h0 : c ≠ 0 := (NulFree.cons.1 hs).1
    simp only [List.cons_append, readAt, List.getElem?_cons_zero, Res.bind_ok, if_neg h0]
    rfl

theorem isUtf16_text (U : CharClass) (r : Spec.Range) (pred : Pred) {s : List U16} (hs : NulFree s)
    {vs : List Nat} {e : End16} (h : Scan16 false s vs e) (post : List U16) :
    ∃ b, isUtf16 U (some (s ++ 0 :: post)) r.code pred = .ok b ∧
      (b = true ↔ ((∀ v ∈ vs, AccFlags r v ∧ pred.call16 U (predUnit v) = true) ∧ EndOk16 r e)) := by
  obtain ⟨b, hb1, hb2⟩ := isUtf16_scan U r pred h post
  refine ⟨b, ?_, hb2⟩
  rw [← hb1]
  unfold isUtf16
  rw [if_neg (code_legal r)]
  cases s with
  | nil =>
    simp only [List.nil_append, readAt, List.getElem?_cons_zero, Res.bind_ok, if_true]
    rw [isUtf16Loop.eq_def]; simp only [if_true]
  | cons c s =>
    have h0 : c ≠ 0 := (NulFree.cons.1 hs).1
    simp only [List.cons_append, readAt, List.getElem?_cons_zero, Res.bind_ok, if_neg h0]
    rfl

theorem isUcs2_buf (U : CharClass) (r : Spec.Range) (pred : Pred) {s : List U16} (hs : NulFree s)
    (post : List U16) :
    ∃ b, isUcs2 U (some (s ++ 0 :: post)) r.code pred = .ok b ∧
      (b = true ↔ ∀ c ∈ s, ¬ Surrogate c.toNat ∧ AccFlags r c.toNat ∧
        pred.call16 U c.toNat = true) := by
  obtain ⟨b, hb1, hb2⟩ := isUcs2_text U r pred hs post
  refine ⟨b, ?_, hb2⟩
  rw [← hb1]
  unfold isUcs2
  rw [if_neg (code_legal r)]
  cases s with
  | nil =>
    simp only [List.nil_append, readAt, List.getElem?_cons_zero, Res.bind_ok, if_true]
    rw [isUcs2Loop.eq_def]; simp only [if_true]
  | cons c s =>
    have h0 : c ≠ 0 := (NulFree.cons.1 hs).1
    simp only [List.cons_append, readAt, List.getElem?_cons_zero, Res.bind_ok, if_neg h0]
    rfl

theorem isUcs4_buf (U : CharClass) (r : Spec.Range) (pred : Pred) {s : List U32} (hs : NulFree s)
    (post : List U32) :
    ∃ b, isUcs4 U (some (s ++ 0 :: post)) r.code pred = .ok b ∧
      (b = true ↔ ∀ c ∈ s, ¬ Surrogate c.toNat ∧ AccFlags r c.toNat ∧
        pred.call32 U c.toNat = true) := by
  obtain ⟨b, hb1, hb2⟩ := isUcs4_text U r pred hs post
  refine ⟨b, ?_, hb2⟩
  rw [← hb1]
  unfold isUcs4
  rw [if_neg (code_legal r)]
  cases s with
  | nil =>
    simp only [List.nil_append, readAt, List.getElem?_cons_zero, Res.bind_ok, if_true]
    rw [isUcs4Loop.eq_def]; simp only [if_true]
  | cons c s =>
    have h0 : c ≠ 0 := (NulFree.cons.1 hs).1
    simp only [List.cons_append, readAt, List.getElem?_cons_zero, Res.bind_ok, if_neg h0]
    rfl

/-! ## Counting -/

theorem unicodeLength8_text {s : List Byte} (hs : NulFree s) {vs : List Nat} {e : End}
    (h : Scan s vs e) (post : List Byte) :
    unicodeLength8 (some (s ++ 0 :: post)) 0 =
      .ok (if ∀ v ∈ vs, v ≤ 0x10FFFF then countEnd vs.length e else 0) := by
  have key := unicodeLength8_scan h post 0 ((s ++ 0 :: post).length + 1) 0
  rw [Nat.zero_add] at key
  rw [← key]
  unfold unicodeLength8
  cases s with
  | nil =>
    simp only [List.nil_append, readAt, List.getElem?_cons_zero, Res.bind_ok, if_true]
    rw [unicodeLength8Loop_eq, if_pos rfl]; rfl
  | cons c s =>
    have h0 : c ≠ 0 := (NulFree.cons.1 hs).1
    simp only [List.cons_append, readAt, List.getElem?_cons_zero, Res.bind_ok, if_neg h0]
    rfl

theorem unicodeLength16_text {s : List U16} {vs : List Nat} {e : End16}
    (h : Scan16 false s vs e) (post : List U16) :
    unicodeLength16 (some (s ++ 0 :: post)) 0 = .ok (countEnd16 vs.length e) := by
  have key := unicodeLength16_scan h post 0 0
  rw [Nat.zero_add] at key
  exact key

theorem unicodeLength32_buf {s : List U32} (hs : NulFree s) (post : List U32) :
    unicodeLength32 (some (s ++ 0 :: post)) 0 =
      .ok (if ∀ c ∈ s, ¬ Surrogate c.toNat then uintOf s.length else 0) := by
  have key := unicodeLength32_text hs post 0 0
  rw [Nat.zero_add] at key
  exact key

/-! ## Incomplete characters -/

theorem utf8_shape {v : Nat} (h1 : 0x80 ≤ v) (h2 : v ≤ 0x7FFFFFFF) :
    ∃ b cs, Spec.utf8 v = b :: cs ∧ (∀ c ∈ cs, IsCont c) ∧ cs.length + 1 = announced b := by
  have cont : ∀ n : Nat, n < 0x40 → IsCont (BitVec.ofNat 8 (0x80 + n)) := by
    intro n hn; unfold IsCont; rw [BitVec.toNat_ofNat]; omega
  have m := fun x : Nat => Nat.mod_lt x (show 0x40 > 0 by decide)
  unfold Spec.utf8 Spec.utf8Values
  rw [if_neg (by omega)]
  split
  · refine ⟨_, _, rfl, ?_, ?_⟩
    · simp only [List.map_cons, List.map_nil, List.mem_cons, List.not_mem_nil, or_false, forall_eq]
      exact cont _ (m _)
    · rw [announced_two] <;> simp only [BitVec.toNat_ofNat, List.map_cons, List.map_nil,
        List.length_cons, List.length_nil] <;> omega
  split
  · refine ⟨_, _, rfl, ?_, ?_⟩
    · simp only [List.map_cons, List.map_nil, List.mem_cons, List.not_mem_nil, or_false,
        forall_eq_or_imp, forall_eq]
      exact ⟨cont _ (m _), cont _ (m _)⟩
    · rw [announced_three] <;> simp only [BitVec.toNat_ofNat, List.map_cons, List.map_nil,
        List.length_cons, List.length_nil] <;> omega
  split
  · refine ⟨_, _, rfl, ?_, ?_⟩
    · simp only [List.map_cons, List.map_nil, List.mem_cons, List.not_mem_nil, or_false,
        forall_eq_or_imp, forall_eq]
      exact ⟨cont _ (m _), cont _ (m _), cont _ (m _)⟩
    · rw [announced_four] <;> simp only [BitVec.toNat_ofNat, List.map_cons, List.map_nil,
        List.length_cons, List.length_nil] <;> omega
  split
  · refine ⟨_, _, rfl, ?_, ?_⟩
    · simp only [List.map_cons, List.map_nil, List.mem_cons, List.not_mem_nil, or_false,
        forall_eq_or_imp, forall_eq]
      exact ⟨cont _ (m _), cont _ (m _), cont _ (m _), cont _ (m _)⟩
    · rw [announced_five] <;> simp only [BitVec.toNat_ofNat, List.map_cons, List.map_nil,
        List.length_cons, List.length_nil] <;> omega
  · refine ⟨_, _, rfl, ?_, ?_⟩
    · simp only [List.map_cons, List.map_nil, List.mem_cons, List.not_mem_nil, or_false,
        forall_eq_or_imp, forall_eq]
      exact ⟨cont _ (m _), cont _ (m _), cont _ (m _), cont _ (m _), cont _ (m _)⟩
    · rw [announced_six] <;> simp only [BitVec.toNat_ofNat, List.map_cons, List.map_nil,
        List.length_cons, List.length_nil] <;> omega

theorem truncated_of_prefix {b : Byte} {cs t more : List Byte} (hc : ∀ c ∈ cs, IsCont c)
    (hl : cs.length + 1 = announced b) (ht : t ≠ []) (hm : more ≠ []) (h : b :: cs = t ++ more) :
    Truncated t := by
  cases t with
  | nil => exact absurd rfl ht
  | cons x t =>
    rw [List.cons_append, List.cons.injEq] at h
    obtain ⟨rfl, rfl⟩ := h
    refine .short (fun c hc' => hc c (by simp [hc'])) ?_
    rw [← hl, List.length_append]
    have := List.length_pos_iff.2 hm
    omega

theorem incomplete_truncated {P : Nat → Prop} {t : List Byte} (h : Utf8Incomplete P t) :
    Truncated t := by
  obtain ⟨ht, bs, v, more, hc, _, hm, e⟩ := h
  cases hc with
  | plain hv =>
    by_cases hv1 : v < 0x80
    · have : Spec.utf8 v = [BitVec.ofNat 8 v] := by simp [Spec.utf8, Spec.utf8Values, hv1]
      rw [this] at e
      cases t with
      | nil => exact absurd rfl ht
      | cons x t =>
        rw [List.cons_append, List.cons.injEq] at e
        exact absurd (List.append_eq_nil_iff.1 e.2.symm).2 hm
    · obtain ⟨b, cs, e', hcs, hl⟩ := utf8_shape (v := v) (by omega) hv.2.1
      rw [e'] at e
      exact truncated_of_prefix hcs hl ht hm e
  | @pair hi lo hh hl =>
    unfold HighSurrogate at hh; unfold LowSurrogate at hl
    rw [utf8_three (v := hi) (by omega) (by omega), utf8_three (v := lo) (by omega) (by omega)] at e
    have c1 : (BitVec.ofNat 8 (0xE0 + hi / 0x1000)).toNat = 0xED := by
      rw [BitVec.toNat_ofNat]; omega
    have c2 : 0xA0 ≤ (BitVec.ofNat 8 (0x80 + hi / 0x40 % 0x40)).toNat ∧
        (BitVec.ofNat 8 (0x80 + hi / 0x40 % 0x40)).toNat ≤ 0xAF := by
      rw [BitVec.toNat_ofNat]; omega
    have c3 : IsCont (BitVec.ofNat 8 (0x80 + hi % 0x40)) := by
      unfold IsCont; rw [BitVec.toNat_ofNat]; omega
    have c4 : 0xE0 ≤ (BitVec.ofNat 8 (0xE0 + lo / 0x1000)).toNat ∧
        (BitVec.ofNat 8 (0xE0 + lo / 0x1000)).toNat ≤ 0xEF := by
      rw [BitVec.toNat_ofNat]; omega
    have c5 : IsCont (BitVec.ofNat 8 (0x80 + lo / 0x40 % 0x40)) := by
      unfold IsCont; rw [BitVec.toNat_ofNat]; omega
    have c2' : IsCont (BitVec.ofNat 8 (0x80 + hi / 0x40 % 0x40)) := by unfold IsCont; omega
    have ha : announced (BitVec.ofNat 8 (0xE0 + hi / 0x1000)) = 3 :=
      announced_three (by omega) (by omega)
    revert e
    generalize BitVec.ofNat 8 (0xE0 + hi / 0x1000) = b0 at *
    generalize BitVec.ofNat 8 (0x80 + hi / 0x40 % 0x40) = b1 at *
    generalize BitVec.ofNat 8 (0x80 + hi % 0x40) = b2 at *
    generalize BitVec.ofNat 8 (0xE0 + lo / 0x1000) = b3 at *
    generalize BitVec.ofNat 8 (0x80 + lo / 0x40 % 0x40) = b4 at *
    generalize BitVec.ofNat 8 (0x80 + lo % 0x40) = b5 at *
    intro e
    rcases t with _ | ⟨x0, _ | ⟨x1, _ | ⟨x2, _ | ⟨x3, _ | ⟨x4, _ | ⟨x5, t⟩⟩⟩⟩⟩⟩
    · exact absurd rfl ht
    · simp only [List.cons_append, List.nil_append, List.cons.injEq] at e
      obtain ⟨rfl, _⟩ := e
      exact .short conts_nil (by rw [ha]; simp)
    · simp only [List.cons_append, List.nil_append, List.cons.injEq] at e
      obtain ⟨rfl, rfl, _⟩ := e
      exact .short (conts_cons c2'.1 c2'.2 conts_nil) (by rw [ha]; simp)
    · simp only [List.cons_append, List.nil_append, List.cons.injEq] at e
      obtain ⟨rfl, rfl, rfl, _⟩ := e
      exact .half0 c1 c2.1 c2.2 c3
    · simp only [List.cons_append, List.nil_append, List.cons.injEq] at e
      obtain ⟨rfl, rfl, rfl, rfl, _⟩ := e
      exact .half1 c1 c2.1 c2.2 c3 c4.1 c4.2
    · simp only [List.cons_append, List.nil_append, List.cons.injEq] at e
      obtain ⟨rfl, rfl, rfl, rfl, rfl, _⟩ := e
      exact .half2 c1 c2.1 c2.2 c3 c4.1 c4.2 c5
    · simp only [List.cons_append, List.nil_append, List.cons.injEq] at e
      exact absurd (List.append_eq_nil_iff.1 e.2.2.2.2.2.2.symm).2 hm

theorem has_acc8 {r : Spec.Range} {v : Nat} (hv : Encodable v) (h : r.Has v) : Acc8 r v := by
  have := hv.2.1
  cases r <;> simp only [Spec.Range.Has, Acc8] at * <;> omega

theorem has_accFlags {r : Spec.Range} {v : Nat} (h : r.Has v) : AccFlags r v := by
  cases r <;> simp only [Spec.Range.Has, AccFlags] at * <;> omega

theorem incomplete_lead {r : Spec.Range} {t : List Byte} (h : Utf8Incomplete r.Has t) :
    ∃ b t', t = b :: t' ∧ Lead8 r b.toNat := by
  obtain ⟨ht, bs, v, more, hc, hP, hm, e⟩ := h
  obtain ⟨b, t', rfl⟩ := cons_of_ne_nil ht
  subst e
  have := (accept_char r hc).2 (has_acc8 (char_encodable hc) hP)
  exact ⟨b, t', rfl, this.1⟩

end Ansak
