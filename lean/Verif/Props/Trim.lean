import Verif.Lemmas.Trim

/-!
# C33, C34: trimming
-/

namespace Ansak.Props

open Spec (TrimmedTo TrimBlank Scalar Encodable utf8Of utf16Of ucs4Of Utf8Reads Utf8Text)

/-- `TrimmedTo` determines its result. -/
theorem C33_unique {α : Type} {blank : α → Prop} {s r r' : List α} (h : TrimmedTo blank s r)
    (h' : TrimmedTo blank s r') : r = r' := trimmedTo_unique h h'

/-- `trim(s)` removes exactly the outer spaces. -/
theorem C33_trim {w : Nat} (s : List (BitVec w)) : TrimmedTo (· = 0x20) s (trim s) :=
  trim_trimmedTo (fun _ => decide_eq_true_iff) s

/-- `trim(s, spaces)` removes exactly the outer characters that are in `spaces`. -/
theorem C33_trimOf {w : Nat} (s spaces : List (BitVec w)) : TrimmedTo (· ∈ spaces) s (trimOf s spaces) :=
  trim_trimmedTo (fun _ => decide_eq_true_iff) s

/-- `trimAscii7WhiteSpace` removes exactly the outer tabs, line feeds, carriage returns and spaces. -/
theorem C33_trimAscii7WhiteSpace (s : List Byte) :
    TrimmedTo (fun c => c = 0x09 ∨ c = 0x0A ∨ c = 0x0D ∨ c = 0x20) s (trimAscii7WhiteSpace s) :=
  trim_trimmedTo (fun c => by simp [findFirstOf]) s

/-- `trimWhiteSpace` for UTF-16 and UCS-4 removes exactly the outer blanks. -/
theorem C33_trimWhiteSpace (s : List U16) (t : List U32) :
    TrimmedTo (fun c => TrimBlank c.toNat) s (trimWhiteSpace16 s) ∧
    TrimmedTo (fun c => TrimBlank c.toNat) t (trimWhiteSpace32 t) :=
  ⟨trim_trimmedTo spaces16_mem s, trim_trimmedTo spaces32_mem t⟩

/-- Trimming again changes nothing. -/
theorem C33_idempotent {w : Nat} (s spaces : List (BitVec w)) (s16 : List U16) (s32 : List U32) (s8 : List Byte) :
    trim (trim s) = trim s ∧ trimOf (trimOf s spaces) spaces = trimOf s spaces ∧
    trimWhiteSpace16 (trimWhiteSpace16 s16) = trimWhiteSpace16 s16 ∧
    trimWhiteSpace32 (trimWhiteSpace32 s32) = trimWhiteSpace32 s32 ∧
    trimAscii7WhiteSpace (trimAscii7WhiteSpace s8) = trimAscii7WhiteSpace s8 :=
  ⟨trimmedTo_unique (C33_trim _) (trimmedTo_self (C33_trim s)),
   trimmedTo_unique (C33_trimOf _ _) (trimmedTo_self (C33_trimOf s spaces)),
   trimmedTo_unique (C33_trimWhiteSpace _ []).1 (trimmedTo_self (C33_trimWhiteSpace s16 []).1),
   trimmedTo_unique (C33_trimWhiteSpace [] _).2 (trimmedTo_self (C33_trimWhiteSpace [] s32).2),
   trimmedTo_unique (C33_trimAscii7WhiteSpace _) (trimmedTo_self (C33_trimAscii7WhiteSpace s8))⟩

example : TrimmedTo (· = 0x20) ([0x20, 0x61, 0x20, 0x62, 0x20] : List Byte) [0x61, 0x20, 0x62] :=
  ⟨⟨[0x20], [0x20], rfl, by decide, by decide⟩, by simp, by simp⟩

/-- UTF-8: for text whose characters are `pre ++ ws ++ suf`, with `pre` and `suf` its maximal runs of
outer blanks, the result is the encoding of `ws`. -/
theorem C34_utf8 {vs ws : List Nat} (hv : ∀ v ∈ vs, Scalar v) (h : TrimmedTo TrimBlank vs ws) :
    trimWhiteSpace8 (utf8Of vs) = .ok (utf8Of ws) := by
  unfold trimWhiteSpace8
  rw [toUtf16From8S_utf8Of hv, Res.bind_ok]
  have := trimmedTo_unique (C33_trimWhiteSpace (utf16Of vs) []).1 (trimmedTo_utf16 hv h)
  rw [this]
  obtain ⟨⟨pre, suf, e, _, _⟩, _⟩ := h
  exact toUtf8From16S_utf16Of fun v hw => hv v (by rw [e]; simp [hw])

/-- The same in terms of the library's own conversions: for canonical UTF-8 without characters above
U+10FFFF, decoding and then trimming is trimming and then decoding. -/
theorem C34_commutes {vs : List Nat} (hv : ∀ v ∈ vs, Scalar v) :
    (toUcs4From8S (utf8Of vs)).map trimWhiteSpace32 = (trimWhiteSpace8 (utf8Of vs)).bind toUcs4From8S := by
  have he : ∀ v ∈ vs, Encodable v := fun v h => scalar_encodable (hv v h)
  have ht := trim_trimmedTo (P := TrimBlank) (blank := fun v => decide (TrimBlank v))
    (fun _ => decide_eq_true_iff) vs
  generalize trimFront _ (trimBack _ vs) = ws at ht
  obtain ⟨⟨pre, suf, e, hp, hs⟩, hh, hl⟩ := id ht
  have hw : ∀ v ∈ ws, Encodable v := fun v h => he v (by rw [e]; simp [h])
  rw [C34_utf8 hv ht, toUcs4From8S_utf8Of he, Res.bind_ok, toUcs4From8S_utf8Of hw]
  show Res.ok _ = _
  congr 1
  refine trimmedTo_unique (C33_trimWhiteSpace [] _).2 ?_
  have val : ∀ v, Encodable v → (BitVec.ofNat 32 v).toNat = v := fun v h => by
    have := h.2.1; rw [BitVec.toNat_ofNat]; omega
  have blank : ∀ l : List Nat, (∀ v ∈ l, TrimBlank v) → (∀ v ∈ l, Encodable v) →
      ∀ c ∈ ucs4Of l, TrimBlank c.toNat := by
    intro l hb hl c hc
    exact hb _ (mem_ucs4Of hl c hc)
  refine ⟨⟨ucs4Of pre, ucs4Of suf, ?_, ?_, ?_⟩, ?_, ?_⟩
  · rw [e]; unfold ucs4Of; rw [List.map_append, List.map_append]
  · exact blank pre hp fun v h => he v (by rw [e]; simp [h])
  · exact blank suf hs fun v h => he v (by rw [e]; simp [h])
  · intro c hc
    unfold ucs4Of at hc
    rw [List.head?_map, Option.map_eq_some_iff] at hc
    obtain ⟨v, hv, rfl⟩ := hc
    show ¬ TrimBlank (BitVec.ofNat 32 v).toNat
    rw [val v (hw v (List.mem_of_head? hv))]
    exact hh v hv
  · intro c hc
    unfold ucs4Of at hc
    rw [List.getLast?_map, Option.map_eq_some_iff] at hc
    obtain ⟨v, hv, rfl⟩ := hc
    show ¬ TrimBlank (BitVec.ofNat 32 v).toNat
    rw [val v (hw v (List.mem_of_getLast? hv))]
    exact hl v hv

example : trimWhiteSpace8 [0xC2, 0xA0, 0x41, 0x20, 0xE2, 0x82, 0xAC, 0x0A] = .ok [0x41, 0x20, 0xE2, 0x82, 0xAC] :=
  C34_utf8 (vs := [0xA0, 0x41, 0x20, 0x20AC, 0x0A]) (ws := [0x41, 0x20, 0x20AC]) (by decide)
    ⟨⟨[0xA0], [0x0A], rfl, by decide, by decide⟩, by simp; decide, by simp; decide⟩

/-- Any byte string: everything after the first NUL is lost, a truncated sequence at the end is lost, and
the text is re-encoded canonically. The result is empty for malformed text and for text with characters
above U+10FFFF. (The property speaks of valid UTF-8; `isUtf8` accepts characters up to 0x7FFFFFFF, pairs of
encoded surrogates and truncated sequences as well.) -/
theorem C34_any_partial (s : List Byte) :
    (∀ vs t, Utf8Reads (Spec.textOf s) vs t → (∀ v ∈ vs, v ≤ 0x10FFFF) →
      trimWhiteSpace8 s = trimWhiteSpace8 (utf8Of vs)) ∧
    ((¬ ∃ vs t, Utf8Reads (Spec.textOf s) vs t ∧ ∀ v ∈ vs, v ≤ 0x10FFFF) → trimWhiteSpace8 s = .ok []) := by
  obtain ⟨vs, e, hsc, _, h16, _⟩ := toUcs4From8S_any s
  have hsv : ∀ ws t, Utf8Reads (Spec.textOf s) ws t → ws = vs ∧ e.ok := by
    intro ws t hr
    have := scan_unique (scan_of_reads hr) hsc
    refine ⟨this.1, ?_⟩
    rw [← this.2]
    unfold endOf; split <;> rfl
  constructor
  · intro ws t hr hle
    obtain ⟨rfl, hok⟩ := hsv ws t hr
    obtain ⟨a, _, ha, _⟩ := hr
    have hws : ∀ v ∈ ws, Scalar v := fun v h => encodable_scalar (text_encodable ha v h) (hle v h)
    unfold trimWhiteSpace8
    rw [h16, if_pos ⟨hok, hle⟩, toUtf16From8S_utf8Of hws]
  · intro hn
    have : ¬ (e.ok ∧ ∀ v ∈ vs, v ≤ 0x10FFFF) := by
      rintro ⟨hok, hle⟩
      rcases reads_of_scan hsc with ⟨t, _, hr⟩ | ⟨t, rfl⟩
      · exact hn ⟨vs, t, hr, hle⟩
      · exact absurd hok Bool.false_ne_true
    unfold trimWhiteSpace8
    rw [h16, if_neg this]
    show toUtf8From16S (trimFront _ (trimBack _ [])) = _
    rw [trimBack_nil]
    rfl

/-- Violations of C34 for strings that `isUtf8` accepts: text beyond U+10FFFF is emptied, an encoded
surrogate pair is re-encoded. -/
theorem C34_violated (U : CharClass) :
    (isUtf8S U [0xF4, 0x90, 0x80, 0x80] kUtf8 Pred.none = .ok true ∧
      trimWhiteSpace8 [0xF4, 0x90, 0x80, 0x80] = .ok []) ∧
    (isUtf8S U [0xED, 0xA0, 0xBD, 0xED, 0xB8, 0x80] kUtf8 Pred.none = .ok true ∧
      trimWhiteSpace8 [0xED, 0xA0, 0xBD, 0xED, 0xB8, 0x80] = .ok [0xF0, 0x9F, 0x98, 0x80]) := by
  have t1 : Utf8Text [0xF4, 0x90, 0x80, 0x80] [0x110000] :=
    .cons (bs := [0xF4, 0x90, 0x80, 0x80]) (.plain (v := 0x110000) (by decide)) .nil
  have t2 : Utf8Text [0xED, 0xA0, 0xBD, 0xED, 0xB8, 0x80] [0x1F600] :=
    .cons (bs := [0xED, 0xA0, 0xBD, 0xED, 0xB8, 0x80])
      (.pair (hi := 0xD83D) (lo := 0xDE00) (by decide) (by decide)) .nil
  have valid : ∀ {s v}, Utf8Text s [v] → Spec.textOf s = s → isUtf8S U s kUtf8 Pred.none = .ok true := by
    intro s v ht he
    refine ok_true_of (isUtf8S_any U .utf8 Pred.none (e := .done) (by rw [he]; exact scan_of_text ht)) ⟨?_, trivial⟩
    intro w hw
    have := (text_encodable ht w hw).2.1
    exact ⟨by unfold Acc8; omega, rfl⟩
  refine ⟨⟨valid t1 (by decide), (C34_any_partial _).2 ?_⟩, valid t2 (by decide), ?_⟩
  · rintro ⟨vs, t, hr, hle⟩
    have he : Spec.textOf [0xF4, 0x90, 0x80, 0x80] = ([0xF4, 0x90, 0x80, 0x80] : List Byte) := by decide
    rw [he] at hr
    have := (scan_unique (scan_of_reads hr) (scan_of_text t1)).1
    subst this
    exact absurd (hle 0x110000 (by simp)) (by decide)
  · have he : Spec.textOf [0xED, 0xA0, 0xBD, 0xED, 0xB8, 0x80] =
        ([0xED, 0xA0, 0xBD, 0xED, 0xB8, 0x80] : List Byte) := by decide
    rw [(C34_any_partial _).1 [0x1F600] [] (by rw [he]; exact reads_done t2) (by decide)]
    exact C34_utf8 (vs := [0x1F600]) (ws := [0x1F600]) (by decide)
      ⟨⟨[], [], rfl, by simp, by simp⟩, by simp; decide, by simp; decide⟩

end Ansak.Props
