import Verif.Model.Defaults
import Verif.Lemmas.Compose
import Verif.Props.Unicode
import Verif.Props.Trim

/-!
# C48: leaving the target range out; C49: what `trimWhiteSpace` takes for white space
-/

namespace Ansak.Props

open Spec (textOf Utf8Reads Scalar Surrogate utf16Of Utf16Incomplete TrimBlank WhiteSpace TrimmedTo)
open Unicode (charClass)

/-! ## C48 -/

/-- UTF-8 and a predicate: the string is accepted iff it reads as characters that satisfy the predicate,
with nothing but a truncated sequence left at the end. -/
theorem C48_utf8 (U : CharClass) (pred : Pred) (s : List Byte) :
    ∃ b, isUtf8S2 U s pred = .ok b ∧
      (b = true ↔ ∃ vs t, Utf8Reads (textOf s) vs t ∧ ∀ v ∈ vs, pred.call32 U v = true) := by
  obtain ⟨vs, e, hsc⟩ := scan_exists (textOf_nulFree s)
  obtain ⟨b, hb, hi⟩ := isUtf8S_any U .utf8 pred hsc
  refine ⟨b, hb, hi.trans ⟨fun ⟨h1, h2⟩ => ?_, fun ⟨ws, t, hr, hp⟩ => ?_⟩⟩
  · rcases reads_of_scan hsc with ⟨t, rfl, hr⟩ | ⟨t, rfl⟩
    · exact ⟨vs, t, hr, fun v hv => (h1 v hv).2⟩
    · exact absurd h2 id
  · obtain ⟨rfl, rfl⟩ := scan_unique hsc (scan_of_reads hr)
    refine ⟨fun v hv => ⟨?_, hp v hv⟩, ?_⟩
    · have := reads_encodable hr v hv
      unfold Spec.Encodable at this
      unfold Acc8
      omega
    · obtain ⟨_, _, _, ht⟩ := hr
      unfold endOf
      rcases ht with rfl | ht
      · rw [if_pos rfl]; trivial
      · rw [if_neg (truncated_ne_nil ht)]
        obtain ⟨b, t', rfl, h1, h2⟩ := truncated_cons ht
        exact ⟨b, t', rfl, by unfold Lead8; omega⟩

/-- UCS-2 and a predicate. -/
theorem C48_ucs2 (U : CharClass) (pred : Pred) (s : List U16) :
    ∃ b, isUcs2S2 U s pred = .ok b ∧
      (b = true ↔ ∀ c ∈ textOf s, ¬ Surrogate c.toNat ∧ pred.call16 U c.toNat = true) := by
  obtain ⟨b, hb, hi⟩ := isUcs2S_any U .ucs2 pred s
  refine ⟨b, hb, hi.trans (forall_congr' fun c => imp_congr_right fun _ => ?_)⟩
  have := c.isLt
  unfold AccFlags
  exact ⟨fun h => ⟨h.1, h.2.2⟩, fun h => ⟨h.1, by omega, h.2⟩⟩

/-- UCS-4 and a predicate. -/
theorem C48_ucs4 (U : CharClass) (pred : Pred) (s : List U32) :
    ∃ b, isUcs4S2 U s pred = .ok b ∧
      (b = true ↔ ∀ c ∈ textOf s, ¬ Surrogate c.toNat ∧ pred.call32 U c.toNat = true) := by
  obtain ⟨b, hb, hi⟩ := isUcs4S_any U .ucs4 pred s
  refine ⟨b, hb, hi.trans (forall_congr' fun c => imp_congr_right fun _ => ?_)⟩
  unfold AccFlags
  exact ⟨fun h => ⟨h.1, h.2.2⟩, fun h => ⟨h.1, trivial, h.2⟩⟩

/-- UTF-16 and a predicate. Missing from the full property: outside the BMP the predicate is asked about
the high surrogate (`C23_isUtf16_violated`). -/
theorem C48_utf16_partial (U : CharClass) (pred : Pred) (s : List U16) :
    ∃ b, isUtf16S2 U s pred = .ok b ∧
      (b = true ↔ ∃ vs t, textOf s = utf16Of vs ++ t ∧ (t = [] ∨ Utf16Incomplete t) ∧
        ∀ v ∈ vs, Scalar v ∧
          pred.call16 U (if v < 0x10000 then v else 0xD800 + (v - 0x10000) / 0x400) = true) := by
  obtain ⟨vs, e, hsc⟩ := scan16_exists false (textOf_nulFree s)
  obtain ⟨b, hb, hi⟩ := isUtf16S_any U .utf16 pred hsc
  refine ⟨b, hb, hi.trans ⟨fun ⟨h1, h2⟩ => ?_, fun ⟨ws, t, hs, ht, hp⟩ => ?_⟩⟩
  · cases e with
    | done =>
      obtain ⟨hs, hv⟩ := scan16_done_iff.1 hsc
      exact ⟨vs, [], by rw [hs, List.append_nil], .inl rfl, fun v hm => ⟨hv v hm, (h1 v hm).2⟩⟩
    | cut =>
      obtain ⟨t, hs, ht, hv⟩ := scan16_cut_iff.1 hsc
      exact ⟨vs, t, hs, .inr ht, fun v hm => ⟨hv v hm, (h1 v hm).2⟩⟩
    | bad => exact absurd h2 id
  · have acc : ∀ v ∈ ws, AccFlags .utf16 v ∧ pred.call16 U (predUnit v) = true := fun v hv => by
      have := (hp v hv).1
      unfold Scalar at this
      exact ⟨by unfold AccFlags; omega, (hp v hv).2⟩
    rcases ht with rfl | ht
    · rw [List.append_nil] at hs
      have h' := scan16_done_iff.2 ⟨hs, fun v hv => (hp v hv).1⟩
      obtain ⟨rfl, rfl⟩ := scan16_unique hsc h'
      exact ⟨acc, trivial⟩
    · have h' := scan16_cut_iff.2 ⟨t, hs, ht, fun v hv => (hp v hv).1⟩
      obtain ⟨rfl, rfl⟩ := scan16_unique hsc h'
      exact ⟨acc, by show Wide16 .utf16; trivial⟩

/-- Leaving the predicate out as well is to ask for nothing more than the encoding. -/
theorem C48_no_predicate (U : CharClass) :
    (∀ s, isUtf8S1 U s = isUtf8S2 U s Pred.none) ∧ (∀ s, isUtf16S1 U s = isUtf16S2 U s Pred.none) ∧
    (∀ s, isUcs2S1 U s = isUcs2S2 U s Pred.none) ∧ (∀ s, isUcs4S1 U s = isUcs4S2 U s Pred.none) ∧
    ∀ c, Pred.none.call16 U c = true ∧ Pred.none.call32 U c = true :=
  ⟨fun _ => rfl, fun _ => rfl, fun _ => rfl, fun _ => rfl, fun _ => ⟨rfl, rfl⟩⟩

/-- The overloads for pointers agree with those for strings. -/
theorem C48_pointers (U : CharClass) (pred : Pred) :
    (∀ s, isUtf8P2 U (cStr s) pred = isUtf8S2 U s pred ∧ isUtf8P1 U (cStr s) = isUtf8S1 U s) ∧
    (∀ s, isUtf16P2 U (cStr s) pred = isUtf16S2 U s pred ∧ isUtf16P1 U (cStr s) = isUtf16S1 U s) ∧
    (∀ s, isUcs2P2 U (cStr s) pred = isUcs2S2 U s pred ∧ isUcs2P1 U (cStr s) = isUcs2S1 U s) ∧
    (∀ s, isUcs4P2 U (cStr s) pred = isUcs4S2 U s pred ∧ isUcs4P1 U (cStr s) = isUcs4S1 U s) :=
  ⟨fun _ => ⟨rfl, rfl⟩, fun _ => ⟨rfl, rfl⟩, fun _ => ⟨rfl, rfl⟩, fun _ => ⟨rfl, rfl⟩⟩

example : isUcs4S2 (charClass .v16) [0x41, 0x1F600] (Pred.validIf kIsAssigned) = .ok true ∧
    isUcs4S2 (charClass .v16) [0x41, 0x378] (Pred.validIf kIsAssigned) = .ok false := by
  decide +kernel

/-! ## C49 -/

/-- Everything that `trimWhiteSpace` removes is white space for the predicate. Missing from the full
property: the converse, which is false (`C49_violated`). -/
theorem C49_trimmed_partial (v : Version) (s : List U32) :
    ∃ pre suf, s = pre ++ trimWhiteSpace32 s ++ suf ∧
      (∀ c ∈ pre, (Pred.validIf kIsWhitespace).call32 (charClass v) c.toNat = true) ∧
      (∀ c ∈ suf, (Pred.validIf kIsWhitespace).call32 (charClass v) c.toNat = true) := by
  have sub : ∀ x, TrimBlank x → WhiteSpace x := fun x h => by
    unfold TrimBlank at h
    unfold WhiteSpace
    simp only [List.mem_cons, List.not_mem_nil, or_false] at h ⊢
    omega
  obtain ⟨⟨pre, suf, h1, h2, h3⟩, _⟩ := (C33_trimWhiteSpace [] s).2
  exact ⟨pre, suf, h1, fun c hc => (C26_white32 v c).2 (sub _ (h2 c hc)),
    fun c hc => (C26_white32 v c).2 (sub _ (h3 c hc))⟩

/-- The difference, exactly: the characters that are white space for the predicate, but that
`trimWhiteSpace` leaves where they are. -/
theorem C49_difference_partial (v : Version) (c : U32) :
    ((Pred.validIf kIsWhitespace).call32 (charClass v) c.toNat = true ∧
      trimWhiteSpace32 [c] = [c]) ↔
    c.toNat = 0xB ∨ c.toNat = 0xC ∨ c.toNat = 0x85 ∨ c.toNat = 0x1680 ∨ c.toNat = 0x2028 ∨
      c.toNat = 0x2029 := by
  have ht := (C33_trimWhiteSpace [] [c]).2
  have key : trimWhiteSpace32 [c] = [c] ↔ ¬ TrimBlank c.toNat := by
    constructor
    · intro e
      rw [e] at ht
      exact ht.2.1 c rfl
    · intro h
      refine trimmedTo_unique ht ⟨⟨[], [], rfl, fun _ h => absurd h List.not_mem_nil,
        fun _ h => absurd h List.not_mem_nil⟩, ?_, ?_⟩
      · intro d hd; cases hd; exact h
      · intro d hd; cases hd; exact h
  rw [key, C26_white32]
  unfold TrimBlank WhiteSpace
  simp only [List.mem_cons, List.not_mem_nil, or_false]
  omega

/-- Violation of C49: a line of text that ends in a form feed is not trimmed of it. -/
theorem C49_violated (v : Version) :
    (Pred.validIf kIsWhitespace).call32 (charClass v) 0xC = true ∧
    trimWhiteSpace32 [0x41, 0xC] = [0x41, 0xC] ∧ trimWhiteSpace16 [0x41, 0xC] = [0x41, 0xC] ∧
    trimWhiteSpace8 [0x41, 0xC] = .ok [0x41, 0xC] := by
  refine ⟨(C26_white32 v 0xC).2 (by unfold WhiteSpace; decide), ?_, ?_, ?_⟩ <;> decide +kernel

example : trimWhiteSpace32 [0x2003, 0x41, 0x3000, 0xA] = [0x41] := by decide +kernel

end Ansak.Props
