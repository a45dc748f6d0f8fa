import Verif.Props.TextHistory
import Verif.Props.TextPieces
import Verif.Props.TextRest
import Verif.Props.Count
import Verif.Props.Trim

/-!
# C18, C19, C20, C24, C31, C34: the result for every input

Where the code departs from a property, these theorems say what it does instead, so that no input is left open.
-/

namespace Ansak.Props

open Spec (Arg Runs RunsMember Returns Changes NulFree Utf8Text Utf8Reads Scalar Surrogate utf8Of utf16Of Utf16Incomplete textOf
  Built InClass Cond Class TrimmedTo TrimBlank)
open Unicode (charClass)

/-! ## C18: UCS-4 as UTF-16 -/

/-- With the range of UTF-16, `isUcs4` accepts everything up to 0x1FFFFF. Missing from the full property: that it stops at
U+10FFFF. -/
theorem C18_text_ucs4_utf16_partial (v : Version) (s : List U32) :
    ∃ b, Returns v (name% "isUcs4") [.str32 s, .range kUtf16] (.bool b) ∧
      (b = true ↔ ∀ c ∈ textOf s, c.toNat ≤ 0x1FFFFF ∧ ¬ Surrogate c.toNat) := by
  simp only [text_iff]
  exact C18_isUcs4_utf16_partial _ s

/-! ## C19, C20: counting characters of a string -/

/-- UTF-8: the number of characters (modulo 2^32), one less if the text ends in an incomplete character, and 0 for text that is
malformed or beyond Unicode. Missing from C20: the count with an incomplete character. -/
theorem C20_utf8_exact_partial (s : List Byte) :
    (∀ vs, Utf8Text (textOf s) vs → (∀ c ∈ vs, c ≤ 0x10FFFF) → unicodeLength8S s = .ok (BitVec.ofNat 32 vs.length)) ∧
    (∀ vs t, Utf8Reads (textOf s) vs t → t ≠ [] → (∀ c ∈ vs, c ≤ 0x10FFFF) →
      unicodeLength8S s = .ok (BitVec.ofNat 32 vs.length - 1)) ∧
    ((¬ ∃ vs t, Utf8Reads (textOf s) vs t ∧ ∀ c ∈ vs, c ≤ 0x10FFFF) → unicodeLength8S s = .ok 0) := by
  obtain ⟨post, hp⟩ := cStr_text s
  have hn := textOf_nulFree s
  unfold unicodeLength8S
  rw [hp]
  refine ⟨fun vs h hv => ?_, fun vs t h ht hv => ?_, fun h => C19_utf8_invalid hn h post⟩
  · rw [unicodeLength8_text hn (scan_of_text h), if_pos hv]; rfl
  · rw [unicodeLength8_text hn (scan_of_reads h), if_pos hv]
    unfold endOf
    rw [if_neg ht]; rfl

/-- UTF-16: the same. -/
theorem C20_utf16_exact_partial (s : List U16) :
    (∀ vs, textOf s = utf16Of vs → (∀ c ∈ vs, Scalar c) → unicodeLength16S s = .ok (BitVec.ofNat 32 vs.length)) ∧
    (∀ vs t, textOf s = utf16Of vs ++ t → (∀ c ∈ vs, Scalar c) → Utf16Incomplete t →
      unicodeLength16S s = .ok (BitVec.ofNat 32 vs.length - 1)) ∧
    ((¬ ∃ vs t, textOf s = utf16Of vs ++ t ∧ (∀ c ∈ vs, Scalar c) ∧ (t = [] ∨ Utf16Incomplete t)) →
      unicodeLength16S s = .ok 0) := by
  obtain ⟨post, hp⟩ := cStr_text s
  have hn := textOf_nulFree s
  unfold unicodeLength16S
  rw [hp]
  refine ⟨fun vs h hv => ?_, fun vs t h hv ht => ?_, fun h => C19_utf16_invalid hn h post⟩
  · exact unicodeLength16_text (scan16_done_iff.2 ⟨h, hv⟩) post
  · exact unicodeLength16_text (scan16_cut_iff.2 ⟨t, h, ht, hv⟩) post

/-- UCS-4: the number of units (modulo 2^32), or 0 if there is a surrogate. Missing from C19: values above U+10FFFF are
counted. -/
theorem C19_ucs4_exact_partial (s : List U32) :
    unicodeLength32S s = .ok (if ∀ c ∈ textOf s, ¬ Surrogate c.toNat then BitVec.ofNat 32 (textOf s).length else 0) := by
  obtain ⟨post, hp⟩ := cStr_text s
  unfold unicodeLength32S
  rw [hp]
  exact unicodeLength32_buf (textOf_nulFree s) post

theorem C19_text_ucs4_exact_partial (v : Version) (s : List U32) :
    Returns v (name% "unicodeLength") [.str32 s]
      (.uint (if ∀ c ∈ textOf s, ¬ Surrogate c.toNat then BitVec.ofNat 32 (textOf s).length else 0)) := by
  simp only [text_iff]
  exact C19_ucs4_exact_partial s

theorem C20_text_utf8_exact_partial (v : Version) (s : List Byte) :
    (∀ vs, Utf8Text (textOf s) vs → (∀ c ∈ vs, c ≤ 0x10FFFF) →
      Returns v (name% "unicodeLength") [.str8 s] (.uint (BitVec.ofNat 32 vs.length))) ∧
    (∀ vs t, Utf8Reads (textOf s) vs t → t ≠ [] → (∀ c ∈ vs, c ≤ 0x10FFFF) →
      Returns v (name% "unicodeLength") [.str8 s] (.uint (BitVec.ofNat 32 vs.length - 1))) ∧
    ((¬ ∃ vs t, Utf8Reads (textOf s) vs t ∧ ∀ c ∈ vs, c ≤ 0x10FFFF) →
      Returns v (name% "unicodeLength") [.str8 s] (.uint 0)) := by
  simp only [text_iff]
  exact C20_utf8_exact_partial s

theorem C20_text_utf16_exact_partial (v : Version) (s : List U16) :
    (∀ vs, textOf s = utf16Of vs → (∀ c ∈ vs, Scalar c) →
      Returns v (name% "unicodeLength") [.str16 s] (.uint (BitVec.ofNat 32 vs.length))) ∧
    (∀ vs t, textOf s = utf16Of vs ++ t → (∀ c ∈ vs, Scalar c) → Utf16Incomplete t →
      Returns v (name% "unicodeLength") [.str16 s] (.uint (BitVec.ofNat 32 vs.length - 1))) ∧
    ((¬ ∃ vs t, textOf s = utf16Of vs ++ t ∧ (∀ c ∈ vs, Scalar c) ∧ (t = [] ∨ Utf16Incomplete t)) →
      Returns v (name% "unicodeLength") [.str16 s] (.uint 0)) := by
  simp only [text_iff]
  exact C20_utf16_exact_partial s

/-- Two characters, and one and a half. -/
example (v : Version) : Returns v (name% "unicodeLength") [.str16 [0x41, 0xD83D, 0xDE00]] (.uint 2) ∧
    Returns v (name% "unicodeLength") [.str16 [0x41, 0xD83D]] (.uint 0) :=
  ⟨(C20_text_utf16_exact_partial v _).1 [0x41, 0x1F600] (by decide) (by decide),
    (C20_text_utf16_exact_partial v _).2.1 [0x41] [0xD83D] (by decide) (by decide) ⟨_, rfl, by decide⟩⟩

/-! ## C24, C26: predicates on `char` -/

/-- Every predicate says the same of a `char`, whether that is signed or not, and of the `char32_t` with the value of its byte. -/
theorem C26_char_agrees (v : Version) (pred : Pred) (c : Byte) :
    pred.call8 (charClass v) c.toNat = pred.call32 (charClass v) c.toNat := by
  have hc : (BitVec.ofNat 32 c.toNat).toNat = c.toNat := by
    have := u8_le c
    rw [BitVec.toNat_ofNat]
    exact Nat.mod_eq_of_lt (by omega)
  have ha : ∀ v : Version, ∀ c : Fin 256, (charClass v).assigned32 c.val = true ∧ (charClass v).private32 c.val = false := by
    intro v
    cases v <;> decide +kernel
  have h12 := ha v c.toFin
  have e : c.toFin.val = c.toNat := rfl
  rw [e] at h12
  have h3 := Bool.eq_iff_iff.2 ((C26_control8 v c).trans (hc ▸ C26_control32 v (BitVec.ofNat 32 c.toNat)).symm)
  have h4 := Bool.eq_iff_iff.2 ((C26_white8 v c).trans (hc ▸ C26_white32 v (BitVec.ofNat 32 c.toNat)).symm)
  unfold Pred.call8 Pred.call32 charToEncodingTypeMask8 charToEncodingTypeMask32 at h3 h4 ⊢
  rw [test_control, test_control] at h3
  rw [test_white, test_white] at h4
  rw [h12.1, h12.2, h3, h4]

/-- A predicate built from any conditions, on any character of any type: of two that contradict each other the one that asks
for the class wins. Missing from the full property: that such predicates are true of nothing. -/
theorem C24_text_exact_partial (v : Version) {ks : List Cond} {p : Pred} (h : Built v ks p) :
    (∀ c : U32, ∃ b, RunsMember v (name% "operator()") p [.char32 c] (.bool b) p ∧
      (b = true ↔ ∀ k ∈ ks, (InClass v k.cls c.toNat ↔ ⟨k.cls, true⟩ ∈ ks))) ∧
    (∀ c : U16, ∃ b, RunsMember v (name% "operator()") p [.char16 c] (.bool b) p ∧
      (b = true ↔ ∀ k ∈ ks, (InClass v k.cls c.toNat ↔ ⟨k.cls, true⟩ ∈ ks))) ∧
    (∀ c : Byte, ∃ b, RunsMember v (name% "operator()") p [.char8 c] (.bool b) p ∧
      (b = true ↔ ∀ k ∈ ks, (InClass v k.cls c.toNat ↔ ⟨k.cls, true⟩ ∈ ks))) := by
  have key : ∀ c : U32, p.call32 (charClass v) c.toNat = true ↔
      ∀ k ∈ ks, (InClass v k.cls c.toNat ↔ ⟨k.cls, true⟩ ∈ ks) := by
    intro c
    rw [(built_iff v ks p).1 h]
    refine (test_predOf_any (classes32 (charClass v) c.toNat) _).trans (forall_congr' fun k => imp_congr_right fun _ => ?_)
    rw [classes32_iff]
  have small : ∀ n : Nat, n ≤ 0xFFFF → (BitVec.ofNat 32 n).toNat = n := by
    intro n hn
    rw [BitVec.toNat_ofNat]
    exact Nat.mod_eq_of_lt (by omega)
  refine ⟨fun c => ⟨_, C67_apply32 v p c, key c⟩, fun c => ⟨_, C67_apply16 v p c, ?_⟩, fun c => ⟨_, C67_apply8 v p c, ?_⟩⟩
  · have := key (BitVec.ofNat 32 c.toNat)
    rw [small _ (u16_le c)] at this
    rw [C26_overloads_agree]
    exact this
  · have := key (BitVec.ofNat 32 c.toNat)
    rw [small _ (Nat.le_trans (u8_le c) (by decide))] at this
    rw [C26_char_agrees]
    exact this

/-- White space that is not a control code, on a `char`: the no-break space is, the tab is not. -/
example (v : Version) : ∃ p, Built v [⟨.whiteSpace, true⟩, ⟨.control, false⟩] p ∧
    RunsMember v (name% "operator()") p [.char8 0xA0] (.bool true) p ∧
    RunsMember v (name% "operator()") p [.char8 0x09] (.bool false) p := by
  obtain ⟨p, hp, _⟩ := C24_text_built v [⟨.whiteSpace, true⟩, ⟨.control, false⟩]
  refine ⟨p, hp, ?_, ?_⟩
  · obtain ⟨b, h1, h2⟩ := (C24_text_exact_partial v hp).2.2 0xA0
    rwa [h2.2 ?_] at h1
    intro k hk
    rcases List.mem_cons.1 hk with rfl | hk
    · exact ⟨fun _ => List.mem_cons_self, fun _ => show Spec.WhiteSpace (0xA0 : Byte).toNat by unfold Spec.WhiteSpace; decide⟩
    · rw [List.mem_singleton.1 hk]
      exact ⟨fun h => absurd h (show ¬ Spec.Control (0xA0 : Byte).toNat by unfold Spec.Control; decide), fun h => absurd h (by decide)⟩
  · obtain ⟨b, h1, h2⟩ := (C24_text_exact_partial v hp).2.2 0x09
    cases b with
    | false => exact h1
    | true =>
      exact absurd ((h2.1 rfl ⟨.control, false⟩ (by simp)).1
        (show Spec.Control (0x09 : Byte).toNat by unfold Spec.Control; decide)) (by decide)

/-! ## C31: joining -/

/-- Joining with NUL leaves the delimiter out. Missing from C31: it can then not be split again. -/
theorem C31_join_nul_partial {w : Nat} (l : List (List (BitVec w))) : join l 0 = .ok l.flatten := by
  rw [join_eq, if_pos rfl]

example : join ([[0x61], [0x62]] : List (List Byte)) 0 = .ok [0x61, 0x62] := C31_join_nul_partial _

/-- Joining writes the strings out with the delimiter between them, or with nothing for the delimiter NUL. -/
theorem C31_text_join_exact_partial (v : Version) :
    (∀ (l : List (List Byte)) (c : Byte), Returns v (name% "join") [.vec8 l, .char8 c]
      (.str8 (if c = 0 then l.flatten else List.intercalate [c] l))) ∧
    (∀ (l : List (List U16)) (c : U16), Returns v (name% "join") [.vec16 l, .char16 c]
      (.str16 (if c = 0 then l.flatten else List.intercalate [c] l))) ∧
    (∀ (l : List (List U32)) (c : U32), Returns v (name% "join") [.vec32 l, .char32 c]
      (.str32 (if c = 0 then l.flatten else List.intercalate [c] l))) := by
  refine ⟨fun l c => ?_, fun l c => ?_, fun l c => ?_⟩
  · have e := C67_join_8 v l c
    rwa [join_eq] at e
  · have e := C67_join_16 v l c
    rwa [join_eq] at e
  · have e := C67_join_32 v l c
    rwa [join_eq] at e

example (v : Version) : Returns v (name% "join") [.vec8 [[0x61], [], [0x62]], .char8 0x2C] (.str8 [0x61, 0x2C, 0x2C, 0x62]) :=
  (C31_text_join_exact_partial v).1 _ _

/-! ## C34: trimming UTF-8 -/

/-- UTF-8, for every string: what can be read and is in Unicode is trimmed and written again, and everything else is emptied.
Missing from the full property: as in `C34_violated`. -/
theorem C34_utf8_exact_partial (s : List Byte) :
    (∀ vs t ws, Utf8Reads (textOf s) vs t → (∀ c ∈ vs, c ≤ 0x10FFFF) → TrimmedTo TrimBlank vs ws →
      trimWhiteSpace8 s = .ok (utf8Of ws)) ∧
    ((¬ ∃ vs t, Utf8Reads (textOf s) vs t ∧ ∀ c ∈ vs, c ≤ 0x10FFFF) → trimWhiteSpace8 s = .ok []) := by
  refine ⟨fun vs t ws h hv hw => ?_, (C34_any_partial s).2⟩
  rw [(C34_any_partial s).1 vs t h hv]
  exact C34_utf8 (fun c hc => encodable_scalar (reads_encodable h c hc) (hv c hc)) hw

/-- A blank, a letter, and a byte that is dropped. -/
example : trimWhiteSpace8 [0x20, 0x41, 0xC3] = .ok [0x41] :=
  (C34_utf8_exact_partial _).1 [0x20, 0x41] [0xC3] [0x41]
    ⟨[0x20, 0x41], rfl, text_utf8Of (vs := [0x20, 0x41]) (by decide), .inr (.short (by simp) (by decide))⟩ (by decide)
    ⟨⟨[0x20], [], rfl, by unfold TrimBlank; decide, by simp⟩, by unfold TrimBlank; decide, by unfold TrimBlank; decide⟩

theorem C34_text_exact_partial (v : Version) {s : List Byte} (hs : Storable s) :
    (∀ vs t ws, Utf8Reads (textOf s) vs t → (∀ c ∈ vs, c ≤ 0x10FFFF) → TrimmedTo TrimBlank vs ws →
      Changes v (name% "trimWhiteSpace") (.str8 s) [] (.ok (.str8 (utf8Of ws)))) ∧
    ((¬ ∃ vs t, Utf8Reads (textOf s) vs t ∧ ∀ c ∈ vs, c ≤ 0x10FFFF) →
      Changes v (name% "trimWhiteSpace") (.str8 s) [] (.ok (.str8 []))) := by
  have e := C67_trimWhiteSpace_8 v s hs
  refine ⟨fun vs t ws h hv hw => ?_, fun h => ?_⟩
  · rwa [(C34_utf8_exact_partial s).1 vs t ws h hv hw] at e
  · rwa [(C34_utf8_exact_partial s).2 h] at e

end Ansak.Props
