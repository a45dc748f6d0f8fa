import Verif.Spec.LowerInstead
import Verif.Props.LowerText
import Verif.Props.Exact
import Verif.Props.TextRest

/-!
# C27, C28: lower-casing of every input

`Spec.lowered` says what becomes of each code point, also of those at which the library departs from UnicodeData.txt; the
theorems give the result for every string in the three encodings.
-/

namespace Ansak.Props

open Spec (textOf Lang Turkic Utf8Reads Scalar Encodable utf8Of utf16Of ucs4Of InRanges lowerOf lowerDeviations lowerInstead
  lowered Utf16Incomplete Returns)

/-- On every number of the ranges `dev` the mapping is `lowerInstead`. -/
def insteadInside (dev ps : List (Nat × Nat)) : Bool :=
  let ps' := ps.filter fun p => Unicode.inR dev p.1
  dev.all fun r => (List.range' r.1 (r.2 + 1 - r.1)).all fun x => Nat.beq (Spec.mapOf ps' x) (lowerInstead x)

theorem instead_inside (v : Version) : insteadInside (lowerDeviations v) (Unicode.maps v) = true := by
  cases v
  · decide +kernel
  · decide +kernel
  · decide +kernel
  · decide +kernel
  · decide +kernel
  · decide +kernel
  · decide +kernel
  · decide +kernel
  · decide +kernel
  · decide +kernel

theorem mapOf_instead {dev ps : List (Nat × Nat)} (h : insteadInside dev ps = true) {x : Nat} (hx : InRanges dev x) :
    Spec.mapOf ps x = lowerInstead x := by
  have hx' : Unicode.inR dev x = true := Unicode.inR_iff.2 hx
  unfold insteadInside at h
  obtain ⟨r, hr, h1, h2⟩ := hx
  have h3 := List.all_eq_true.1 (List.all_eq_true.1 h r hr) x (List.mem_range'_1.2 ⟨h1, by omega⟩)
  rw [Unicode.mapOf_filter (f := Unicode.inR dev) hx'] at h3
  exact Nat.eq_of_beq_eq_true h3

theorem lowerNat_lowered (v : Version) (lang : Lang) {x : Nat} (hx : x ≤ 0xFFFFFFFF) :
    lowerNat v (turkicLang lang) x = lowered v lang x := by
  unfold lowerNat lowered
  simp only [turkicLang_iff]
  split
  · rfl
  · split
    · rename_i h
      rw [h.2]
      exact toLower_dotted v
    · rw [Unicode.toLower_eq v x hx]
      split
      · rename_i h
        exact mapOf_instead (instead_inside v) h
      · rename_i h
        exact Unicode.mapOf_same_outside (Unicode.same_outside v) h

/-- UCS-4, for every string. Missing from the full property: the code points of `lowerDeviations`, which are not mapped as
UnicodeData.txt says. -/
theorem C27_ucs4_exact_partial (v : Version) (lang : Lang) (s : List U32) :
    toLower32S v s (langPtr lang) = .ok (ucs4Of ((vals s).map (lowered v lang))) := by
  rw [toLower32S_eq]
  unfold ucs4Of vals
  rw [List.map_map, List.map_map]
  refine congrArg Res.ok (List.map_congr_left fun c hc => BitVec.eq_of_toNat_eq ?_)
  have h2 := lowerNat_le v (turkicLang lang) (u32_le c)
  show _ = (BitVec.ofNat 32 (lowered v lang c.toNat)).toNat
  rw [← lowerNat_lowered v lang (u32_le c), lowerChar_toNat, BitVec.toNat_ofNat]
  exact (Nat.mod_eq_of_lt (by omega)).symm

/-- UTF-8, for every string: what can be read is mapped, and without a reading there is nothing. Missing from the full
property: as in `C27_ucs4_exact_partial`. -/
theorem C27_utf8_exact_partial (v : Version) (lang : Lang) (s : List Byte) :
    (∀ vs t, Utf8Reads (textOf s) vs t → toLower8S v s (langPtr lang) = .ok (utf8Of (vs.map (lowered v lang)))) ∧
    ((¬ ∃ vs t, Utf8Reads (textOf s) vs t) → toLower8S v s (langPtr lang) = .ok []) := by
  refine ⟨fun vs t hs => ?_, fun h => ?_⟩
  · have he := reads_encodable hs
    rw [toLower8S_chars v lang ((C41_utf8_to_ucs4 s).1 vs t hs) he]
    refine congrArg (fun l => Res.ok (utf8Of l)) (List.map_congr_left fun x hx => lowerNat_lowered v lang ?_)
    have := he x hx
    unfold Encodable at this
    omega
  · exact toLower8S_chars v lang (vs := []) ((C41_utf8_to_ucs4 s).2 h) (by simp)

/-- UTF-16, for every string. Missing from the full property: as in `C27_ucs4_exact_partial`. -/
theorem C27_utf16_exact_partial (v : Version) (lang : Lang) (s : List U16) :
    (∀ vs t, textOf s = utf16Of vs ++ t → (∀ x ∈ vs, Scalar x) → (t = [] ∨ Utf16Incomplete t) →
      toLower16S v s (langPtr lang) = .ok (utf16Of (vs.map (lowered v lang)))) ∧
    ((¬ ∃ vs t, textOf s = utf16Of vs ++ t ∧ (∀ x ∈ vs, Scalar x) ∧ (t = [] ∨ Utf16Incomplete t)) →
      toLower16S v s (langPtr lang) = .ok []) := by
  refine ⟨fun vs t hs hv ht => ?_, fun h => ?_⟩
  · rw [toLower16S_chars v lang ((C41_utf16_to_ucs4 s).1 vs t hs hv ht) hv]
    refine congrArg (fun l => Res.ok (utf16Of l)) (List.map_congr_left fun x hx => lowerNat_lowered v lang ?_)
    have := hv x hx
    unfold Scalar at this
    omega
  · exact toLower16S_chars v lang (vs := []) ((C41_utf16_to_ucs4 s).2 h) (by simp)

/-- The text of the library, for every string, every language and every version. -/
theorem C27_text_exact_partial (v : Version) (lang : Lang) :
    (∀ s : List U32, Returns v (name% "toLower") [.str32 s, .ptr8 (langPtr lang)]
      (.str32 (ucs4Of ((vals s).map (lowered v lang))))) ∧
    (∀ s : List Byte,
      (∀ vs t, Utf8Reads (textOf s) vs t → Returns v (name% "toLower") [.str8 s, .ptr8 (langPtr lang)]
        (.str8 (utf8Of (vs.map (lowered v lang))))) ∧
      ((¬ ∃ vs t, Utf8Reads (textOf s) vs t) → Returns v (name% "toLower") [.str8 s, .ptr8 (langPtr lang)] (.str8 []))) ∧
    (∀ s : List U16,
      (∀ vs t, textOf s = utf16Of vs ++ t → (∀ x ∈ vs, Scalar x) → (t = [] ∨ Utf16Incomplete t) →
        Returns v (name% "toLower") [.str16 s, .ptr8 (langPtr lang)] (.str16 (utf16Of (vs.map (lowered v lang))))) ∧
      ((¬ ∃ vs t, textOf s = utf16Of vs ++ t ∧ (∀ x ∈ vs, Scalar x) ∧ (t = [] ∨ Utf16Incomplete t)) →
        Returns v (name% "toLower") [.str16 s, .ptr8 (langPtr lang)] (.str16 []))) := by
  simp only [text_iff]
  exact ⟨C27_ucs4_exact_partial v lang, C27_utf8_exact_partial v lang, C27_utf16_exact_partial v lang⟩

/-- "I×" in Turkish and in no language. -/
example : [0x49, 0xD7].map (lowered .v16 (some (Spec.ascii ['t', 'r']))) = [0x131, 0xF7] ∧
    [0x49, 0xD7].map (lowered .v16 none) = [0x69, 0xF7] ∧ lowered .v16 none 0x1C90 = 0x1C90 ∧
    lowered .v16 none 0xC0 = 0xE0 := by decide +kernel

end Ansak.Props
