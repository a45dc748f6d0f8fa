import Verif.Lemmas.ToLower
import Verif.Props.Count

/-!
# C28, C29, C30: lower-casing strings

`langPtr lang` is the pointer passed for a language argument: null for `none`, the `c_str()` of the
string otherwise. All theorems hold for each of the ten Unicode versions.
-/

namespace Ansak.Props

open Spec (textOf Lang Turkic ascii NulFree Utf8Text Scalar Encodable utf8Of utf16Of ucs4Of)

/-! ## C28: Turkic lower-casing -/

/-- Under a Turkic language code I becomes dotless i, dotted I becomes i, and every other character
what it becomes without a language. -/
theorem C28_turkic (v : Version) {lang : Lang} (h : Turkic lang) (c : U32) :
    toLower32S v [c] (langPtr lang) =
      if c = 0x49 then .ok [0x131]
      else if c = 0x130 then .ok [0x69]
      else toLower32S v [c] (langPtr none) := by
  have hval : ∀ (t : Bool) (d : U32), (lowerChar v t c).toNat = d.toNat →
      [c].map (lowerChar v t) = [d] := fun t d e => by
    rw [List.map_cons, List.map_nil, BitVec.eq_of_toNat_eq e]
  rw [toLower32S_eq, toLower32S_eq, (turkicLang_iff lang).2 h]
  by_cases h1 : c = 0x49
  · subst h1
    rw [if_pos rfl, hval true 0x131 (by rw [lowerChar_toNat]; rfl)]
  · rw [if_neg h1]
    by_cases h2 : c = 0x130
    · subst h2
      rw [if_pos rfl, hval true 0x69]
      rw [lowerChar_toNat]
      exact toLower_dotted v
    · rw [if_neg h2, hval true (lowerChar v false c)]
      · rfl
      · rw [lowerChar_toNat, lowerChar_toNat]
        unfold lowerNat
        have h3 : c.toNat ≠ 0x49 := fun e => h1 (BitVec.eq_of_toNat_eq e)
        rw [if_neg fun h => h3 h.2, if_neg fun h => h3 h.2]

/-- Any other language argument, and a null pointer, makes no difference. -/
theorem C28_other (v : Version) {lang : Lang} (h : ¬ Turkic lang) :
    (∀ s, toLower32S v s (langPtr lang) = toLower32S v s none) ∧
    (∀ s, toLower8S v s (langPtr lang) = toLower8S v s none) ∧
    (∀ s, toLower16S v s (langPtr lang) = toLower16S v s none) := by
  have e : isTurkicLang (langPtr lang) = isTurkicLang none := by
    rw [isTurkicLang_lang]
    cases ht : turkicLang lang with
    | false => rfl
    | true => exact absurd ((turkicLang_iff lang).1 ht) h
  have e32 : ∀ s, toLower32S v s (langPtr lang) = toLower32S v s none := by
    intro s
    unfold toLower32S
    rw [e]
  refine ⟨e32, fun s => ?_, fun s => ?_⟩
  · unfold toLower8S
    simp only [e32]
  · unfold toLower16S
    simp only [e32]

/-- Exactly the ten codes are Turkic: for no other language does I become dotless i. -/
theorem C28_codes (v : Version) (lang : Lang) :
    toLower32S v [0x49] (langPtr lang) = .ok [0x131] ↔ Turkic lang := by
  constructor
  · intro h
    rw [toLower32S_eq, ← turkicLang_iff] at *
    cases ht : turkicLang lang with
    | true => rfl
    | false =>
      rw [ht] at h
      have h2 : (lowerChar v false 0x49).toNat = 0x131 := by
        rw [(List.cons.inj (Res.ok.inj h)).1]; rfl
      rw [lowerChar_toNat] at h2
      have h3 : lowerNat v false 0x49 = 0x69 := toLower_I v
      rw [show (0x49 : U32).toNat = 0x49 from rfl, h3] at h2
      cases h2
  · intro h
    rw [C28_turkic v h, if_pos rfl]

/-- Turkic: "tr", "azb", and "tr" with something after its NUL; not Turkic: no language, "",
"t", "TR", "trk", "tr_TR". -/
example : Turkic (some (ascii ['t', 'r'])) ∧ Turkic (some (ascii ['a', 'z', 'b'])) ∧
    Turkic (some (ascii ['t', 'r', '\x00', 'x'])) ∧ ¬ Turkic none ∧ ¬ Turkic (some []) ∧
    ¬ Turkic (some (ascii ['t'])) ∧ ¬ Turkic (some (ascii ['T', 'R'])) ∧
    ¬ Turkic (some (ascii ['t', 'r', 'k'])) ∧
    ¬ Turkic (some (ascii ['t', 'r', '_', 'T', 'R'])) := by
  simp only [← turkicLang_iff]
  decide

/-! ## C29: lower-casing is idempotent -/

theorem C29_ucs4 (v : Version) (lang : Lang) (s : List U32) :
    ∃ t, toLower32S v s (langPtr lang) = .ok t ∧ toLower32S v t (langPtr lang) = .ok t := by
  refine ⟨_, toLower32S_eq v s lang, ?_⟩
  rw [toLower32S_eq, List.map_map]
  refine congrArg Res.ok (List.map_congr_left fun c _ => BitVec.eq_of_toNat_eq ?_)
  show (lowerChar v _ (lowerChar v _ c)).toNat = _
  rw [lowerChar_toNat, lowerChar_toNat, lowerNat_idem]
  have := c.isLt
  omega

theorem map_lowerNat_idem (v : Version) (t : Bool) {vs : List Nat} (h : ∀ x ∈ vs, Encodable x) :
    (vs.map (lowerNat v t)).map (lowerNat v t) = vs.map (lowerNat v t) := by
  rw [List.map_map]
  refine List.map_congr_left fun x hx => lowerNat_idem v t ?_
  have := h x hx
  unfold Encodable at this
  omega

/-- For every byte string, well-formed or not. -/
theorem C29_utf8 (v : Version) (lang : Lang) (s : List Byte) :
    ∃ t, toLower8S v s (langPtr lang) = .ok t ∧ toLower8S v t (langPtr lang) = .ok t := by
  obtain ⟨vs, h4, he⟩ := chars8 s
  refine ⟨_, toLower8S_chars v lang h4 he, ?_⟩
  have h := map_encodable v (turkicLang lang) he
  rw [toLower8S_chars v lang (toUcs4From8S_utf8Of h) h, map_lowerNat_idem v _ he]

/-- For every string of UTF-16 units, well-formed or not. -/
theorem C29_utf16 (v : Version) (lang : Lang) (s : List U16) :
    ∃ t, toLower16S v s (langPtr lang) = .ok t ∧ toLower16S v t (langPtr lang) = .ok t := by
  obtain ⟨vs, h4, he⟩ := chars16 s
  refine ⟨_, toLower16S_chars v lang h4 he, ?_⟩
  have h := map_scalar v (turkicLang lang) he
  rw [toLower16S_chars v lang (toUcs4From16S_utf16Of h) h,
    map_lowerNat_idem v _ fun x hx => scalar_encodable (he x hx)]

/-- "AI" in Turkish becomes "aı", which stays as it is. -/
example : toLower8S .v16 [0x41, 0x49] (langPtr (some (ascii ['t', 'r']))) =
      .ok [0x61, 0xC4, 0xB1] ∧
    toLower8S .v16 [0x61, 0xC4, 0xB1] (langPtr (some (ascii ['t', 'r']))) =
      .ok [0x61, 0xC4, 0xB1] := by decide +kernel

/-! ## C30: structure and encodings -/

/-- UCS-4: as many units, and each unit is mapped by itself: the result is made of the results for
the one-unit strings. -/
theorem C30_ucs4_pointwise (v : Version) (lang : Lang) (s : List U32) :
    ∃ t, toLower32S v s (langPtr lang) = .ok t ∧ t.length = s.length ∧
      ∀ (i : Nat) (c : U32), s[i]? = some c →
        ∃ d, t[i]? = some d ∧ toLower32S v [c] (langPtr lang) = .ok [d] := by
  refine ⟨_, toLower32S_eq v s lang, List.length_map .., fun i c hc => ?_⟩
  refine ⟨lowerChar v (turkicLang lang) c, ?_, by rw [toLower32S_eq]; rfl⟩
  rw [List.getElem?_map, hc]
  rfl

theorem C30_ucs4_append (v : Version) (lang : Lang) (a b : List U32) :
    ∃ a' b', toLower32S v a (langPtr lang) = .ok a' ∧ toLower32S v b (langPtr lang) = .ok b' ∧
      toLower32S v (a ++ b) (langPtr lang) = .ok (a' ++ b') := by
  refine ⟨_, _, toLower32S_eq v a lang, toLower32S_eq v b lang, ?_⟩
  rw [toLower32S_eq, List.map_append]

/-- UTF-8: lower-casing then reading as UCS-4 is reading as UCS-4 then lower-casing, for every byte
string. -/
theorem C30_utf8_commutes (v : Version) (lang : Lang) (s : List Byte) :
    (toLower8S v s (langPtr lang)).bind toUcs4From8S =
      (toUcs4From8S s).bind fun u => toLower32S v u (langPtr lang) := by
  obtain ⟨vs, h4, he⟩ := chars8 s
  rw [toLower8S_chars v lang h4 he, h4, Res.bind_ok, Res.bind_ok,
    toUcs4From8S_utf8Of (map_encodable v _ he), toLower32S_eq, map_lowerChar_ucs4Of v _ he]

/-- UTF-8: the result is the encoding of the UCS-4 result. -/
theorem C30_utf8_encodes (v : Version) (lang : Lang) (s : List Byte) :
    toLower8S v s (langPtr lang) =
      ((toUcs4From8S s).bind fun u => toLower32S v u (langPtr lang)).bind toUtf8From32S := by
  obtain ⟨vs, h4, he⟩ := chars8 s
  rw [toLower8S_chars v lang h4 he, h4, Res.bind_ok, toLower32S_eq, Res.bind_ok,
    map_lowerChar_ucs4Of v _ he, toUtf8From32S_ucs4Of (map_encodable v _ he)]

theorem C30_utf16_commutes (v : Version) (lang : Lang) (s : List U16) :
    (toLower16S v s (langPtr lang)).bind toUcs4From16S =
      (toUcs4From16S s).bind fun u => toLower32S v u (langPtr lang) := by
  obtain ⟨vs, h4, he⟩ := chars16 s
  rw [toLower16S_chars v lang h4 he, h4, Res.bind_ok, Res.bind_ok,
    toUcs4From16S_utf16Of (map_scalar v _ he), toLower32S_eq,
    map_lowerChar_ucs4Of v _ fun x hx => scalar_encodable (he x hx)]

theorem C30_utf16_encodes (v : Version) (lang : Lang) (s : List U16) :
    toLower16S v s (langPtr lang) =
      ((toUcs4From16S s).bind fun u => toLower32S v u (langPtr lang)).bind toUtf16From32S := by
  obtain ⟨vs, h4, he⟩ := chars16 s
  have hE : ∀ x ∈ vs, Encodable x := fun x hx => scalar_encodable (he x hx)
  rw [toLower16S_chars v lang h4 he, h4, Res.bind_ok, toLower32S_eq, Res.bind_ok,
    map_lowerChar_ucs4Of v _ hE, toUtf16From32S_ucs4Of (map_encodable v _ hE), if_pos]
  intro y hy
  have := map_scalar v (turkicLang lang) he y hy
  unfold Scalar at this
  omega

/-- Hence well-formed UTF-8 text keeps its number of characters, as does its UTF-8 lower case. -/
theorem C30_utf8_count (v : Version) (lang : Lang) {s : List Byte} {vs : List Nat}
    (hs : Utf8Text s vs) :
    ∃ t ws, toLower8S v s (langPtr lang) = .ok t ∧ Utf8Text t ws ∧ ws.length = vs.length := by
  obtain ⟨us, e, hsc, h4, _⟩ := toUcs4From8S_any s
  rw [textOf_of_nulFree (text_nulFree hs)] at hsc
  obtain ⟨rfl, rfl⟩ := scan_unique hsc (scan_of_text hs)
  rw [if_pos (by rfl)] at h4
  have he := scan_encodable hsc
  exact ⟨_, _, toLower8S_chars v lang h4 he, text_utf8Of (map_encodable v _ he),
    List.length_map ..⟩

/-- Text made of two well-formed UTF-8 texts is lower-cased piece by piece. -/
theorem C30_utf8_append (v : Version) (lang : Lang) {a b : List Byte} {vs ws : List Nat}
    (ha : Utf8Text a vs) (hb : Utf8Text b ws) :
    ∃ a' b', toLower8S v a (langPtr lang) = .ok a' ∧ toLower8S v b (langPtr lang) = .ok b' ∧
      toLower8S v (a ++ b) (langPtr lang) = .ok (a' ++ b') := by
  have key : ∀ {s : List Byte} {vs : List Nat}, Utf8Text s vs →
      toUcs4From8S s = .ok (ucs4Of vs) ∧ ∀ x ∈ vs, Encodable x := by
    intro s vs hs
    obtain ⟨us, e, hsc, h4, _⟩ := toUcs4From8S_any s
    rw [textOf_of_nulFree (text_nulFree hs)] at hsc
    obtain ⟨rfl, rfl⟩ := scan_unique hsc (scan_of_text hs)
    rw [if_pos (by rfl)] at h4
    exact ⟨h4, scan_encodable hsc⟩
  have hab : Utf8Text (a ++ b) (vs ++ ws) := by
    induction ha with
    | nil => exact hb
    | cons hc _ ih => rw [List.append_assoc]; exact .cons hc ih
  refine ⟨_, _, toLower8S_chars v lang (key ha).1 (key ha).2,
    toLower8S_chars v lang (key hb).1 (key hb).2, ?_⟩
  rw [toLower8S_chars v lang (key hab).1 (key hab).2, List.map_append]
  unfold utf8Of
  rw [List.flatMap_append]

/-- UTF-16 text keeps its number of characters. -/
theorem C30_utf16_count (v : Version) (lang : Lang) {vs : List Nat} (hv : ∀ x ∈ vs, Scalar x) :
    ∃ ws, toLower16S v (utf16Of vs) (langPtr lang) = .ok (utf16Of ws) ∧
      (∀ x ∈ ws, Scalar x) ∧ ws.length = vs.length :=
  ⟨_, toLower16S_chars v lang (toUcs4From16S_utf16Of hv) hv, map_scalar v _ hv,
    List.length_map ..⟩

theorem C30_utf16_append (v : Version) (lang : Lang) {vs ws : List Nat}
    (hv : ∀ x ∈ vs, Scalar x) (hw : ∀ x ∈ ws, Scalar x) :
    ∃ a' b', toLower16S v (utf16Of vs) (langPtr lang) = .ok a' ∧
      toLower16S v (utf16Of ws) (langPtr lang) = .ok b' ∧
      toLower16S v (utf16Of vs ++ utf16Of ws) (langPtr lang) = .ok (a' ++ b') := by
  have hvw : ∀ x ∈ vs ++ ws, Scalar x := fun x hx =>
    (List.mem_append.1 hx).elim (hv x) (hw x)
  have happ : ∀ a b : List Nat, utf16Of (a ++ b) = utf16Of a ++ utf16Of b := fun a b => by
    unfold utf16Of
    rw [List.flatMap_append]
  refine ⟨_, _, toLower16S_chars v lang (toUcs4From16S_utf16Of hv) hv,
    toLower16S_chars v lang (toUcs4From16S_utf16Of hw) hw, ?_⟩
  rw [← happ, toLower16S_chars v lang (toUcs4From16S_utf16Of hvw) hvw, List.map_append, happ]

/-- The encoded length may change: U+023A takes two bytes, its lower case U+2C65 three. -/
example : Utf8Text [0xC8, 0xBA] [0x23A] ∧
    toLower8S .v16 [0xC8, 0xBA] none = .ok [0xE2, 0xB1, 0xA5] :=
  ⟨text_utf8Of (vs := [0x23A]) (by decide), by decide +kernel⟩

end Ansak.Props
