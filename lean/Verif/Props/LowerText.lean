import Verif.Lemmas.Unicode.Classes
import Verif.Props.ToLower
import Verif.Props.Unicode

/-!
# C27, C37 for strings; C42: the reported Unicode version; C43: lower-casing keeps validity
-/

namespace Ansak.Props

open Spec (textOf Lang Turkic ascii NulFree Utf8Text Utf8Reads Scalar Surrogate Encodable utf8Of
  utf16Of ucs4Of InRanges lowerOf lowerDeviations Utf16Incomplete)
open Unicode (charClass)

/-! ## C27 for strings -/

theorem lowerNat_other (v : Version) {lang : Lang} (h : ¬ Turkic lang) {x : Nat}
    (hx : x ≤ 0xFFFFFFFF) (hd : ¬ InRanges (lowerDeviations v) x) :
    lowerNat v (turkicLang lang) x = lowerOf v x := by
  have ht : turkicLang lang = false := by
    cases e : turkicLang lang with
    | false => rfl
    | true => exact absurd ((turkicLang_iff lang).1 e) h
  rw [ht]
  show (Unicode.toLower v).eval x = _
  rw [Unicode.toLower_eq v _ hx]
  exact Unicode.mapOf_same_outside (Unicode.same_outside v) hd

/-- UCS-4, no Turkic language: each character becomes its lower-case mapping in UnicodeData.txt.
Missing from the full property: the code points listed in `Verif/Spec/LowerDeviations.lean`. -/
theorem C27_ucs4_partial (v : Version) {lang : Lang} (h : ¬ Turkic lang) (s : List U32)
    (hd : ∀ c ∈ s, ¬ InRanges (lowerDeviations v) c.toNat) :
    toLower32S v s (langPtr lang) = .ok (ucs4Of ((vals s).map (lowerOf v))) := by
  rw [toLower32S_eq]
  unfold ucs4Of vals
  rw [List.map_map, List.map_map]
  refine congrArg Res.ok (List.map_congr_left fun c hc => BitVec.eq_of_toNat_eq ?_)
  have h1 := lowerNat_other v h (u32_le c) (hd c hc)
  have h2 := lowerNat_le v (turkicLang lang) (u32_le c)
  show _ = (BitVec.ofNat 32 (lowerOf v c.toNat)).toNat
  rw [lowerChar_toNat, BitVec.toNat_ofNat, h1]
  rw [h1] at h2
  exact (Nat.mod_eq_of_lt (by omega)).symm

/-- UTF-8, no Turkic language. Missing from the full property: as in `C27_ucs4_partial`. -/
theorem C27_utf8_partial (v : Version) {lang : Lang} (h : ¬ Turkic lang) {s : List Byte}
    {vs : List Nat} {t : List Byte} (hs : Utf8Reads (textOf s) vs t)
    (hd : ∀ x ∈ vs, ¬ InRanges (lowerDeviations v) x) :
    toLower8S v s (langPtr lang) = .ok (utf8Of (vs.map (lowerOf v))) := by
  obtain ⟨us, e, hsc, h4, _⟩ := toUcs4From8S_any s
  obtain ⟨rfl, rfl⟩ := scan_unique hsc (scan_of_reads hs)
  rw [endOf_ok, if_pos rfl] at h4
  have he := reads_encodable hs
  rw [toLower8S_chars v lang h4 he]
  refine congrArg (fun l => Res.ok (utf8Of l)) (List.map_congr_left fun x hx => ?_)
  refine lowerNat_other v h ?_ (hd x hx)
  have := he x hx
  unfold Encodable at this
  omega

/-- UTF-16, no Turkic language. Missing from the full property: as in `C27_ucs4_partial`. -/
theorem C27_utf16_partial (v : Version) {lang : Lang} (h : ¬ Turkic lang) {vs : List Nat}
    (hv : ∀ x ∈ vs, Scalar x) (hd : ∀ x ∈ vs, ¬ InRanges (lowerDeviations v) x) :
    toLower16S v (utf16Of vs) (langPtr lang) = .ok (utf16Of (vs.map (lowerOf v))) := by
  rw [toLower16S_chars v lang (toUcs4From16S_utf16Of hv) hv]
  refine congrArg (fun l => Res.ok (utf16Of l)) (List.map_congr_left fun x hx => ?_)
  refine lowerNat_other v h ?_ (hd x hx)
  have := hv x hx
  unfold Scalar at this
  omega

/-- Violation of C27: a character of the list is not mapped to its lower-case mapping, as a string
either. -/
theorem C27_ucs4_violated (v : Version) (c : U32) (h : InRanges (lowerDeviations v) c.toNat) :
    ∃ d, toLower32S v [c] none = .ok [d] ∧ d.toNat ≠ lowerOf v c.toNat :=
  ⟨_, toLower32S_eq v [c] none, C27_toLower_violated v c h⟩

/-- "ÀẞA" in the three encodings. -/
example : (∀ v, ∀ x ∈ [0xC0, 0x1E9E, 0x41], ¬ InRanges (lowerDeviations v) x) ∧ ¬ Turkic none ∧
    Utf8Reads (textOf (utf8Of [0xC0, 0x1E9E, 0x41])) [0xC0, 0x1E9E, 0x41] [] ∧
    [0xC0, 0x1E9E, 0x41].map (lowerOf .v16) = [0xE0, 0xDF, 0x61] := by
  refine ⟨fun v => ?_, id, ?_, by decide +kernel⟩
  · simp only [← Unicode.inR_iff]
    cases v <;> decide
  · rw [textOf_of_nulFree (utf8Of_nulFree (by decide))]
    exact ⟨_, (List.append_nil _).symm, text_utf8Of (by decide), .inl rfl⟩

/-! ## C37 for strings -/

/-- What an earlier version lower-cases, a later one lower-cases in the same way. -/
theorem C37_toLower_char {v w : Version} (hvw : Spec.Version.LE v w) (lang : Lang) (c d : U32)
    (h : toLower32S v [c] (langPtr lang) = .ok [d]) (hne : d ≠ c) :
    toLower32S w [c] (langPtr lang) = .ok [d] := by
  rw [toLower32S_eq] at h ⊢
  have h1 : lowerChar v (turkicLang lang) c = d := (List.cons.inj (Res.ok.inj h)).1
  have h2 : lowerChar w (turkicLang lang) c = d := by
    subst h1
    refine BitVec.eq_of_toNat_eq ?_
    have h3 : (lowerChar v (turkicLang lang) c).toNat ≠ c.toNat :=
      fun e => hne (BitVec.eq_of_toNat_eq e)
    rw [lowerChar_toNat] at h3
    rw [lowerChar_toNat, lowerChar_toNat]
    unfold lowerNat at h3 ⊢
    by_cases hi : turkicLang lang = true ∧ c.toNat = 0x49
    · rw [if_pos hi, if_pos hi]
    · rw [if_neg hi] at h3
      rw [if_neg hi, if_neg hi]
      exact Unicode.toLower_stable hvw (u32_le c) h3
  show Res.ok [lowerChar w (turkicLang lang) c] = _
  rw [h2]

theorem lowerNat_compose {v w : Version} (hvw : Spec.Version.LE v w) (t : Bool) {x : Nat}
    (hx : x ≤ 0xFFFFFFFF) : lowerNat w t (lowerNat v t x) = lowerNat w t x := by
  by_cases h : lowerNat v t x = x
  · rw [h]
  · have e : lowerNat w t x = lowerNat v t x := by
      unfold lowerNat at h ⊢
      by_cases hi : t = true ∧ x = 0x49
      · rw [if_pos hi, if_pos hi]
      · rw [if_neg hi] at h
        rw [if_neg hi, if_neg hi]
        exact Unicode.toLower_stable hvw hx h
    rw [← e]
    exact lowerNat_idem w t hx

/-- Text that has been lower-cased by an earlier version is lower-cased by a later one to what it would
have been from the start. -/
theorem C37_toLower_text {v w : Version} (hvw : Spec.Version.LE v w) (lang : Lang) :
    (∀ s, (toLower32S v s (langPtr lang)).bind (toLower32S w · (langPtr lang)) =
      toLower32S w s (langPtr lang)) ∧
    (∀ s, (toLower8S v s (langPtr lang)).bind (toLower8S w · (langPtr lang)) =
      toLower8S w s (langPtr lang)) ∧
    (∀ s, (toLower16S v s (langPtr lang)).bind (toLower16S w · (langPtr lang)) =
      toLower16S w s (langPtr lang)) := by
  refine ⟨fun s => ?_, fun s => ?_, fun s => ?_⟩
  · rw [toLower32S_eq, Res.bind_ok, toLower32S_eq, toLower32S_eq, List.map_map]
    refine congrArg Res.ok (List.map_congr_left fun c _ => BitVec.eq_of_toNat_eq ?_)
    show (lowerChar w _ (lowerChar v _ c)).toNat = _
    rw [lowerChar_toNat, lowerChar_toNat, lowerChar_toNat, lowerNat_compose hvw _ (u32_le c)]
  · obtain ⟨vs, h4, he⟩ := chars8 s
    have h := map_encodable v (turkicLang lang) he
    rw [toLower8S_chars v lang h4 he, toLower8S_chars w lang h4 he, Res.bind_ok,
      toLower8S_chars w lang (toUcs4From8S_utf8Of h) h, List.map_map]
    refine congrArg (fun l => Res.ok (utf8Of l)) (List.map_congr_left fun x hx => ?_)
    have := he x hx
    unfold Encodable at this
    exact lowerNat_compose hvw _ (by omega)
  · obtain ⟨vs, h4, he⟩ := chars16 s
    have h := map_scalar v (turkicLang lang) he
    rw [toLower16S_chars v lang h4 he, toLower16S_chars w lang h4 he, Res.bind_ok,
      toLower16S_chars w lang (toUcs4From16S_utf16Of h) h, List.map_map]
    refine congrArg (fun l => Res.ok (utf16Of l)) (List.map_congr_left fun x hx => ?_)
    have := he x hx
    unfold Scalar at this
    exact lowerNat_compose hvw _ (by omega)

/-! ## C42: the reported version -/

/-- The decimal digits of a number below 100, as they are written. -/
def digits (n : Nat) : List Char :=
  if n < 10 then [Char.ofNat (0x30 + n)] else [Char.ofNat (0x30 + n / 10), Char.ofNat (0x30 + n % 10)]

/-- `getUnicodeVersionSupported` reports the version whose UnicodeData.txt the tables follow (C25, C27):
its number, followed by ".0.0". -/
theorem C42_version (v : Version) :
    (Unicode.getUnicodeVersionSupported v).toList =
      digits (Spec.Version.number v) ++ ['.', '0', '.', '0'] := by
  cases v <;> decide

/-- Hence the versions can be told apart by it. -/
theorem C42_distinct {v w : Version}
    (h : Unicode.getUnicodeVersionSupported v = Unicode.getUnicodeVersionSupported w) : v = w := by
  cases v <;> cases w <;> first | rfl | exact absurd h (by decide)

theorem tables_differ {v w : Version} (hvw : Spec.Version.LE v w) (hne : v ≠ w) :
    ∃ c : U32, (0 < c.toNat ∧ c.toNat < 0xD800) ∧
      (Pred.validIf kIsAssigned).call32 (charClass w) c.toNat = true ∧
      (Pred.validIf kIsAssigned).call32 (charClass v) c.toNat = false := by
  have step : ∀ v w : Version, Spec.Version.number w = Spec.Version.number v + 1 →
      ∃ c : U32, (0 < c.toNat ∧ c.toNat < 0xD800) ∧
        (Pred.validIf kIsAssigned).call32 (charClass w) c.toNat = true ∧
        (Pred.validIf kIsAssigned).call32 (charClass v) c.toNat = false := by
    intro v w h
    cases v <;> cases w <;> first | exact absurd h (by decide) | skip
    · exact ⟨0x8B3, by decide +kernel⟩
    · exact ⟨0x8B6, by decide +kernel⟩
    · exact ⟨0x20BF, by decide +kernel⟩
    · exact ⟨0x560, by decide +kernel⟩
    · exact ⟨0xC77, by decide +kernel⟩
    · exact ⟨0x8BE, by decide +kernel⟩
    · exact ⟨0x61D, by decide +kernel⟩
    · exact ⟨0xCF3, by decide +kernel⟩
    · exact ⟨0x897, by decide +kernel⟩
  have pred : ∃ u : Version, Spec.Version.number w = Spec.Version.number u + 1 ∧
      Spec.Version.LE v u := by
    unfold Spec.Version.LE at hvw ⊢
    cases w
    · cases v <;> first | exact absurd rfl hne | exact absurd hvw (by decide)
    · refine ⟨.v7, rfl, ?_⟩
      cases v <;> first | decide | exact absurd rfl hne | exact absurd hvw (by decide)
    · refine ⟨.v8, rfl, ?_⟩
      cases v <;> first | decide | exact absurd rfl hne | exact absurd hvw (by decide)
    · refine ⟨.v9, rfl, ?_⟩
      cases v <;> first | decide | exact absurd rfl hne | exact absurd hvw (by decide)
    · refine ⟨.v10, rfl, ?_⟩
      cases v <;> first | decide | exact absurd rfl hne | exact absurd hvw (by decide)
    · refine ⟨.v11, rfl, ?_⟩
      cases v <;> first | decide | exact absurd rfl hne | exact absurd hvw (by decide)
    · refine ⟨.v12, rfl, ?_⟩
      cases v <;> first | decide | exact absurd rfl hne | exact absurd hvw (by decide)
    · refine ⟨.v13, rfl, ?_⟩
      cases v <;> first | decide | exact absurd rfl hne | exact absurd hvw (by decide)
    · refine ⟨.v14, rfl, ?_⟩
      cases v <;> first | decide | exact absurd rfl hne | exact absurd hvw (by decide)
    · refine ⟨.v15, rfl, ?_⟩
      cases v <;> first | decide | exact absurd rfl hne | exact absurd hvw (by decide)
  obtain ⟨u, hu, hle⟩ := pred
  obtain ⟨c, h0, h1, h2⟩ := step u w hu
  refine ⟨c, h0, h1, ?_⟩
  cases h3 : (Pred.validIf kIsAssigned).call32 (charClass v) c.toNat with
  | false => rfl
  | true => rw [C37_assigned hle c h3] at h2; cases h2

/-- The assigned characters tell the version apart as well: each version has a character that the one
before does not have. So the report is not just a name: no two versions have the same tables. -/
theorem C42_tables_differ {v w : Version} (hvw : Spec.Version.LE v w) (hne : v ≠ w) :
    ∃ c : U32, (Pred.validIf kIsAssigned).call32 (charClass w) c.toNat = true ∧
      (Pred.validIf kIsAssigned).call32 (charClass v) c.toNat = false :=
  (tables_differ hvw hne).imp fun _ h => h.2

example : Unicode.getUnicodeVersionSupported .v16 = "16.0.0" := rfl

/-! ## C43: lower-casing keeps validity -/

theorem call32_congr {v : Version} {x y : Nat} (h : Unicode.SameClasses v x y) (pred : Pred) :
    pred.call32 (charClass v) x = pred.call32 (charClass v) y := by
  unfold Pred.call32 charToEncodingTypeMask32
  rw [h.1, h.2.1, h.2.2.1, h.2.2.2]

theorem lowerNat_kind (v : Version) (t : Bool) {x : Nat} (hx : x ≤ 0xFFFFFFFF) :
    Unicode.SameClasses v x (lowerNat v t x) ∧ (x ≤ 0xFFFF ↔ lowerNat v t x ≤ 0xFFFF) ∧
      (t = false → x ≤ 0x7F → lowerNat v t x ≤ 0x7F) := by
  have h := Unicode.toLower_classes v hx
  unfold lowerNat
  by_cases hi : t = true ∧ x = 0x49
  · rw [if_pos hi, hi.2]
    exact ⟨Unicode.dotless_classes v, by decide, fun ht => absurd ht (by rw [hi.1]; decide)⟩
  · rw [if_neg hi]
    exact ⟨h.1, h.2.1, fun _ => h.2.2⟩

theorem ok_congr {x y : Res Bool} {P Q : Prop} (hx : ∃ b, x = .ok b ∧ (b = true ↔ P))
    (hy : ∃ b, y = .ok b ∧ (b = true ↔ Q)) (h : P ↔ Q) : x = y := by
  obtain ⟨b, rfl, hb⟩ := hx
  obtain ⟨c, rfl, hc⟩ := hy
  exact congrArg _ (Bool.eq_iff_iff.2 (hb.trans (h.trans hc.symm)))

/-- Every predicate says the same of a character and of its lower case. -/
theorem C43_predicate (v : Version) (lang : Lang) (c : U32) :
    ∃ d, toLower32S v [c] (langPtr lang) = .ok [d] ∧
      ∀ pred : Pred, pred.call32 (charClass v) d.toNat = pred.call32 (charClass v) c.toNat := by
  refine ⟨_, toLower32S_eq v [c] lang, fun pred => ?_⟩
  rw [lowerChar_toNat]
  exact (call32_congr (lowerNat_kind v _ (u32_le c)).1 pred).symm

theorem accFlags_lower (v : Version) (t : Bool) {r : Spec.Range} (hr : r ≠ .ascii) {x : Nat}
    (hx : x ≤ 0xFFFFFFFF) :
    (¬ Surrogate (lowerNat v t x) ↔ ¬ Surrogate x) ∧ (AccFlags r (lowerNat v t x) ↔ AccFlags r x) ∧
      (Acc8 r (lowerNat v t x) ↔ Acc8 r x) := by
  have h2 := (lowerNat_kind v t hx).2.1
  rcases lowerNat_cases v t hx with e | ⟨s1, s2⟩
  · rw [e]; exact ⟨Iff.rfl, Iff.rfl, Iff.rfl⟩
  · refine ⟨iff_of_true s2.2.2 s1.2.2, ?_⟩
    unfold Scalar at s1 s2
    refine ⟨?_, ?_⟩
    · cases r
      · exact absurd rfl hr
      all_goals first | exact Iff.rfl | (unfold AccFlags; omega)
    · cases r
      · exact absurd rfl hr
      all_goals unfold Acc8; omega

theorem textOf_map_lower (v : Version) (t : Bool) (s : List U32) :
    textOf (s.map (lowerChar v t)) = (textOf s).map (lowerChar v t) := by
  have hz : ∀ c : U32, (lowerChar v t c != 0) = (c != 0) := by
    intro c
    have h0 : lowerChar v t c = 0 ↔ c = 0 := by
      constructor
      · intro e
        have e' : lowerNat v t c.toNat = 0 := by rw [← lowerChar_toNat, e]; rfl
        rcases lowerNat_cases v t (u32_le c) with h | ⟨_, h⟩
        · rw [h] at e'; exact BitVec.eq_of_toNat_eq e'
        · unfold Scalar at h; omega
      · rintro rfl
        refine BitVec.eq_of_toNat_eq ?_
        rw [lowerChar_toNat]
        rcases lowerNat_cases v t (u32_le 0) with h | ⟨h, _⟩
        · exact h
        · exact absurd h (by decide)
    by_cases e : c = 0
    · rw [h0.2 e, e]
    · rw [bne_iff_ne.2 e, bne_iff_ne.2 fun h => e (h0.1 h)]
  unfold textOf
  induction s with
  | nil => rfl
  | cons c s ih =>
    rw [List.map_cons, List.takeWhile_cons, List.takeWhile_cons, hz]
    split
    · rw [ih, List.map_cons]
    · rfl

/-- UCS-4: for every range other than ASCII, every predicate and every language, the validator says the
same of a string and of its lower case. -/
theorem C43_ucs4 (v : Version) (lang : Lang) {r : Spec.Range} (hr : r ≠ .ascii) (pred : Pred)
    (s : List U32) :
    (toLower32S v s (langPtr lang)).bind (isUcs4S (charClass v) · r.code pred) =
      isUcs4S (charClass v) s r.code pred := by
  rw [toLower32S_eq, Res.bind_ok]
  refine ok_congr (isUcs4S_any _ r pred _) (isUcs4S_any _ r pred s) ?_
  rw [textOf_map_lower, List.forall_mem_map]
  refine forall_congr' fun c => imp_congr_right fun _ => ?_
  have h := accFlags_lower v (turkicLang lang) hr (u32_le c)
  rw [lowerChar_toNat, h.1, h.2.1, call32_congr (lowerNat_kind v _ (u32_le c)).1 pred]

/-- UTF-8: the same for every string of whole characters. -/
theorem C43_utf8 (v : Version) (lang : Lang) {r : Spec.Range} (hr : r ≠ .ascii) (pred : Pred)
    {s : List Byte} {us : List Nat} (hs : Utf8Text s us) :
    (toLower8S v s (langPtr lang)).bind (isUtf8S (charClass v) · r.code pred) =
      isUtf8S (charClass v) s r.code pred := by
  have he := text_encodable hs
  obtain ⟨ws, e, hsc, h4, _⟩ := toUcs4From8S_any s
  rw [textOf_of_nulFree (text_nulFree hs)] at hsc
  obtain ⟨e1, rfl⟩ := scan_unique hsc (scan_of_text hs)
  rw [e1] at h4
  clear hsc
  rw [if_pos (by rfl)] at h4
  rw [toLower8S_chars v lang h4 he, Res.bind_ok]
  have hm := map_encodable v (turkicLang lang) he
  have h1 := text_utf8Of hm
  have hc : Scan (textOf s) us .done := by
    rw [textOf_of_nulFree (text_nulFree hs)]; exact scan_of_text hs
  have hc' : Scan (textOf (utf8Of (us.map (lowerNat v (turkicLang lang)))))
      (us.map (lowerNat v (turkicLang lang))) .done := by
    rw [textOf_of_nulFree (utf8Of_nulFree hm)]; exact scan_of_text h1
  refine ok_congr (isUtf8S_any _ r pred hc') (isUtf8S_any _ r pred hc) ?_
  rw [List.forall_mem_map]
  refine and_congr (forall_congr' fun x => imp_congr_right fun hx => ?_) Iff.rfl
  have hx' : x ≤ 0xFFFFFFFF := by have := he x hx; unfold Encodable at this; omega
  rw [(accFlags_lower v (turkicLang lang) hr hx').2.2, call32_congr (lowerNat_kind v _ hx').1 pred]

/-- UTF-8, any bytes: what was accepted is accepted after lower-casing. -/
theorem C43_utf8_accepted (v : Version) (lang : Lang) {r : Spec.Range} (hr : r ≠ .ascii)
    (pred : Pred) (s : List Byte) (h : isUtf8S (charClass v) s r.code pred = .ok true) :
    (toLower8S v s (langPtr lang)).bind (isUtf8S (charClass v) · r.code pred) = .ok true := by
  obtain ⟨vs, e, hsc, h4, _⟩ := toUcs4From8S_any s
  have h' := of_ok_true (isUtf8S_any _ r pred hsc) h
  have he := scan_encodable hsc
  have hok : e.ok = true := by cases e <;> first | rfl | exact absurd h'.2 id
  rw [if_pos hok] at h4
  rw [toLower8S_chars v lang h4 he, Res.bind_ok]
  have hm := map_encodable v (turkicLang lang) he
  have hc' : Scan (textOf (utf8Of (vs.map (lowerNat v (turkicLang lang)))))
      (vs.map (lowerNat v (turkicLang lang))) .done := by
    rw [textOf_of_nulFree (utf8Of_nulFree hm)]; exact scan_of_text (text_utf8Of hm)
  refine ok_true_of (isUtf8S_any _ r pred hc') ⟨?_, trivial⟩
  rw [List.forall_mem_map]
  intro x hx
  have hx' : x ≤ 0xFFFFFFFF := by have := he x hx; unfold Encodable at this; omega
  rw [(accFlags_lower v (turkicLang lang) hr hx').2.2,
    ← call32_congr (lowerNat_kind v _ hx').1 pred]
  exact h'.1 x hx

theorem predUnit_lower (v : Version) (t : Bool) (pred : Pred) {x : Nat} (hx : Scalar x) :
    pred.call16 (charClass v) (predUnit (lowerNat v t x)) =
      pred.call16 (charClass v) (predUnit x) := by
  have hx' : x ≤ 0xFFFFFFFF := by unfold Scalar at hx; omega
  have hs := lowerNat_scalar v t hx
  have hk := lowerNat_kind v t hx'
  have agree : ∀ y, y < 0x10000 → pred.call16 (charClass v) y = pred.call32 (charClass v) y := by
    intro y hy
    have h := C26_overloads_agree v pred (BitVec.ofNat 16 y)
    rwa [BitVec.toNat_ofNat, Nat.mod_eq_of_lt (by omega)] at h
  unfold Scalar at hx hs
  unfold predUnit
  by_cases hb : x < 0x10000
  · rw [if_pos hb, if_pos (by omega), agree _ hb, agree _ (by omega)]
    exact (call32_congr hk.1 pred).symm
  · rw [if_neg hb, if_neg (by omega), agree _ (by omega), agree _ (by omega)]
    have s1 := Unicode.surrogate_classes v (x := 0xD800 + (x - 0x10000) / 0x400)
      (by unfold Surrogate; omega)
    have s2 := Unicode.surrogate_classes v (x := 0xD800 + (lowerNat v t x - 0x10000) / 0x400)
      (by unfold Surrogate; omega)
    refine call32_congr ⟨?_, ?_, ?_, ?_⟩ pred
    · rw [s1.1, s2.1]
    · rw [s1.2.1, s2.2.1]
    · rw [s1.2.2.1, s2.2.2.1]
    · rw [s1.2.2.2, s2.2.2.2]

/-- UTF-16: the same for every string of whole characters. -/
theorem C43_utf16 (v : Version) (lang : Lang) {r : Spec.Range} (hr : r ≠ .ascii) (pred : Pred)
    {vs : List Nat} (hv : ∀ x ∈ vs, Scalar x) :
    (toLower16S v (utf16Of vs) (langPtr lang)).bind (isUtf16S (charClass v) · r.code pred) =
      isUtf16S (charClass v) (utf16Of vs) r.code pred := by
  have hm := map_scalar v (turkicLang lang) hv
  rw [toLower16S_chars v lang (toUcs4From16S_utf16Of hv) hv, Res.bind_ok]
  have sc : ∀ {us : List Nat}, (∀ x ∈ us, Scalar x) → Scan16 false (textOf (utf16Of us)) us .done :=
    fun hu => by rw [textOf_of_nulFree (utf16Of_nulFree hu)]; exact scan16_utf16Of hu
  refine ok_congr (isUtf16S_any _ r pred (sc hm)) (isUtf16S_any _ r pred (sc hv)) ?_
  rw [List.forall_mem_map]
  refine and_congr (forall_congr' fun x => imp_congr_right fun hx => ?_) Iff.rfl
  have hx' : x ≤ 0xFFFFFFFF := by have := hv x hx; unfold Scalar at this; omega
  rw [(accFlags_lower v (turkicLang lang) hr hx').2.1, predUnit_lower v _ pred (hv x hx)]

/-- ASCII text stays ASCII text, unless the language is Turkic. -/
theorem C43_ascii (v : Version) {lang : Lang} (hl : ¬ Turkic lang) (pred : Pred) :
    (∀ s, isUcs4S (charClass v) s Spec.Range.ascii.code pred = .ok true →
      (toLower32S v s (langPtr lang)).bind (isUcs4S (charClass v) · Spec.Range.ascii.code pred) =
        .ok true) ∧
    (∀ s, isUtf8S (charClass v) s Spec.Range.ascii.code pred = .ok true →
      (toLower8S v s (langPtr lang)).bind (isUtf8S (charClass v) · Spec.Range.ascii.code pred) =
        .ok true) := by
  have ht : turkicLang lang = false := by
    cases e : turkicLang lang with
    | false => rfl
    | true => exact absurd ((turkicLang_iff lang).1 e) hl
  refine ⟨fun s h => ?_, fun s h => ?_⟩
  · have h' := of_ok_true (isUcs4S_any _ .ascii pred s) h
    rw [toLower32S_eq, Res.bind_ok]
    refine ok_true_of (isUcs4S_any _ .ascii pred _) ?_
    rw [textOf_map_lower, List.forall_mem_map]
    intro c hc
    have hk := lowerNat_kind v (turkicLang lang) (u32_le c)
    have hc := h' c hc
    unfold AccFlags at hc ⊢
    have := hk.2.2 ht (by omega)
    rw [lowerChar_toNat, ← call32_congr hk.1 pred]
    refine ⟨?_, by omega, hc.2.2⟩
    unfold Surrogate
    omega
  · obtain ⟨vs, e, hsc, h4, _⟩ := toUcs4From8S_any s
    have h' := of_ok_true (isUtf8S_any _ .ascii pred hsc) h
    have he := scan_encodable hsc
    have hok : e.ok = true := by cases e <;> first | rfl | exact absurd h'.2 id
    rw [if_pos hok] at h4
    rw [toLower8S_chars v lang h4 he, Res.bind_ok]
    have hm := map_encodable v (turkicLang lang) he
    have hc' : Scan (textOf (utf8Of (vs.map (lowerNat v (turkicLang lang)))))
        (vs.map (lowerNat v (turkicLang lang))) .done := by
      rw [textOf_of_nulFree (utf8Of_nulFree hm)]; exact scan_of_text (text_utf8Of hm)
    refine ok_true_of (isUtf8S_any _ .ascii pred hc') ⟨?_, trivial⟩
    rw [List.forall_mem_map]
    intro x hx
    have hc := h'.1 x hx
    unfold Acc8 at hc ⊢
    have hk := lowerNat_kind v (turkicLang lang) (x := x) (by omega)
    have := hk.2.2 ht (by omega)
    rw [← call32_congr hk.1 pred]
    exact ⟨by omega, hc.2⟩

/-- In Turkish it does not: "I" becomes a dotless i, outside ASCII. -/
theorem C43_ascii_turkic (v : Version) :
    isUcs4S (charClass v) [0x49] Spec.Range.ascii.code Pred.none = .ok true ∧
    (toLower32S v [0x49] (langPtr (some (ascii ['t', 'r'])))).bind
      (isUcs4S (charClass v) · Spec.Range.ascii.code Pred.none) = .ok false := by
  have e : toLower32S v [0x49] (langPtr (some (ascii ['t', 'r']))) = .ok [0x131] := by
    have ht : Turkic (some (ascii ['t', 'r'])) := ⟨['t', 'r'], by decide, by decide⟩
    rw [toLower32S_eq, (turkicLang_iff _).2 ht]
    refine congrArg (fun c => Res.ok [c]) (BitVec.eq_of_toNat_eq ?_)
    rw [lowerChar_toNat]
    exact if_pos ⟨rfl, rfl⟩
  rw [e]
  exact ⟨rfl, rfl⟩

/-- "Aé" and the pair for 𐐀: accepted as assigned text (UTF-8), and lower-cased to something else. -/
example : isUtf8S (charClass .v16) (utf8Of [0x41, 0xC9, 0x10400]) Spec.Range.unicode.code
      (Pred.validIf kIsAssigned) = .ok true ∧
    toLower8S .v16 (utf8Of [0x41, 0xC9, 0x10400]) none = .ok (utf8Of [0x61, 0xE9, 0x10428]) := by
  decide +kernel

end Ansak.Props
