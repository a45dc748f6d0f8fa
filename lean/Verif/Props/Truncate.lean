import Verif.Lemmas.Prefix

/-!
# C44, C45: cutting a text anywhere is safe
-/

namespace Ansak.Props

open Spec (textOf NulFree Utf8Text Utf8Reads Scalar Surrogate Encodable utf8Of utf16Of ucs4Of
  Utf16Incomplete)

/-! ## C44: UTF-8 -/

/-- Text that is accepted for a range and a predicate is accepted when it is cut anywhere. -/
theorem C44_accepted (U : CharClass) (r : Spec.Range) (pred : Pred) {p s : List Byte} (hp : p <+: s)
    (h : isUtf8S U s r.code pred = .ok true) : isUtf8S U p r.code pred = .ok true := by
  obtain ⟨vs, e, hsc⟩ := scan_exists (textOf_nulFree s)
  obtain ⟨h1, h2⟩ := of_ok_true (isUtf8S_any U r pred hsc) h
  rcases reads_of_scan hsc with ⟨t, rfl, hr⟩ | ⟨t, rfl⟩
  · obtain ⟨us, u, hr', hpre, hend⟩ := reads_prefix hr (textOf_prefix hp)
    exact ok_true_of (isUtf8S_any U r pred (scan_of_reads hr'))
      ⟨fun v hv => h1 v (hpre.subset hv), hend r (fun v hv => (h1 v hv).1) h2⟩
  · exact absurd h2 id

/-- The characters of the beginning are the first of the characters of the whole. -/
theorem C44_characters {p s : List Byte} {vs : List Nat} {t : List Byte}
    (hs : Utf8Reads (textOf s) vs t) (hp : p <+: s) :
    ∃ us, us <+: vs ∧ toUcs4From8S p = .ok (ucs4Of us) ∧ toUcs4From8S s = .ok (ucs4Of vs) := by
  obtain ⟨us, u, hr', hpre, _⟩ := reads_prefix hs (textOf_prefix hp)
  have h4 : ∀ {q : List Byte} {ws : List Nat} {w : List Byte}, Utf8Reads (textOf q) ws w →
      toUcs4From8S q = .ok (ucs4Of ws) := by
    intro q ws w hq
    obtain ⟨xs, e, hsc, h4, _⟩ := toUcs4From8S_any q
    obtain ⟨rfl, rfl⟩ := scan_unique hsc (scan_of_reads hq)
    rw [h4, endOf_ok, if_pos rfl]
  exact ⟨us, hpre, h4 hr', h4 hs⟩

/-- UTF-16 made from the beginning of a text is the beginning of the UTF-16 made from it. -/
theorem C44_to_utf16 (U : CharClass) {p s : List Byte} (hp : p <+: s)
    (h : isUtf8S U s Spec.Range.unicode.code Pred.none = .ok true) :
    ∃ x y, toUtf16From8S p = .ok x ∧ toUtf16From8S s = .ok y ∧ x <+: y := by
  obtain ⟨vs, e, hsc, _, h16, _⟩ := toUcs4From8S_any s
  obtain ⟨h1, h2⟩ := of_ok_true (isUtf8S_any U .unicode Pred.none hsc) h
  rcases reads_of_scan hsc with ⟨t, rfl, hr⟩ | ⟨t, rfl⟩
  · obtain ⟨us, u, hr', hpre, _⟩ := reads_prefix hr (textOf_prefix hp)
    obtain ⟨xs, e', hsc', _, h16', _⟩ := toUcs4From8S_any p
    obtain ⟨e1, rfl⟩ := scan_unique hsc' (scan_of_reads hr')
    subst e1
    have hle : ∀ v ∈ vs, v ≤ 0x10FFFF := fun v hv => by
      have := (h1 v hv).1
      unfold Acc8 at this
      omega
    rw [if_pos ⟨endOf_ok _, hle⟩] at h16
    rw [if_pos ⟨endOf_ok _, fun v hv => hle v (hpre.subset hv)⟩] at h16'
    refine ⟨_, _, h16', h16, ?_⟩
    obtain ⟨ws, rfl⟩ := hpre
    exact ⟨utf16Of ws, by unfold utf16Of; rw [List.flatMap_append]⟩
  · exact absurd h2 id

/-- Only the character that was cut can be lost: all the characters `us` that lie entirely within the
beginning are in the result. -/
theorem C44_nothing_lost {a p s : List Byte} {us : List Nat} (ha : Utf8Text a us) (hap : a <+: p)
    (hps : p <+: s) {vs : List Nat} {t : List Byte} (hs : Utf8Reads (textOf s) vs t) :
    ∃ ws, us <+: ws ∧ ws <+: vs ∧ toUcs4From8S p = .ok (ucs4Of ws) := by
  obtain ⟨ws, u, hr, hpre, _⟩ := reads_prefix hs (textOf_prefix hps)
  obtain ⟨xs, e, hsc, h4, _⟩ := toUcs4From8S_any p
  obtain ⟨e1, rfl⟩ := scan_unique hsc (scan_of_reads hr)
  subst e1
  rw [endOf_ok, if_pos rfl] at h4
  refine ⟨xs, ?_, hpre, h4⟩
  have h1 := textOf_prefix hap
  rw [textOf_of_nulFree (text_nulFree ha)] at h1
  obtain ⟨m, hm⟩ := h1
  obtain ⟨ys, e', hy⟩ := scan_exists (s := m) (NulFree.append.1 (hm ▸ textOf_nulFree p)).2
  have h2 := scan_text_append ha hy
  rw [hm] at h2
  exact ⟨ys, (scan_unique h2 hsc).1⟩

/-- "é€😀" cut inside the last character. -/
example : Utf8Reads (textOf (utf8Of [0xE9, 0x20AC, 0x1F600])) [0xE9, 0x20AC, 0x1F600] [] ∧
    (utf8Of [0xE9, 0x20AC, 0x1F600]).take 7 <+: utf8Of [0xE9, 0x20AC, 0x1F600] ∧
    toUcs4From8S ((utf8Of [0xE9, 0x20AC, 0x1F600]).take 7) = .ok [0xE9, 0x20AC] := by
  refine ⟨?_, List.take_prefix _ _, by decide +kernel⟩
  rw [textOf_of_nulFree (utf8Of_nulFree (by decide))]
  exact reads_done (text_utf8Of (by decide))

/-! ## C45: UTF-16 -/

/-- Text that is accepted for a range and a predicate is accepted when it is cut anywhere. -/
theorem C45_accepted (U : CharClass) (r : Spec.Range) (pred : Pred) {p s : List U16} (hp : p <+: s)
    (h : isUtf16S U s r.code pred = .ok true) : isUtf16S U p r.code pred = .ok true := by
  obtain ⟨vs, e, hsc⟩ := scan16_exists false (textOf_nulFree s)
  obtain ⟨h1, h2⟩ := of_ok_true (isUtf16S_any U r pred hsc) h
  have he : e ≠ .bad := by rintro rfl; exact h2
  obtain ⟨us, f, h3, hpre, _, hend⟩ := scan16_prefix hsc he (textOf_prefix hp)
  exact ok_true_of (isUtf16S_any U r pred h3)
    ⟨fun v hv => h1 v (hpre.subset hv), hend r (fun v hv => (h1 v hv).1) h2⟩

/-- The characters of the beginning are the first of the characters of the whole. -/
theorem C45_characters {p s : List U16} {vs : List Nat} {t : List U16}
    (hs : textOf s = utf16Of vs ++ t) (hv : ∀ v ∈ vs, Scalar v) (ht : t = [] ∨ Utf16Incomplete t)
    (hp : p <+: s) :
    ∃ us, us <+: vs ∧ toUcs4From16S p = .ok (ucs4Of us) ∧ toUcs4From16S s = .ok (ucs4Of vs) ∧
      toUtf8From16S p = .ok (utf8Of us) ∧ toUtf8From16S s = .ok (utf8Of vs) := by
  have hsc : ∀ lenient, ∃ e, e ≠ .bad ∧ Scan16 lenient (textOf s) vs e := by
    intro lenient
    rw [hs]
    rcases ht with rfl | ⟨x, rfl, hx⟩
    · rw [List.append_nil]; exact ⟨.done, by simp, scan16_utf16Of hv⟩
    · exact ⟨.cut, by simp, by simpa using scan16_of_scalars hv (.cut hx)⟩
  have ok_of : ∀ {e : End16}, e ≠ .bad → e.ok = true := by
    intro e he; cases e <;> first | rfl | exact absurd rfl he
  obtain ⟨e, he, h1⟩ := hsc false
  obtain ⟨e', he', h1'⟩ := hsc true
  obtain ⟨us, f, h2, hpre, hf, _⟩ := scan16_prefix h1 he (textOf_prefix hp)
  obtain ⟨us', f', h2', hpre', hf', _⟩ := scan16_prefix h1' he' (textOf_prefix hp)
  have same : us = us' := by
    have hl : Scan16 true (textOf p) us f := scan16_lenient h2 hf
    exact (scan16_unique hl h2').1
  subst same
  refine ⟨us, hpre, ?_, ?_, ?_, ?_⟩
  · obtain ⟨xs, g, hx, h⟩ := toUcs4From16S_any p
    obtain ⟨rfl, rfl⟩ := scan16_unique hx h2
    rw [h, if_pos (ok_of hf)]
  · obtain ⟨xs, g, hx, h⟩ := toUcs4From16S_any s
    obtain ⟨rfl, rfl⟩ := scan16_unique hx h1
    rw [h, if_pos (ok_of he)]
  · obtain ⟨xs, g, hx, h⟩ := toUtf8From16S_any p
    obtain ⟨rfl, rfl⟩ := scan16_unique hx h2'
    rw [h, if_pos (ok_of hf')]
  · obtain ⟨xs, g, hx, h⟩ := toUtf8From16S_any s
    obtain ⟨rfl, rfl⟩ := scan16_unique hx h1'
    rw [h, if_pos (ok_of he')]

/-- "a😀" cut inside the pair. -/
example : textOf (utf16Of [0x61, 0x1F600]) = utf16Of [0x61, 0x1F600] ++ [] ∧
    [0x61, 0xD83D] <+: utf16Of [0x61, 0x1F600] ∧ (∀ v ∈ [0x61, 0x1F600], Scalar v) := by
  decide

/-! UCS-2 and UCS-4 validators only look at one unit at a time. -/

/-- UCS-2 and UCS-4: the same. -/
theorem C45_ucs (U : CharClass) (r : Spec.Range) (pred : Pred) :
    (∀ p s : List U16, p <+: s → isUcs2S U s r.code pred = .ok true →
      isUcs2S U p r.code pred = .ok true) ∧
    (∀ p s : List U32, p <+: s → isUcs4S U s r.code pred = .ok true →
      isUcs4S U p r.code pred = .ok true) :=
  ⟨fun p s hp h => ok_true_of (isUcs2S_any U r pred p) fun c hc =>
      of_ok_true (isUcs2S_any U r pred s) h c ((textOf_prefix hp).subset hc),
    fun p s hp h => ok_true_of (isUcs4S_any U r pred p) fun c hc =>
      of_ok_true (isUcs4S_any U r pred s) h c ((textOf_prefix hp).subset hc)⟩

end Ansak.Props
