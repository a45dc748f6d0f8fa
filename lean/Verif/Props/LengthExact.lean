import Verif.Props.Length
import Verif.Props.TextMain

/-!
# C21, C22: the length-terminated functions for every input

`p` is what the caller passes, `n` its length, `x` the memory that follows it (at least one unit, because of `C11_violated`).
Every `p` is well-formed text followed by a rest at which no character starts (`C21_covers`, `C22_covers16`), so that these
theorems give the result for each of them, also where it is not the one that C21 and C22 ask for.
-/

namespace Ansak.Props

open Spec (Arg Returns NulFree Utf8Text Scalar LowSurrogate HighSurrogate Surrogate LooksLow NoChar NoChar16 CutByNul TailOk
  wanted CountWithRest CountWithRest16 utf16Of Utf16Incomplete)

/-- `unicodeLength(p, n)` in UTF-8, for every input. Missing from the full property: the results that `C22_utf8_violated` has
examples of. -/
theorem C22_utf8_exact_partial {a t : List Byte} {vs : List Nat} (ha : Utf8Text a vs) (ht : t = [] ∨ NoChar t)
    (hne : a ++ t ≠ []) {n : U32} (hlen : n.toNat = (a ++ t).length) (x : List Byte) (hx : x ≠ []) :
    ∃ r, unicodeLength8 (some (a ++ t ++ x)) n = .ok r ∧
      ((∀ v ∈ vs, v ≤ 0x10FFFF) → CountWithRest vs.length t r) ∧ ((¬ ∀ v ∈ vs, v ≤ 0x10FFFF) → r = 0) := by
  by_cases hv : ∀ v ∈ vs, v ≤ 0x10FFFF
  · match t, ht with
    | [], _ =>
      rw [List.append_nil] at hne hlen ⊢
      refine ⟨_, unicodeLength8_valid ha hne hlen hv x, fun _ => ?_, fun h => absurd hv h⟩
      unfold CountWithRest
      refine ⟨fun _ => rfl, fun h => ?_, fun h => absurd rfl h, fun h => absurd rfl h, fun h => absurd rfl h⟩
      rcases h with h | h
      · cases h
      · exact h.elim
    | b :: t, ht =>
      have hno : NoChar (b :: t) := ht.resolve_left (by simp)
      by_cases hb : b = 0
      · subst hb
        refine ⟨0, C22_utf8_nul_partial ha hlen x, fun _ => ?_, fun h => absurd hv h⟩
        unfold CountWithRest
        exact ⟨fun h => absurd h (List.cons_ne_nil _ _), fun _ => rfl, fun _ h => absurd rfl h, fun _ h => absurd rfl h,
          fun _ h => absurd rfl h⟩
      · have h0 : (a ++ b :: t).head? ≠ some 0 := by
          intro h
          obtain ⟨w, e⟩ := (head_nul ha h).2
          exact hb (List.cons.inj e).1
        obtain ⟨r, h1, h2, h3, h4, h5⟩ := unicodeLength8Loop_tail hno hb x (OneMore.of_ne hx)
          ((b :: t ++ x).length + 1) vs.length
        refine ⟨r, ?_, fun _ => ?_, fun h => absurd hv h⟩
        · rw [List.append_assoc, unicodeLength8_tail ha (by simp) hlen h0, if_pos hv]
          exact h1
        · unfold CountWithRest
          exact ⟨fun h => absurd h (List.cons_ne_nil _ _), fun h => h2 (h.resolve_left fun h => hb (Option.some.inj h)),
            fun _ _ => h3, fun _ _ => h4, fun _ _ => h5⟩
  · exact ⟨0, C22_utf8_not_unicode ha hv hlen x, fun h => absurd h hv, fun _ => rfl⟩

example : CountWithRest 1 [0x80] 1 ∧ ¬ CountWithRest 1 [0x80] 0 ∧ NoChar [0x80] := by
  unfold CountWithRest
  refine ⟨⟨fun h => absurd h (List.cons_ne_nil _ _), fun h => ?_, fun _ _ _ _ => rfl, fun _ _ _ h => absurd (by decide) h,
    fun _ _ _ h => absurd (by decide) h⟩, fun h => ?_, ?_⟩
  · rcases h with h | h
    · exact absurd (Option.some.inj h) (by decide)
    · exact h.elim
  · exact absurd (h.2.2.1 (List.cons_ne_nil _ _) (by decide) (by decide) (by decide)) (by decide)
  · rintro ⟨bs, v, rest, e, hc⟩
    exact malformed_not_char (.stray (b := 0x80) (s := []) (by decide)) hc e

/-- Every sequence of units is well-formed text followed by a rest at which no character starts, so the next theorem covers every
input. -/
theorem C22_covers16 (p : List U16) :
    ∃ vs t, p = utf16Of vs ++ t ∧ (∀ v ∈ vs, Scalar v) ∧ (t = [] ∨ NoChar16 t) := by
  induction hk : p.length using Nat.strongRecOn generalizing p with
  | _ k ih =>
  by_cases h : NoChar16 p
  · exact ⟨[], p, rfl, by simp, .inr h⟩
  · obtain ⟨v, rest, hv, rfl⟩ := Classical.not_not.1 h
    have : 0 < (Spec.utf16 v).length := by unfold Spec.utf16; split <;> simp
    obtain ⟨vs, t, rfl, h1, h2⟩ := ih rest.length (by rw [List.length_append] at hk; omega) rest rfl
    exact ⟨v :: vs, t, (List.append_assoc ..).symm, List.forall_mem_cons.2 ⟨hv, h1⟩, h2⟩

/-- `unicodeLength(p, n)` in UTF-16, for every input. Missing from the full property: a high surrogate before a NUL
(`C22_utf16_violated`). -/
theorem C22_utf16_exact_partial {vs : List Nat} {t : List U16} (hv : ∀ v ∈ vs, Scalar v) (ht : t = [] ∨ NoChar16 t)
    (hne : utf16Of vs ++ t ≠ []) {n : U32} (hlen : n.toNat = (utf16Of vs ++ t).length) (x : List U16) (hx : x ≠ []) :
    ∃ r, unicodeLength16 (some (utf16Of vs ++ t ++ x)) n = .ok r ∧ CountWithRest16 vs.length t r := by
  rw [List.append_assoc, unicodeLength16_prefix hv hne hlen x (OneMore16.of_ne hx)]
  unfold CountWithRest16
  have cases16 : t = [] ∨ Utf16Incomplete t ∨ (∃ s, t = 0 :: s) ∨ (∃ c s, t = c :: s ∧ LowSurrogate c.toNat) ∨
      ∃ h c s, t = h :: c :: s ∧ HighSurrogate h.toNat ∧ ¬ LowSurrogate c.toNat := by
    rcases ht with rfl | ht
    · exact .inl rfl
    · obtain ⟨ws, u, e, hw, hu⟩ := text_split16 t
      match ws with
      | [] => rw [show utf16Of [] ++ u = u from rfl] at e; exact e ▸ hu
      | w :: ws =>
        refine absurd ⟨w, utf16Of ws ++ u, hw w List.mem_cons_self, ?_⟩ ht
        rw [e, ← List.append_assoc]; rfl
  rcases cases16 with rfl | h | ⟨s, rfl⟩ | ⟨c, s, rfl, hl⟩ | ⟨h, c, s, rfl, hh, hl⟩
  · exact ⟨_, if_pos rfl, fun _ => rfl, fun h w _ e => absurd e.symm (List.cons_ne_nil _ _), fun h => absurd rfl h⟩
  · obtain ⟨c, rfl, hh⟩ := h
    rw [if_neg (by simp)]
    exact ⟨_, unicodeLength16_cut hh x vs.length, fun _ => rfl, fun h w _ e => absurd (List.cons.inj e).2.symm (List.cons_ne_nil _ _),
      fun _ h => absurd ⟨c, rfl, hh⟩ h⟩
  · rw [if_neg (by simp)]
    refine ⟨0, unicodeLength16_nul _ _ _, fun h => ?_, fun h w hh e => ?_, fun _ _ _ => rfl⟩
    · rcases h with h | ⟨c, e, hc⟩
      · cases h
      · rw [← (List.cons.inj e).1] at hc; exact absurd hc (by decide)
    · rw [← (List.cons.inj e).1] at hh; exact absurd hh (by decide)
  · rw [if_neg (by simp)]
    refine ⟨0, unicodeLength16_low hl _ _ _, fun h => ?_, fun h w hh e => ?_, fun _ _ _ => rfl⟩
    · rcases h with h | ⟨d, e, hc⟩
      · cases h
      · rw [← (List.cons.inj e).1] at hc; exact absurd hl (high_not_low hc)
    · rw [← (List.cons.inj e).1] at hh; exact absurd hl (high_not_low hh)
  · rw [if_neg (by simp)]
    refine ⟨_, unicodeLength16_high hh hl (s ++ x) (l := (h :: c :: s).length) (by simp) vs.length, fun h' => ?_,
      fun h' w hh' e => ?_, fun _ _ h3 => ?_⟩
    · rcases h' with h' | ⟨d, e, _⟩
      · cases h'
      · cases (List.cons.inj e).2
    · rw [if_pos (List.cons.inj (List.cons.inj e).2).1]; rfl
    · rw [if_neg]
      rintro rfl
      exact h3 ⟨h, s, hh, rfl⟩

example : NoChar16 [0xD83D, 0] ∧ CountWithRest16 1 [0xD83D, 0] 0 := by
  constructor
  · rintro ⟨v, rest, hv, e⟩
    unfold Spec.utf16 at e
    split at e
    · have := congrArg BitVec.toNat (List.cons.inj e).1
      rw [BitVec.toNat_ofNat] at this
      unfold Scalar Spec.Surrogate at hv
      have h2 : (0xD83D : U16).toNat = 0xD83D := rfl
      rw [h2] at this
      omega
    · have := congrArg BitVec.toNat (List.cons.inj (List.cons.inj e).2).1
      rw [BitVec.toNat_ofNat] at this
      have h2 : (0 : U16).toNat = 0 := rfl
      rw [h2] at this
      omega
  · unfold CountWithRest16
    refine ⟨fun h => ?_, fun _ _ _ _ => by decide, fun _ _ h => absurd ⟨_, _, by decide, rfl⟩ h⟩
    rcases h with h | ⟨_, e, _⟩
    · cases h
    · cases (List.cons.inj e).2

/-! ## The same for the text of the library -/

/-- Exactly what `isUtf8(p, n)` accepts. -/
theorem C21_text_exact_partial (v : Version) (q : Pred) {a t : List Byte} {vs : List Nat} (ha : Utf8Text a vs)
    (ht : t = [] ∨ NoChar t) (hne : a ++ t ≠ []) {n : U32} (hlen : n.toNat = (a ++ t).length) (x : List Byte)
    (hx : x ≠ []) :
    ∃ b, Returns v (name% "isUtf8") [.ptr8 (some (a ++ t ++ x)), .uint n, .pred q] (.bool b) ∧
      (b = true ↔ (a ++ t).head? = some 0 ∨
        ((∀ c ∈ vs, q.call32 (Unicode.charClass v) c = true) ∧ (t = [] ∨ TailOk t))) := by
  simp only [text_iff]
  have := isUtf8Len_buf (Unicode.charClass v) q ha ht hne hlen x (OneMore.of_ne hx)
  rwa [← List.append_assoc] at this

/-- "é" and the first byte of another character are accepted. -/
example : Utf8Text [0xC3, 0xA9] [0xE9] ∧ NoChar [0xC3] ∧ TailOk [0xC3] := by
  refine ⟨.cons (.plain (v := 0xE9) (by decide)) .nil, ?_, _, _, rfl, by decide, by decide, by decide, .inl (by decide)⟩
  rintro ⟨bs, v, rest, e, hc⟩
  exact not_char_of_truncated (.short (by simp) (by decide)) hc e

/-- Without a predicate. -/
theorem C21_text_exact_none_partial (v : Version) {a t : List Byte} {vs : List Nat} (ha : Utf8Text a vs)
    (ht : t = [] ∨ NoChar t) (hne : a ++ t ≠ []) {n : U32} (hlen : n.toNat = (a ++ t).length) (x : List Byte)
    (hx : x ≠ []) :
    ∃ b, Returns v (name% "isUtf8") [.ptr8 (some (a ++ t ++ x)), .uint n] (.bool b) ∧
      (b = true ↔ (a ++ t).head? = some 0 ∨ t = [] ∨ TailOk t) := by
  simp only [text_iff]
  have := isUtf8Len_buf (Unicode.charClass v) Pred.none ha ht hne hlen x (OneMore.of_ne hx)
  rw [← List.append_assoc] at this
  obtain ⟨b, h1, h2⟩ := this
  exact ⟨b, h1, h2.trans (or_congr Iff.rfl ⟨fun h => h.2, fun h => ⟨fun _ _ => rfl, h⟩⟩)⟩

/-- `unicodeLength(p, n)` in UTF-8, for every input. -/
theorem C22_text_utf8_exact_partial (v : Version) {a t : List Byte} {vs : List Nat} (ha : Utf8Text a vs)
    (ht : t = [] ∨ NoChar t) (hne : a ++ t ≠ []) {n : U32} (hlen : n.toNat = (a ++ t).length) (x : List Byte)
    (hx : x ≠ []) :
    ∃ r, Returns v (name% "unicodeLength") [.ptr8 (some (a ++ t ++ x)), .uint n] (.uint r) ∧
      ((∀ c ∈ vs, c ≤ 0x10FFFF) → CountWithRest vs.length t r) ∧ ((¬ ∀ c ∈ vs, c ≤ 0x10FFFF) → r = 0) := by
  simp only [text_iff]
  exact C22_utf8_exact_partial ha ht hne hlen x hx

/-- `unicodeLength(p, n)` in UTF-16, for every input. -/
theorem C22_text_utf16_exact_partial (v : Version) {vs : List Nat} {t : List U16} (hv : ∀ c ∈ vs, Scalar c)
    (ht : t = [] ∨ NoChar16 t) (hne : utf16Of vs ++ t ≠ []) {n : U32} (hlen : n.toNat = (utf16Of vs ++ t).length)
    (x : List U16) (hx : x ≠ []) :
    ∃ r, Returns v (name% "unicodeLength") [.ptr16 (some (utf16Of vs ++ t ++ x)), .uint n] (.uint r) ∧
      CountWithRest16 vs.length t r := by
  simp only [text_iff]
  exact C22_utf16_exact_partial hv ht hne hlen x hx

/-- `unicodeLength(p, n)` in UCS-4, for every input. Missing from the full property: values above U+10FFFF are counted. -/
theorem C22_text_ucs4_exact_partial (v : Version) {p : List U32} (hne : p ≠ []) {n : U32} (hlen : n.toNat = p.length)
    (x : List U32) :
    Returns v (name% "unicodeLength") [.ptr32 (some (p ++ x)), .uint n]
      (.uint (if ∀ c ∈ p, c ≠ 0 ∧ ¬ Surrogate c.toNat then n else 0)) := by
  simp only [text_iff]
  exact C22_ucs4_partial hne hlen x

end Ansak.Props
