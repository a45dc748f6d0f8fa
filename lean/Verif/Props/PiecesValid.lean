import Verif.Props.Pieces
import Verif.Props.Validate
import Verif.Props.Unicode

/-!
# C61: pieces, trimmed texts and joined texts are accepted like the texts they come from

For every range `r`, predicate `pred` and version of the classes `U`.
-/

namespace Ansak.Props

open Spec (textOf Utf8Text Scalar Surrogate Encodable utf8Of utf16Of ucs4Of TrimmedTo NulFree)
open Unicode (charClass)

variable {U : CharClass} {r : Spec.Range} {pred : Pred}

/-! ## Acceptance of complete text, character by character -/

theorem accept8 {s : List Byte} {vs : List Nat} (h : Utf8Text s vs) :
    isUtf8S U s r.code pred = .ok true ↔ ∀ v ∈ vs, Acc8 r v ∧ pred.call32 U v = true := by
  have hsc := scan_of_text h
  rw [← textOf_of_nulFree (text_nulFree h)] at hsc
  obtain ⟨b, hb, hi⟩ := isUtf8S_any U r pred hsc
  rw [hb]
  constructor
  · intro e
    injection e with e
    exact (hi.1 e).1
  · intro hv
    rw [hi.2 ⟨hv, trivial⟩]

theorem accept16 {vs : List Nat} (h : ∀ v ∈ vs, Scalar v) :
    isUtf16S U (utf16Of vs) r.code pred = .ok true ↔
      ∀ v ∈ vs, AccFlags r v ∧ pred.call16 U (predUnit v) = true := by
  have hsc := scan16_done_iff.2 ⟨rfl, h⟩
  rw [← textOf_of_nulFree (utf16Of_nulFree h)] at hsc
  obtain ⟨b, hb, hi⟩ := isUtf16S_any U r pred hsc
  rw [hb]
  constructor
  · intro e
    injection e with e
    exact (hi.1 e).1
  · intro hv
    rw [hi.2 ⟨hv, trivial⟩]

theorem accept2 {s : List U16} (h : NulFree s) : isUcs2S U s r.code pred = .ok true ↔
    ∀ c ∈ s, ¬ Surrogate c.toNat ∧ AccFlags r c.toNat ∧ pred.call16 U c.toNat = true := by
  obtain ⟨b, hb, hi⟩ := isUcs2S_any U r pred s
  rw [textOf_of_nulFree h] at hi
  rw [hb, ← hi]
  exact ⟨fun e => by injection e, fun e => by rw [e]⟩

theorem accept4 {s : List U32} (h : NulFree s) : isUcs4S U s r.code pred = .ok true ↔
    ∀ c ∈ s, ¬ Surrogate c.toNat ∧ AccFlags r c.toNat ∧ pred.call32 U c.toNat = true := by
  obtain ⟨b, hb, hi⟩ := isUcs4S_any U r pred s
  rw [textOf_of_nulFree h] at hi
  rw [hb, ← hi]
  exact ⟨fun e => by injection e, fun e => by rw [e]⟩

/-! ## Lists -/

theorem mem_of_mem_piece {α : Type} {d x : α} {ps : List (List α)} {p : List α} (hp : p ∈ ps) (hx : x ∈ p) :
    x ∈ List.intercalate [d] ps := by
  induction ps with
  | nil => cases hp
  | cons q qs ih =>
    cases qs with
    | nil =>
      cases hp with
      | head => simpa [List.intercalate] using hx
      | tail _ h => cases h
    | cons q' qs' =>
      have e : List.intercalate [d] (q :: q' :: qs') = q ++ d :: List.intercalate [d] (q' :: qs') := by
        simp [List.intercalate, List.intersperse]
      rw [e]
      cases hp with
      | head => exact List.mem_append_left _ hx
      | tail _ h => exact List.mem_append_right _ (List.mem_cons_of_mem _ (ih h))

theorem mem_intercalate_cases {α : Type} {d x : α} {ps : List (List α)} (h : x ∈ List.intercalate [d] ps) :
    x = d ∨ ∃ p ∈ ps, x ∈ p := by
  induction ps with
  | nil => simp [List.intercalate] at h
  | cons q qs ih =>
    cases qs with
    | nil => exact .inr ⟨q, List.mem_cons_self, by simpa [List.intercalate] using h⟩
    | cons q' qs' =>
      have e : List.intercalate [d] (q :: q' :: qs') = q ++ d :: List.intercalate [d] (q' :: qs') := by
        simp [List.intercalate, List.intersperse]
      rw [e] at h
      rcases List.mem_append.1 h with h | h
      · exact .inr ⟨q, List.mem_cons_self, h⟩
      · cases h with
        | head => exact .inl rfl
        | tail _ h =>
          rcases ih h with h | ⟨p, hp, hx⟩
          · exact .inl h
          · exact .inr ⟨p, List.mem_cons_of_mem _ hp, hx⟩

theorem mem_trimmed {α : Type} {blank : α → Prop} {s t : List α} (h : TrimmedTo blank s t) {x : α} (hx : x ∈ t) :
    x ∈ s := by
  obtain ⟨pre, suf, rfl, _⟩ := h.1
  exact List.mem_append_left _ (List.mem_append_right _ hx)

/-- When `split` returns, it returns the pieces between the delimiters. -/
theorem split_ok {w : Nat} {s : List (BitVec w)} {d : BitVec w} {ps : List (List (BitVec w))}
    (h : split s d = .ok ps) : ps = [] ∨ (s ≠ [] ∧ s.count d ≤ 0x7FFFFFFF ∧ ps = pieces d s) := by
  rw [split_eq] at h
  by_cases e : s = []
  · rw [if_pos e] at h
    injection h with h
    exact .inl h.symm
  · rw [if_neg e] at h
    by_cases hc : s.count d ≤ 0x7FFFFFFF
    · rw [if_pos hc] at h
      injection h with h
      exact .inr ⟨e, hc, h.symm⟩
    · rw [if_neg hc] at h
      cases h

theorem split_mem {w : Nat} {s : List (BitVec w)} {d : BitVec w} {ps : List (List (BitVec w))}
    (h : split s d = .ok ps) {p : List (BitVec w)} (hp : p ∈ ps) : ∀ c ∈ p, c ∈ s := by
  rcases split_ok h with rfl | ⟨_, _, rfl⟩
  · cases hp
  · intro c hc
    have := mem_of_mem_piece (d := d) hp hc
    rwa [intercalate_pieces] at this

/-! ## Splitting -/

/-- The pieces of accepted UTF-8 text, split at an ASCII character, are accepted. -/
theorem C61_split_utf8 {s : List Byte} {vs : List Nat} (h : Utf8Text s vs)
    (ha : isUtf8S U s r.code pred = .ok true) {d : Byte} (hd : d.toNat < 0x80) {ps : List (List Byte)}
    (hs : split s d = .ok ps) : ∀ p ∈ ps, isUtf8S U p r.code pred = .ok true := by
  intro p hp
  rcases split_ok hs with rfl | ⟨hne, hc, rfl⟩
  · cases hp
  obtain ⟨parts, h1, h2, h3⟩ := C46_split_utf8_partial h hne hd hc
  rw [h1] at hs
  injection hs with hs
  rw [← hs] at hp
  obtain ⟨q, hq, rfl⟩ := List.mem_map.1 hp
  refine (accept8 (h2 q hq).1).2 fun v hv => (accept8 h).1 ha v ?_
  rw [h3]
  exact mem_of_mem_piece (List.mem_map_of_mem hq) hv

/-- The pieces of accepted UTF-16 text, split at a character of the BMP, are accepted. -/
theorem C61_split_utf16 {vs : List Nat} (h : ∀ v ∈ vs, Scalar v)
    (ha : isUtf16S U (utf16Of vs) r.code pred = .ok true) {d : U16} (hd : ¬ Surrogate d.toNat)
    {ps : List (List U16)} (hs : split (utf16Of vs) d = .ok ps) :
    ∀ p ∈ ps, isUtf16S U p r.code pred = .ok true := by
  intro p hp
  rcases split_ok hs with rfl | ⟨hne, hc, e⟩
  · cases hp
  obtain ⟨parts, h1, h2, h3⟩ := pieces_enc (alone_bmp hd) (encText_utf16.2 ⟨rfl, h⟩)
  rw [e, h1] at hp
  obtain ⟨q, hq, rfl⟩ := List.mem_map.1 hp
  obtain ⟨e1, e2⟩ := encText_utf16.1 (h3 q hq)
  rw [e1]
  refine (accept16 e2).2 fun v hv => (accept16 h).1 ha v ?_
  rw [← intercalate_pieces d.toNat vs, h2]
  exact mem_of_mem_piece (List.mem_map_of_mem hq) hv

/-- The pieces of accepted UCS-2 text, split at any unit, are accepted. -/
theorem C61_split_ucs2 {s : List U16} (h : NulFree s) (ha : isUcs2S U s r.code pred = .ok true) {d : U16}
    {ps : List (List U16)} (hs : split s d = .ok ps) : ∀ p ∈ ps, isUcs2S U p r.code pred = .ok true :=
  fun _ hp => (accept2 fun c hc => h c (split_mem hs hp c hc)).2
    fun c hc => (accept2 h).1 ha c (split_mem hs hp c hc)

/-- The pieces of accepted UCS-4 text, split at any unit, are accepted. -/
theorem C61_split_ucs4 {s : List U32} (h : NulFree s) (ha : isUcs4S U s r.code pred = .ok true) {d : U32}
    {ps : List (List U32)} (hs : split s d = .ok ps) : ∀ p ∈ ps, isUcs4S U p r.code pred = .ok true :=
  fun _ hp => (accept4 fun c hc => h c (split_mem hs hp c hc)).2
    fun c hc => (accept4 h).1 ha c (split_mem hs hp c hc)

/-! ## Trimming -/

/-- Accepted text without its outer blanks is accepted. -/
theorem C61_trim :
    (∀ {s : List Byte} {vs : List Nat}, Utf8Text s vs → isUtf8S U s r.code pred = .ok true →
      ∀ spaces : List Byte, (∀ d ∈ spaces, d.toNat < 0x80) → isUtf8S U (trimOf s spaces) r.code pred = .ok true) ∧
    (∀ {vs : List Nat}, (∀ v ∈ vs, Scalar v) → isUtf16S U (utf16Of vs) r.code pred = .ok true →
      ∀ spaces : List U16, (∀ d ∈ spaces, ¬ Surrogate d.toNat) →
        isUtf16S U (trimOf (utf16Of vs) spaces) r.code pred = .ok true) ∧
    (∀ {s : List U16}, NulFree s → isUcs2S U s r.code pred = .ok true →
      ∀ spaces, isUcs2S U (trimOf s spaces) r.code pred = .ok true) ∧
    (∀ {s : List U32}, NulFree s → isUcs4S U s r.code pred = .ok true →
      ∀ spaces, isUcs4S U (trimOf s spaces) r.code pred = .ok true) := by
  refine ⟨fun {s vs} h ha spaces hsp => ?_, fun {vs} h ha spaces hsp => ?_, fun {s} h ha spaces => ?_,
    fun {s} h ha spaces => ?_⟩
  · obtain ⟨ws, ht⟩ := C47_exists (blank := (· ∈ spaces.map BitVec.toNat)) vs
    exact (accept8 (C47_trim_utf8 hsp h ht)).2 fun v hv => (accept8 h).1 ha v (mem_trimmed ht hv)
  · obtain ⟨ws, ht⟩ := C47_exists (blank := (· ∈ spaces.map BitVec.toNat)) vs
    rw [C47_trim_utf16 hsp h ht]
    exact (accept16 fun v hv => h v (mem_trimmed ht hv)).2
      fun v hv => (accept16 h).1 ha v (mem_trimmed ht hv)
  · have ht := C33_trimOf s spaces
    exact (accept2 fun v hv => h v (mem_trimmed ht hv)).2 fun v hv => (accept2 h).1 ha v (mem_trimmed ht hv)
  · have ht := C33_trimOf s spaces
    exact (accept4 fun v hv => h v (mem_trimmed ht hv)).2 fun v hv => (accept4 h).1 ha v (mem_trimmed ht hv)

/-! ## Joining -/

/-- Accepted UTF-8 texts joined by an accepted ASCII character are an accepted text. -/
theorem C61_join_utf8 {parts : List (List Byte)} {d : Byte} (hd : d ≠ 0) (hd' : d.toNat < 0x80)
    (h : ∀ p ∈ parts, (∃ vs, Utf8Text p vs) ∧ isUtf8S U p r.code pred = .ok true)
    (ha : isUtf8S U [d] r.code pred = .ok true) :
    ∃ s, join parts d = .ok s ∧ isUtf8S U s r.code pred = .ok true := by
  have : ∃ ps : List (List Byte × List Nat), ps.map Prod.fst = parts ∧ ∀ p ∈ ps, Utf8Text p.1 p.2 := by
    clear ha
    induction parts with
    | nil => exact ⟨[], rfl, fun p hp => by cases hp⟩
    | cons q qs ih =>
      obtain ⟨ps, e, hp⟩ := ih fun p hp => h p (List.mem_cons_of_mem _ hp)
      obtain ⟨vs, hv⟩ := (h q List.mem_cons_self).1
      refine ⟨(q, vs) :: ps, by rw [List.map_cons, e], fun p hp' => ?_⟩
      cases hp' with
      | head => exact hv
      | tail _ h' => exact hp p h'
  obtain ⟨ps, rfl, hp⟩ := this
  obtain ⟨s, hs, ht⟩ := C46_join_utf8 hp hd hd'
  refine ⟨s, hs, (accept8 ht).2 fun v hv => ?_⟩
  rcases mem_intercalate_cases hv with rfl | ⟨q, hq, hx⟩
  · obtain ⟨t, ht1, ht2⟩ := C46_join_utf8 (parts := [([], []), ([], [])])
      (fun p hp => by
        have e : p = ([], []) := by simpa using hp
        rw [e]
        exact text_utf8Of (vs := []) (by simp)) hd hd'
    rw [C31_join_partial _ hd] at ht1
    injection ht1 with ht1
    have e1 : t = [d] := by rw [← ht1]; rfl
    rw [e1] at ht2
    exact (accept8 ht2).1 ha _ (by simp [List.intercalate, List.intersperse])
  · obtain ⟨q', hq', rfl⟩ := List.mem_map.1 hq
    exact (accept8 (hp q' hq')).1 (h q'.1 (List.mem_map_of_mem hq')).2 v hx

/-- Joining UTF-16 texts with a character of the BMP (not NUL) gives the UTF-16 of the joined texts. -/
theorem C46_join_utf16 (parts : List (List Nat)) {d : U16} (hd : d ≠ 0) :
    join (parts.map utf16Of) d = .ok (utf16Of (List.intercalate [d.toNat] parts)) := by
  have one : utf16Of [d.toNat] = [d] := by
    have := d.isLt
    rw [utf16Of_bmp (by simpa using Nat.le_of_lt_succ this)]
    simp [Spec.ucs2Of]
  rw [C31_join_partial _ hd]
  congr 1
  induction parts with
  | nil => rfl
  | cons p parts ih =>
    cases parts with
    | nil => rw [List.map_cons, List.map_nil, List.intercalate_singleton, List.intercalate_singleton]
    | cons q parts =>
      rw [List.map_cons, List.map_cons, List.intercalate_cons_cons, List.intercalate_cons_cons, ← List.map_cons, ih,
        ← one]
      unfold utf16Of
      rw [List.flatMap_append, List.flatMap_append]

/-- Accepted UTF-16 texts joined by an accepted character of the BMP are an accepted text. -/
theorem C61_join_utf16 {parts : List (List Nat)} (hp : ∀ p ∈ parts, ∀ v ∈ p, Scalar v) {d : U16} (hd : d ≠ 0)
    (hd' : ¬ Surrogate d.toNat) (h : ∀ p ∈ parts, isUtf16S U (utf16Of p) r.code pred = .ok true)
    (ha : isUtf16S U [d] r.code pred = .ok true) :
    ∃ s, join (parts.map utf16Of) d = .ok s ∧ isUtf16S U s r.code pred = .ok true := by
  have hsd : ∀ v ∈ [d.toNat], Scalar v := by
    intro v hv
    rw [List.mem_singleton.1 hv]
    have := d.isLt
    have h0 : d.toNat ≠ 0 := fun e => hd (BitVec.eq_of_toNat_eq e)
    exact ⟨by omega, by omega, hd'⟩
  have one : utf16Of [d.toNat] = [d] := by
    have := d.isLt
    rw [utf16Of_bmp (by simpa using Nat.le_of_lt_succ this)]
    simp [Spec.ucs2Of]
  refine ⟨_, C46_join_utf16 parts hd, (accept16 fun v hv => ?_).2 fun v hv => ?_⟩
  · rcases mem_intercalate_cases hv with rfl | ⟨p, hq, hx⟩
    · exact hsd _ List.mem_cons_self
    · exact hp p hq v hx
  · rcases mem_intercalate_cases hv with rfl | ⟨p, hq, hx⟩
    · rw [← one] at ha
      exact (accept16 hsd).1 ha _ List.mem_cons_self
    · exact (accept16 (hp p hq)).1 (h p hq) v hx

/-- Accepted UCS-2 and UCS-4 texts joined by an accepted character are an accepted text. -/
theorem C61_join_ucs :
    (∀ {parts : List (List U16)} {d : U16}, d ≠ 0 → (∀ p ∈ parts, NulFree p ∧ isUcs2S U p r.code pred = .ok true) →
      isUcs2S U [d] r.code pred = .ok true →
      ∃ s, join parts d = .ok s ∧ isUcs2S U s r.code pred = .ok true) ∧
    (∀ {parts : List (List U32)} {d : U32}, d ≠ 0 → (∀ p ∈ parts, NulFree p ∧ isUcs4S U p r.code pred = .ok true) →
      isUcs4S U [d] r.code pred = .ok true →
      ∃ s, join parts d = .ok s ∧ isUcs4S U s r.code pred = .ok true) := by
  have nf : ∀ {w : Nat} {parts : List (List (BitVec w))} {d : BitVec w}, d ≠ 0 → (∀ p ∈ parts, NulFree p) →
      NulFree (List.intercalate [d] parts) := by
    intro w parts d hd h c hc
    rcases mem_intercalate_cases hc with rfl | ⟨p, hp, hx⟩
    · exact hd
    · exact h p hp c hx
  have one : ∀ {w : Nat} {d : BitVec w}, d ≠ 0 → NulFree [d] := by
    intro w d hd c hc
    rw [List.mem_singleton.1 hc]
    exact hd
  refine ⟨fun {parts d} hd h ha => ⟨_, C31_join_partial _ hd, ?_⟩, fun {parts d} hd h ha => ⟨_, C31_join_partial _ hd, ?_⟩⟩
  · refine (accept2 (nf hd fun p hp => (h p hp).1)).2 fun c hc => ?_
    rcases mem_intercalate_cases hc with rfl | ⟨p, hp, hx⟩
    · exact (accept2 (one hd)).1 ha _ List.mem_cons_self
    · exact (accept2 (h p hp).1).1 (h p hp).2 c hx
  · refine (accept4 (nf hd fun p hp => (h p hp).1)).2 fun c hc => ?_
    rcases mem_intercalate_cases hc with rfl | ⟨p, hp, hx⟩
    · exact (accept4 (one hd)).1 ha _ List.mem_cons_self
    · exact (accept4 (h p hp).1).1 (h p hp).2 c hx

/-! ## The hypotheses can be met -/

/-- "é,x" -/
example : Utf8Text (utf8Of [0xE9, 0x2C, 0x78]) [0xE9, 0x2C, 0x78] ∧
    isUtf8S (charClass .v16) (utf8Of [0xE9, 0x2C, 0x78]) Spec.Range.unicode.code (Pred.validIf kIsAssigned) = .ok true ∧
    split (utf8Of [0xE9, 0x2C, 0x78]) 0x2C = .ok [utf8Of [0xE9], [0x78]] :=
  ⟨text_utf8Of (by decide), by decide +kernel, by decide +kernel⟩
example : isUtf16S (charClass .v16) (utf16Of [0x1F600, 0x2C, 0x78]) Spec.Range.unicode.code Pred.none = .ok true ∧
    split (utf16Of [0x1F600, 0x2C, 0x78]) 0x2C = .ok [utf16Of [0x1F600], [0x78]] ∧ ¬ Surrogate (0x2C : U16).toNat := by
  refine ⟨?_, ?_, ?_⟩ <;> decide +kernel
example : isUtf8S (charClass .v16) [0x2C] Spec.Range.unicode.code (Pred.validIf kIsAssigned) = .ok true := by
  decide +kernel

end Ansak.Props
