import Verif.Lemmas.Alone
import Verif.Props.SplitJoin
import Verif.Props.Trim

/-!
# C46, C47: splitting, joining and trimming encoded text
-/

namespace Ansak.Props

open Spec (textOf Utf8Text Utf8Reads Scalar Surrogate Encodable utf8Of utf16Of ucs4Of TrimmedTo
  TrimBlank NulFree)

/-! ## C46: `split` and `join` of encoded text -/

theorem split_pieces {w : Nat} {s : List (BitVec w)} (hne : s ≠ []) {d : BitVec w}
    (hs : s.count d ≤ 0x7FFFFFFF) : split s d = .ok (pieces d s) := by
  rw [split_eq, if_neg hne, if_pos hs]

/-- UTF-8: splitting at an ASCII character never cuts another character. The pieces are well-formed, and
their characters are the characters of the text between the delimiters. Missing from the full property,
as in C31: texts with 2^31 delimiters or more. -/
theorem C46_split_utf8_partial {s : List Byte} {vs : List Nat} (h : Utf8Text s vs) (hne : s ≠ [])
    {d : Byte} (hd : d.toNat < 0x80) (hs : s.count d ≤ 0x7FFFFFFF) :
    ∃ parts : List (List Byte × List Nat), split s d = .ok (parts.map Prod.fst) ∧
      (∀ p ∈ parts, Utf8Text p.1 p.2 ∧ d.toNat ∉ p.2) ∧
      vs = List.intercalate [d.toNat] (parts.map Prod.snd) := by
  obtain ⟨parts, h1, h2, h3⟩ := pieces_enc (alone_ascii hd) (encText_utf8.2 h)
  refine ⟨parts, by rw [split_pieces hne hs, h1], fun p hp => ⟨encText_utf8.1 (h3 p hp), ?_⟩, ?_⟩
  · exact pieces_not_mem d.toNat vs p.2 (by rw [h2]; exact List.mem_map_of_mem hp)
  · rw [← h2, intercalate_pieces]

/-- UTF-16: splitting at a character of the BMP never cuts a surrogate pair. Missing from the full
property: as above. -/
theorem C46_split_utf16_partial {vs : List Nat} (hv : ∀ v ∈ vs, Scalar v) (hne : vs ≠ []) {d : U16}
    (hd : ¬ Surrogate d.toNat) (hs : vs.count d.toNat ≤ 0x7FFFFFFF) :
    ∃ parts : List (List Nat), split (utf16Of vs) d = .ok (parts.map utf16Of) ∧
      (∀ p ∈ parts, d.toNat ∉ p) ∧ vs = List.intercalate [d.toNat] parts := by
  obtain ⟨parts, h1, h2, h3⟩ := pieces_enc (alone_bmp hd) (encText_utf16.2 ⟨rfl, hv⟩)
  have hnil : utf16Of vs ≠ [] := by
    intro e
    have hu := toUcs4From16S_utf16Of hv
    rw [e] at hu
    have h0 : toUcs4From16S [] = .ok [] := rfl
    rw [h0] at hu
    have := congrArg List.length (Res.ok.inj hu)
    unfold ucs4Of at this
    rw [List.length_map] at this
    exact hne (List.length_eq_zero_iff.1 this.symm)
  have hc : (utf16Of vs).count d ≤ 0x7FFFFFFF := by
    have l1 := pieces_length d (utf16Of vs)
    have l2 := pieces_length d.toNat vs
    rw [h1, List.length_map] at l1
    rw [h2, List.length_map] at l2
    omega
  refine ⟨pieces d.toNat vs, ?_, fun p hp => pieces_not_mem d.toNat vs p hp, ?_⟩
  · rw [split_pieces hnil hc, h1, h2, List.map_map]
    exact congrArg Res.ok (List.map_congr_left fun p hp => (encText_utf16.1 (h3 p hp)).1)
  · rw [intercalate_pieces]

/-- Apply a conversion to each string of a list. -/
def each {α β : Type} (f : α → Res β) : List α → Res (List β)
  | [] => .ok []
  | a :: as => (f a).bind fun b => (each f as).map (b :: ·)

theorem each_ok {α β : Type} {f : α → Res β} {g : α → β} {as : List α} (h : ∀ a ∈ as, f a = .ok (g a)) :
    each f as = .ok (as.map g) := by
  induction as with
  | nil => rfl
  | cons a as ih =>
    rw [List.forall_mem_cons] at h
    unfold each
    rw [h.1, Res.bind_ok, ih h.2]
    rfl

theorem pieces_map {α β : Type} [DecidableEq α] [DecidableEq β] (f : α → β) (d : α) {s : List α}
    (h : ∀ c ∈ s, f c = f d → c = d) : pieces (f d) (s.map f) = (pieces d s).map (List.map f) := by
  induction s with
  | nil => rfl
  | cons c s ih =>
    rw [List.forall_mem_cons] at h
    rw [List.map_cons, pieces_cons, pieces_cons, ih h.2]
    by_cases e : c = d
    · rw [if_pos e, if_pos (congrArg f e)]; rfl
    · rw [if_neg e, if_neg fun e' => e (h.1 e')]
      cases pieces d s <;> rfl

theorem toUcs4From8S_reads {s : List Byte} {vs : List Nat} (h : Utf8Text s vs) :
    toUcs4From8S s = .ok (ucs4Of vs) := by
  obtain ⟨us, e, hsc, h4, _⟩ := toUcs4From8S_any s
  rw [textOf_of_nulFree (text_nulFree h)] at hsc
  obtain ⟨rfl, rfl⟩ := scan_unique hsc (scan_of_text h)
  rw [h4, if_pos (by rfl)]

/-- Splitting and converting can be done in either order. Missing from the full property: as above. -/
theorem C46_split_converts_partial {s : List Byte} {vs : List Nat} (h : Utf8Text s vs) {d : Byte}
    (hd : d.toNat < 0x80) (hs : s.count d ≤ 0x7FFFFFFF) :
    (split s d).bind (each toUcs4From8S) =
      (toUcs4From8S s).bind (split · (BitVec.ofNat 32 d.toNat)) := by
  by_cases hne : s = []
  · subst hne
    rw [split_eq, if_pos rfl]
    rfl
  have hvs : vs ≠ [] := fun e => hne ((text_eq_nil_iff h).2 e)
  obtain ⟨parts, h1, h2, h3⟩ := pieces_enc (alone_ascii hd) (encText_utf8.2 h)
  have he := text_encodable h
  have small : ∀ v ∈ vs, v < 2 ^ 32 := fun v hv => by
    have := he v hv; unfold Encodable at this; omega
  have hp : pieces (BitVec.ofNat 32 d.toNat) (ucs4Of vs) = (pieces d.toNat vs).map ucs4Of := by
    refine pieces_map (BitVec.ofNat 32) d.toNat fun c hc e => ?_
    have := congrArg BitVec.toNat e
    rw [BitVec.toNat_ofNat, BitVec.toNat_ofNat, Nat.mod_eq_of_lt (small c hc),
      Nat.mod_eq_of_lt (by omega)] at this
    exact this
  have hc : (ucs4Of vs).count (BitVec.ofNat 32 d.toNat) ≤ 0x7FFFFFFF := by
    have l1 := pieces_length (BitVec.ofNat 32 d.toNat) (ucs4Of vs)
    have l2 := pieces_length d s
    rw [hp, h2, List.length_map, List.length_map] at l1
    rw [h1, List.length_map] at l2
    omega
  rw [split_pieces hne hs, Res.bind_ok, toUcs4From8S_reads h, Res.bind_ok,
    split_pieces (by unfold ucs4Of; simpa using hvs) hc, hp, h1, h2, List.map_map]
  clear h1 h2 hp
  induction parts with
  | nil => rfl
  | cons p parts ih =>
    rw [List.forall_mem_cons] at h3
    rw [List.map_cons, List.map_cons]
    unfold each
    rw [toUcs4From8S_reads (encText_utf8.1 h3.1), Res.bind_ok, ih h3.2]
    rfl

/-- Joining well-formed pieces with an ASCII delimiter (not NUL) gives well-formed text. -/
theorem C46_join_utf8 {parts : List (List Byte × List Nat)} (h : ∀ p ∈ parts, Utf8Text p.1 p.2)
    {d : Byte} (hd : d ≠ 0) (hd' : d.toNat < 0x80) :
    ∃ s, join (parts.map Prod.fst) d = .ok s ∧
      Utf8Text s (List.intercalate [d.toNat] (parts.map Prod.snd)) := by
  refine ⟨_, C31_join_partial _ hd, ?_⟩
  have hdt : Utf8Text [d] [d.toNat] := by
    have hpos : 1 ≤ d.toNat := by
      have : d.toNat ≠ 0 := fun e => hd (BitVec.eq_of_toNat_eq e)
      omega
    have hc : Spec.Utf8Char (Spec.utf8 d.toNat) d.toNat :=
      .plain ⟨hpos, by omega, by unfold Surrogate; omega⟩
    have := Utf8Text.cons hc .nil
    rwa [alone_low hd', BitVec.ofNat_toNat, BitVec.setWidth_eq, List.append_nil] at this
  induction parts with
  | nil => exact .nil
  | cons p parts ih =>
    rw [List.forall_mem_cons] at h
    cases parts with
    | nil =>
      show Utf8Text (List.intercalate [d] [p.1]) (List.intercalate [d.toNat] [p.2])
      rw [List.intercalate_singleton, List.intercalate_singleton]
      exact h.1
    | cons q parts =>
      have h2 := ih h.2
      show Utf8Text (List.intercalate [d] (p.1 :: q.1 :: parts.map Prod.fst))
        (List.intercalate [d.toNat] (p.2 :: q.2 :: parts.map Prod.snd))
      rw [List.intercalate_cons_cons, List.intercalate_cons_cons]
      exact text_append (text_append h.1 hdt) h2

/-- "é,€": two pieces. -/
example : Utf8Text (utf8Of [0xE9, 0x2C, 0x20AC]) [0xE9, 0x2C, 0x20AC] ∧
    split (utf8Of [0xE9, 0x2C, 0x20AC]) 0x2C = .ok [utf8Of [0xE9], utf8Of [0x20AC]] := by
  refine ⟨text_utf8Of (by decide), ?_⟩
  exact C32_unique_partial (by decide) (by decide) (by decide) rfl

/-- The delimiter has to be ASCII: splitting "é" at the byte A9 cuts it. -/
example : split (utf8Of [0xE9]) 0xA9 = .ok [[0xC3], []] :=
  C32_unique_partial (by decide) (by decide) (by decide) rfl

/-! ## C47: `trim` of encoded text -/

/-- `trim(s, spaces)` of UTF-8 with ASCII `spaces` trims characters: the result is well-formed, and is
the text without its outer spaces. -/
theorem C47_trim_utf8 {s spaces : List Byte} (hsp : ∀ d ∈ spaces, d.toNat < 0x80) {vs ws : List Nat}
    (h : Utf8Text s vs) (ht : TrimmedTo (· ∈ spaces.map BitVec.toNat) vs ws) :
    Utf8Text (trimOf s spaces) ws := by
  obtain ⟨r, h1, h2⟩ := trim_enc (fun d hd => alone_ascii (hsp d hd)) (encText_utf8.2 h) ht
  rw [C33_unique (C33_trimOf s spaces) h1]
  exact encText_utf8.1 h2

/-- `trim(s, spaces)` of UTF-16 with `spaces` in the BMP. -/
theorem C47_trim_utf16 {spaces : List U16} (hsp : ∀ d ∈ spaces, ¬ Surrogate d.toNat)
    {vs ws : List Nat} (hv : ∀ v ∈ vs, Scalar v)
    (ht : TrimmedTo (· ∈ spaces.map BitVec.toNat) vs ws) :
    trimOf (utf16Of vs) spaces = utf16Of ws := by
  obtain ⟨r, h1, h2⟩ := trim_enc (fun d hd => alone_bmp (hsp d hd)) (encText_utf16.2 ⟨rfl, hv⟩) ht
  rw [C33_unique (C33_trimOf _ spaces) h1]
  exact (encText_utf16.1 h2).1

theorem trim_is_trimOf {w : Nat} (s : List (BitVec w)) : trim s = trimOf s [0x20] :=
  C33_unique (C33_trim s) (by simpa using C33_trimOf s [0x20])

/-- `trim(s)` and `trimAscii7WhiteSpace(s)` of UTF-8. -/
theorem C47_trim_ascii {s : List Byte} {vs : List Nat} (h : Utf8Text s vs) :
    (∀ ws, TrimmedTo (· = 0x20) vs ws → Utf8Text (trim s) ws) ∧
    (∀ ws, TrimmedTo (fun v => v = 0x9 ∨ v = 0xA ∨ v = 0xD ∨ v = 0x20) vs ws →
      Utf8Text (trimAscii7WhiteSpace s) ws) := by
  refine ⟨fun ws ht => ?_, fun ws ht => ?_⟩
  · rw [trim_is_trimOf]
    exact C47_trim_utf8 (by decide) h (by simpa using ht)
  · exact C47_trim_utf8 (by decide) h (by simpa using ht)

/-- Such a text without its outer blanks always exists (C33), so the theorems above apply to every
text. -/
theorem C47_exists {blank : Nat → Prop} [DecidablePred blank] (vs : List Nat) :
    ∃ ws, TrimmedTo blank vs ws :=
  ⟨_, trim_trimmedTo (blank := fun v => decide (blank v)) (fun _ => decide_eq_true_iff) vs⟩

/-- " é " -/
example : Utf8Text (utf8Of [0x20, 0xE9, 0x20]) [0x20, 0xE9, 0x20] ∧
    TrimmedTo (· = 0x20) [0x20, 0xE9, 0x20] [0xE9] ∧
    trim (utf8Of [0x20, 0xE9, 0x20]) = utf8Of [0xE9] := by
  refine ⟨text_utf8Of (by decide), ⟨⟨[0x20], [0x20], rfl, by decide, by decide⟩, ?_, ?_⟩, ?_⟩
  · intro c hc; cases hc; decide
  · intro c hc; cases hc; decide
  · decide +kernel

end Ansak.Props
