import Verif.Lemmas.Cpp.Link
import Verif.Lemmas.Cpp.Trim
import Verif.Lemmas.Cpp.Split
import Verif.Lemmas.Cpp.Join
import Verif.Props.TextDefined
import Verif.Props.Trim
import Verif.Props.SplitJoin

/-!
# C31 to C34, C67: trimming, splitting and joining as they are written

The templates of `interface/string_trim.hxx` and `interface/string_splitjoin.hxx`, for `std::string`, `std::u16string` and
`std::u32string`. `Changes v name victim args out` is defined in `Verif.Spec.Library`. A string whose length does not fit
into `std::string::npos` cannot exist; the theorems have this as a hypothesis.
-/

namespace Ansak.Props

open Cpp
open Spec (Arg Runs Returns Changes enough TrimmedTo TrimBlank Scalar utf8Of)

/-- The lengths that a string can have. -/
abbrev Storable {α : Type} (s : List α) : Prop := s.length < 18446744073709551615

/-! ## The text and the model -/

/-- `trim(std::…string&)`. -/
theorem C67_trim_8 (v : Version) (s : List Byte) (hs : Storable s) :
    Changes v (name% "trim") (.str8 s) [] (.ok (.str8 (trim s))) :=
  changes_of (x := .ok (trim s)) (f := .str8) fun w sc n hn => by
    linked trim8 (E := Sealed.real) (d := d + 7) s hs (by fits)

/-- `trim(std::…string&, const std::…string&)`. -/
theorem C67_trimOf_8 (v : Version) (s spaces : List Byte) (hs : Storable s) (hp : Storable spaces) :
    Changes v (name% "trim") (.str8 s) [.str8 spaces] (.ok (.str8 (trimOf s spaces))) :=
  changes_of (x := .ok (trimOf s spaces)) (f := .str8) fun w sc n hn => by
    linked trimOf8 (E := Sealed.real) (d := d + 7) s spaces hs hp (by fits)

/-- `trim(std::…string&)`. -/
theorem C67_trim_16 (v : Version) (s : List U16) (hs : Storable s) :
    Changes v (name% "trim") (.str16 s) [] (.ok (.str16 (trim s))) :=
  changes_of (x := .ok (trim s)) (f := .str16) fun w sc n hn => by
    linked trim16 (E := Sealed.real) (d := d + 7) s hs (by fits)

/-- `trim(std::…string&, const std::…string&)`. -/
theorem C67_trimOf_16 (v : Version) (s spaces : List U16) (hs : Storable s) (hp : Storable spaces) :
    Changes v (name% "trim") (.str16 s) [.str16 spaces] (.ok (.str16 (trimOf s spaces))) :=
  changes_of (x := .ok (trimOf s spaces)) (f := .str16) fun w sc n hn => by
    linked trimOf16 (E := Sealed.real) (d := d + 7) s spaces hs hp (by fits)

/-- `trim(std::…string&)`. -/
theorem C67_trim_32 (v : Version) (s : List U32) (hs : Storable s) :
    Changes v (name% "trim") (.str32 s) [] (.ok (.str32 (trim s))) :=
  changes_of (x := .ok (trim s)) (f := .str32) fun w sc n hn => by
    linked trim32 (E := Sealed.real) (d := d + 7) s hs (by fits)

/-- `trim(std::…string&, const std::…string&)`. -/
theorem C67_trimOf_32 (v : Version) (s spaces : List U32) (hs : Storable s) (hp : Storable spaces) :
    Changes v (name% "trim") (.str32 s) [.str32 spaces] (.ok (.str32 (trimOf s spaces))) :=
  changes_of (x := .ok (trimOf s spaces)) (f := .str32) fun w sc n hn => by
    linked trimOf32 (E := Sealed.real) (d := d + 7) s spaces hs hp (by fits)

theorem C67_trimAscii7WhiteSpace (v : Version) (s : List Byte) (hs : Storable s) :
    Changes v (name% "trimAscii7WhiteSpace") (.str8 s) [] (.ok (.str8 (trimAscii7WhiteSpace s))) :=
  changes_of (x := .ok (trimAscii7WhiteSpace s)) (f := .str8) fun w sc n hn => by
    linked trimAscii7 (E := Sealed.real) (d := d + 6) s hs (by fits)

theorem C67_trimWhiteSpace_8 (v : Version) (s : List Byte) (hs : Storable s) :
    Changes v (name% "trimWhiteSpace") (.str8 s) [] ((trimWhiteSpace8 s).map .str8) :=
  changes_of fun w sc n hn => by linked trimWhite8 (E := Sealed.real) (d := d + 2) s hs (by fits)

theorem C67_trimWhiteSpace_16 (v : Version) (s : List U16) (hs : Storable s) :
    Changes v (name% "trimWhiteSpace") (.str16 s) [] (.ok (.str16 (trimWhiteSpace16 s))) :=
  changes_of (x := .ok (trimWhiteSpace16 s)) (f := .str16) fun w sc n hn => by
    linked trimWhite16 (E := Sealed.real) (d := d + 6) s hs (by fits)

theorem C67_trimWhiteSpace_32 (v : Version) (s : List U32) (hs : Storable s) :
    Changes v (name% "trimWhiteSpace") (.str32 s) [] (.ok (.str32 (trimWhiteSpace32 s))) :=
  changes_of (x := .ok (trimWhiteSpace32 s)) (f := .str32) fun w sc n hn => by
    linked trimWhite32 (E := Sealed.real) (d := d + 6) s hs (by fits)

theorem C67_split_8 (v : Version) (s : List Byte) (c : Byte) (hs : Storable s) :
    Runs v (name% "split") [.str8 s, .char8 c] ((split s c).map .vec8) :=
  runs_of fun w sc n hn => by linked split8 (E := Sealed.real) (d := d + 7) s c hs (by fits)

theorem C67_join_8 (v : Version) (l : List (List Byte)) (c : Byte) :
    Runs v (name% "join") [.vec8 l, .char8 c] ((join l c).map .str8) :=
  runs_of fun w sc n hn => by linked join8 (E := Sealed.real) (d := d + 7) l c

theorem C67_split_16 (v : Version) (s : List U16) (c : U16) (hs : Storable s) :
    Runs v (name% "split") [.str16 s, .char16 c] ((split s c).map .vec16) :=
  runs_of fun w sc n hn => by linked split16 (E := Sealed.real) (d := d + 7) s c hs (by fits)

theorem C67_join_16 (v : Version) (l : List (List U16)) (c : U16) :
    Runs v (name% "join") [.vec16 l, .char16 c] ((join l c).map .str16) :=
  runs_of fun w sc n hn => by linked join16 (E := Sealed.real) (d := d + 7) l c

theorem C67_split_32 (v : Version) (s : List U32) (c : U32) (hs : Storable s) :
    Runs v (name% "split") [.str32 s, .char32 c] ((split s c).map .vec32) :=
  runs_of fun w sc n hn => by linked split32 (E := Sealed.real) (d := d + 7) s c hs (by fits)

theorem C67_join_32 (v : Version) (l : List (List U32)) (c : U32) :
    Runs v (name% "join") [.vec32 l, .char32 c] ((join l c).map .str32) :=
  runs_of fun w sc n hn => by linked join32 (E := Sealed.real) (d := d + 7) l c

/-- What a call makes of its first argument is determined. -/
theorem C67_changes_unique {v : Version} {name : Nat} {victim : Arg} {args : List Arg} {x y : Res Arg}
    (hx : Changes v name victim args x) (hy : Changes v name victim args y) : x = y := by
  have h := (hx false false _ (Nat.le_refl _)).symm.trans (hy false false _ (Nat.le_refl _))
  cases x with
  | ok a =>
    cases y with
    | ok b =>
      injection h with _ h
      injection h with h _
      injection h with h
      rw [val_injective false h]
    | ub => nomatch h
  | ub =>
    cases y with
    | ok b => nomatch h
    | ub => rfl


theorem C67_split_8_defined (v : Version) {s : List Byte} (hs : Storable s) {c : Byte} (h : s.count c ≤ 0x7FFFFFFF) :
    ∃ l, Returns v (name% "split") [.str8 s, .char8 c] (.vec8 l) := by
  have e := C67_split_8 v s c hs
  rw [split_eq] at e
  by_cases hn : s = []
  · rw [if_pos hn] at e
    exact ⟨_, e⟩
  · rw [if_neg hn, if_pos h] at e
    exact ⟨_, e⟩

theorem C67_join_8_defined (v : Version) (l : List (List Byte)) (c : Byte) :
    ∃ s, Returns v (name% "join") [.vec8 l, .char8 c] (.str8 s) := by
  have e := C67_join_8 v l c
  rw [join_eq] at e
  split at e <;> exact ⟨_, e⟩

theorem C67_split_16_defined (v : Version) {s : List U16} (hs : Storable s) {c : U16} (h : s.count c ≤ 0x7FFFFFFF) :
    ∃ l, Returns v (name% "split") [.str16 s, .char16 c] (.vec16 l) := by
  have e := C67_split_16 v s c hs
  rw [split_eq] at e
  by_cases hn : s = []
  · rw [if_pos hn] at e
    exact ⟨_, e⟩
  · rw [if_neg hn, if_pos h] at e
    exact ⟨_, e⟩

theorem C67_join_16_defined (v : Version) (l : List (List U16)) (c : U16) :
    ∃ s, Returns v (name% "join") [.vec16 l, .char16 c] (.str16 s) := by
  have e := C67_join_16 v l c
  rw [join_eq] at e
  split at e <;> exact ⟨_, e⟩

theorem C67_split_32_defined (v : Version) {s : List U32} (hs : Storable s) {c : U32} (h : s.count c ≤ 0x7FFFFFFF) :
    ∃ l, Returns v (name% "split") [.str32 s, .char32 c] (.vec32 l) := by
  have e := C67_split_32 v s c hs
  rw [split_eq] at e
  by_cases hn : s = []
  · rw [if_pos hn] at e
    exact ⟨_, e⟩
  · rw [if_neg hn, if_pos h] at e
    exact ⟨_, e⟩

theorem C67_join_32_defined (v : Version) (l : List (List U32)) (c : U32) :
    ∃ s, Returns v (name% "join") [.vec32 l, .char32 c] (.str32 s) := by
  have e := C67_join_32 v l c
  rw [join_eq] at e
  split at e <;> exact ⟨_, e⟩

/-! ## C31, C32 -/

/-- `join(split(s, d), d) == s`. Missing: the delimiter NUL, 2^31 delimiters or more. -/
theorem C31_text_join_split_8_partial (v : Version) {s : List Byte} (hs : Storable s) {c : Byte} (hc : c ≠ 0)
    (hn : s.count c ≤ 0x7FFFFFFF) :
    ∃ l, Returns v (name% "split") [.str8 s, .char8 c] (.vec8 l) ∧
      Returns v (name% "join") [.vec8 l, .char8 c] (.str8 s) := by
  obtain ⟨l, h1, h2⟩ := bind_eq_ok (C31_join_split_partial s hc hn)
  have e1 := C67_split_8 v s c hs
  have e2 := C67_join_8 v l c
  rw [h1] at e1
  rw [h2] at e2
  exact ⟨l, e1, e2⟩

/-- `split(join(l, d), d) == l`. Missing: the delimiter NUL, more than 2^31 strings. -/
theorem C31_text_split_join_8_partial (v : Version) {l : List (List Byte)} {c : Byte} (hc : c ≠ 0) (hne : l ≠ [])
    (hne2 : l ≠ [[]]) (hl : ∀ p ∈ l, c ∉ p) (hlen : l.length ≤ 0x80000000)
    (hs : Storable (List.intercalate [c] l)) :
    Returns v (name% "join") [.vec8 l, .char8 c] (.str8 (List.intercalate [c] l)) ∧
      Returns v (name% "split") [.str8 (List.intercalate [c] l), .char8 c] (.vec8 l) := by
  obtain ⟨s, h1, h2⟩ := bind_eq_ok (C31_split_join_partial hc hne hne2 hl hlen)
  obtain rfl : s = List.intercalate [c] l := by
    rw [C31_join_partial l hc] at h1
    exact (Res.ok.inj h1).symm
  have e1 := C67_join_8 v l c
  have e2 := C67_split_8 v _ c hs
  rw [h1] at e1
  rw [h2] at e2
  exact ⟨e1, e2⟩

/-- The pieces of a string that is not empty: they are the only ones without the delimiter that make up the string.
Missing: 2^31 delimiters or more. -/
theorem C32_text_8_partial (v : Version) {s : List Byte} (hs : Storable s) (hne : s ≠ []) {c : Byte}
    (hn : s.count c ≤ 0x7FFFFFFF) :
    (∃ l, Returns v (name% "split") [.str8 s, .char8 c] (.vec8 l) ∧ l.length = s.count c + 1 ∧ (∀ p ∈ l, c ∉ p) ∧
      List.intercalate [c] l = s) ∧
    ∀ l : List (List Byte), (∀ p ∈ l, c ∉ p) → List.intercalate [c] l = s →
      Returns v (name% "split") [.str8 s, .char8 c] (.vec8 l) := by
  have e := C67_split_8 v s c hs
  constructor
  · obtain ⟨l, h, hl⟩ := C32_pieces_partial hne hn
    rw [h] at e
    exact ⟨l, e, hl⟩
  · intro l hl h
    rw [C32_unique_partial hne hn hl h] at e
    exact e

theorem C32_text_8_empty (v : Version) (c : Byte) : Returns v (name% "split") [.str8 [], .char8 c] (.vec8 []) := by
  have e := C67_split_8 v [] c (by decide)
  rw [C32_empty] at e
  exact e

/-- 2^31 delimiters or more: undefined behaviour, the index is an `int`. -/
theorem C31_text_overflow_8_violated (v : Version) {s : List Byte} (hs : Storable s) {c : Byte}
    (h : 0x80000000 ≤ s.count c) : Runs v (name% "split") [.str8 s, .char8 c] .ub := by
  have e := C67_split_8 v s c hs
  rw [C31_overflow_violated s c h] at e
  exact e

/-- `join(split(s, d), d) == s`. Missing: the delimiter NUL, 2^31 delimiters or more. -/
theorem C31_text_join_split_16_partial (v : Version) {s : List U16} (hs : Storable s) {c : U16} (hc : c ≠ 0)
    (hn : s.count c ≤ 0x7FFFFFFF) :
    ∃ l, Returns v (name% "split") [.str16 s, .char16 c] (.vec16 l) ∧
      Returns v (name% "join") [.vec16 l, .char16 c] (.str16 s) := by
  obtain ⟨l, h1, h2⟩ := bind_eq_ok (C31_join_split_partial s hc hn)
  have e1 := C67_split_16 v s c hs
  have e2 := C67_join_16 v l c
  rw [h1] at e1
  rw [h2] at e2
  exact ⟨l, e1, e2⟩

/-- `split(join(l, d), d) == l`. Missing: the delimiter NUL, more than 2^31 strings. -/
theorem C31_text_split_join_16_partial (v : Version) {l : List (List U16)} {c : U16} (hc : c ≠ 0) (hne : l ≠ [])
    (hne2 : l ≠ [[]]) (hl : ∀ p ∈ l, c ∉ p) (hlen : l.length ≤ 0x80000000)
    (hs : Storable (List.intercalate [c] l)) :
    Returns v (name% "join") [.vec16 l, .char16 c] (.str16 (List.intercalate [c] l)) ∧
      Returns v (name% "split") [.str16 (List.intercalate [c] l), .char16 c] (.vec16 l) := by
  obtain ⟨s, h1, h2⟩ := bind_eq_ok (C31_split_join_partial hc hne hne2 hl hlen)
  obtain rfl : s = List.intercalate [c] l := by
    rw [C31_join_partial l hc] at h1
    exact (Res.ok.inj h1).symm
  have e1 := C67_join_16 v l c
  have e2 := C67_split_16 v _ c hs
  rw [h1] at e1
  rw [h2] at e2
  exact ⟨e1, e2⟩

/-- The pieces of a string that is not empty: they are the only ones without the delimiter that make up the string.
Missing: 2^31 delimiters or more. -/
theorem C32_text_16_partial (v : Version) {s : List U16} (hs : Storable s) (hne : s ≠ []) {c : U16}
    (hn : s.count c ≤ 0x7FFFFFFF) :
    (∃ l, Returns v (name% "split") [.str16 s, .char16 c] (.vec16 l) ∧ l.length = s.count c + 1 ∧ (∀ p ∈ l, c ∉ p) ∧
      List.intercalate [c] l = s) ∧
    ∀ l : List (List U16), (∀ p ∈ l, c ∉ p) → List.intercalate [c] l = s →
      Returns v (name% "split") [.str16 s, .char16 c] (.vec16 l) := by
  have e := C67_split_16 v s c hs
  constructor
  · obtain ⟨l, h, hl⟩ := C32_pieces_partial hne hn
    rw [h] at e
    exact ⟨l, e, hl⟩
  · intro l hl h
    rw [C32_unique_partial hne hn hl h] at e
    exact e

theorem C32_text_16_empty (v : Version) (c : U16) : Returns v (name% "split") [.str16 [], .char16 c] (.vec16 []) := by
  have e := C67_split_16 v [] c (by decide)
  rw [C32_empty] at e
  exact e

/-- 2^31 delimiters or more: undefined behaviour, the index is an `int`. -/
theorem C31_text_overflow_16_violated (v : Version) {s : List U16} (hs : Storable s) {c : U16}
    (h : 0x80000000 ≤ s.count c) : Runs v (name% "split") [.str16 s, .char16 c] .ub := by
  have e := C67_split_16 v s c hs
  rw [C31_overflow_violated s c h] at e
  exact e

/-- `join(split(s, d), d) == s`. Missing: the delimiter NUL, 2^31 delimiters or more. -/
theorem C31_text_join_split_32_partial (v : Version) {s : List U32} (hs : Storable s) {c : U32} (hc : c ≠ 0)
    (hn : s.count c ≤ 0x7FFFFFFF) :
    ∃ l, Returns v (name% "split") [.str32 s, .char32 c] (.vec32 l) ∧
      Returns v (name% "join") [.vec32 l, .char32 c] (.str32 s) := by
  obtain ⟨l, h1, h2⟩ := bind_eq_ok (C31_join_split_partial s hc hn)
  have e1 := C67_split_32 v s c hs
  have e2 := C67_join_32 v l c
  rw [h1] at e1
  rw [h2] at e2
  exact ⟨l, e1, e2⟩

/-- `split(join(l, d), d) == l`. Missing: the delimiter NUL, more than 2^31 strings. -/
theorem C31_text_split_join_32_partial (v : Version) {l : List (List U32)} {c : U32} (hc : c ≠ 0) (hne : l ≠ [])
    (hne2 : l ≠ [[]]) (hl : ∀ p ∈ l, c ∉ p) (hlen : l.length ≤ 0x80000000)
    (hs : Storable (List.intercalate [c] l)) :
    Returns v (name% "join") [.vec32 l, .char32 c] (.str32 (List.intercalate [c] l)) ∧
      Returns v (name% "split") [.str32 (List.intercalate [c] l), .char32 c] (.vec32 l) := by
  obtain ⟨s, h1, h2⟩ := bind_eq_ok (C31_split_join_partial hc hne hne2 hl hlen)
  obtain rfl : s = List.intercalate [c] l := by
    rw [C31_join_partial l hc] at h1
    exact (Res.ok.inj h1).symm
  have e1 := C67_join_32 v l c
  have e2 := C67_split_32 v _ c hs
  rw [h1] at e1
  rw [h2] at e2
  exact ⟨e1, e2⟩

/-- The pieces of a string that is not empty: they are the only ones without the delimiter that make up the string.
Missing: 2^31 delimiters or more. -/
theorem C32_text_32_partial (v : Version) {s : List U32} (hs : Storable s) (hne : s ≠ []) {c : U32}
    (hn : s.count c ≤ 0x7FFFFFFF) :
    (∃ l, Returns v (name% "split") [.str32 s, .char32 c] (.vec32 l) ∧ l.length = s.count c + 1 ∧ (∀ p ∈ l, c ∉ p) ∧
      List.intercalate [c] l = s) ∧
    ∀ l : List (List U32), (∀ p ∈ l, c ∉ p) → List.intercalate [c] l = s →
      Returns v (name% "split") [.str32 s, .char32 c] (.vec32 l) := by
  have e := C67_split_32 v s c hs
  constructor
  · obtain ⟨l, h, hl⟩ := C32_pieces_partial hne hn
    rw [h] at e
    exact ⟨l, e, hl⟩
  · intro l hl h
    rw [C32_unique_partial hne hn hl h] at e
    exact e

theorem C32_text_32_empty (v : Version) (c : U32) : Returns v (name% "split") [.str32 [], .char32 c] (.vec32 []) := by
  have e := C67_split_32 v [] c (by decide)
  rw [C32_empty] at e
  exact e

/-- 2^31 delimiters or more: undefined behaviour, the index is an `int`. -/
theorem C31_text_overflow_32_violated (v : Version) {s : List U32} (hs : Storable s) {c : U32}
    (h : 0x80000000 ≤ s.count c) : Runs v (name% "split") [.str32 s, .char32 c] .ub := by
  have e := C67_split_32 v s c hs
  rw [C31_overflow_violated s c h] at e
  exact e

/-- The delimiter NUL is lost. -/
theorem C31_text_nul_violated (v : Version) :
    Returns v (name% "split") [.str8 [0x61, 0, 0x62], .char8 0] (.vec8 [[0x61], [0x62]]) ∧
      Returns v (name% "join") [.vec8 [[0x61], [0x62]], .char8 0] (.str8 [0x61, 0x62]) :=
  ⟨(C32_text_8_partial v (by decide) (by decide) (by decide)).2 _ (by decide) rfl, by
    have e := C67_join_8 v [[0x61], [0x62]] 0
    rw [join_eq, if_pos rfl] at e
    exact e⟩

example (v : Version) : Returns v (name% "split") [.str16 [0x2C, 0x61, 0x2C], .char16 0x2C] (.vec16 [[], [0x61], []]) :=
  (C32_text_16_partial v (by decide) (by decide) (by decide)).2 _ (by decide) rfl

example (v : Version) : ∃ l, Returns v (name% "split") [.str8 [0x61, 0x2C, 0x2C], .char8 0x2C] (.vec8 l) ∧
    Returns v (name% "join") [.vec8 l, .char8 0x2C] (.str8 [0x61, 0x2C, 0x2C]) :=
  C31_text_join_split_8_partial v (by decide) (by decide) (by decide)

example (v : Version) : Returns v (name% "join") [.vec32 [[0x61], [], [0x62]], .char32 0x2C] (.str32 [0x61, 0x2C, 0x2C, 0x62]) :=
  (C31_text_split_join_32_partial v (l := [[0x61], [], [0x62]]) (by decide) (by decide) (by decide) (by decide)
    (by decide) (by decide)).1

example : Storable (List.replicate 0x80000000 (0x2C : Byte)) ∧
    0x80000000 ≤ (List.replicate 0x80000000 (0x2C : Byte)).count 0x2C := by
  unfold Storable
  rw [List.count_replicate_self, List.length_replicate]
  exact ⟨by omega, Nat.le_refl _⟩

/-! ## C33, C34 -/

/-- `trim(s)` removes exactly the outer spaces, `trim(s, spaces)` exactly the outer characters that are in `spaces`. -/
theorem C33_text_trim_8 (v : Version) {s : List Byte} (hs : Storable s) :
    (∃ r, TrimmedTo (· = 0x20) s r ∧ Changes v (name% "trim") (.str8 s) [] (.ok (.str8 r))) ∧
    ∀ spaces : List Byte, Storable spaces →
      ∃ r, TrimmedTo (· ∈ spaces) s r ∧ Changes v (name% "trim") (.str8 s) [.str8 spaces] (.ok (.str8 r)) :=
  ⟨⟨_, C33_trim s, C67_trim_8 v s hs⟩, fun spaces hp => ⟨_, C33_trimOf s spaces, C67_trimOf_8 v s spaces hs hp⟩⟩

/-- `trim(s)` removes exactly the outer spaces, `trim(s, spaces)` exactly the outer characters that are in `spaces`. -/
theorem C33_text_trim_16 (v : Version) {s : List U16} (hs : Storable s) :
    (∃ r, TrimmedTo (· = 0x20) s r ∧ Changes v (name% "trim") (.str16 s) [] (.ok (.str16 r))) ∧
    ∀ spaces : List U16, Storable spaces →
      ∃ r, TrimmedTo (· ∈ spaces) s r ∧ Changes v (name% "trim") (.str16 s) [.str16 spaces] (.ok (.str16 r)) :=
  ⟨⟨_, C33_trim s, C67_trim_16 v s hs⟩, fun spaces hp => ⟨_, C33_trimOf s spaces, C67_trimOf_16 v s spaces hs hp⟩⟩

/-- `trim(s)` removes exactly the outer spaces, `trim(s, spaces)` exactly the outer characters that are in `spaces`. -/
theorem C33_text_trim_32 (v : Version) {s : List U32} (hs : Storable s) :
    (∃ r, TrimmedTo (· = 0x20) s r ∧ Changes v (name% "trim") (.str32 s) [] (.ok (.str32 r))) ∧
    ∀ spaces : List U32, Storable spaces →
      ∃ r, TrimmedTo (· ∈ spaces) s r ∧ Changes v (name% "trim") (.str32 s) [.str32 spaces] (.ok (.str32 r)) :=
  ⟨⟨_, C33_trim s, C67_trim_32 v s hs⟩, fun spaces hp => ⟨_, C33_trimOf s spaces, C67_trimOf_32 v s spaces hs hp⟩⟩

/-- `trimAscii7WhiteSpace` removes exactly the outer tabs, line feeds, carriage returns and spaces. -/
theorem C33_text_trimAscii7WhiteSpace (v : Version) {s : List Byte} (hs : Storable s) :
    ∃ r, TrimmedTo (fun c => c = 0x09 ∨ c = 0x0A ∨ c = 0x0D ∨ c = 0x20) s r ∧
      Changes v (name% "trimAscii7WhiteSpace") (.str8 s) [] (.ok (.str8 r)) :=
  ⟨_, C33_trimAscii7WhiteSpace s, C67_trimAscii7WhiteSpace v s hs⟩

/-- `trimWhiteSpace` for UTF-16 and UCS-4 removes exactly the outer blanks. -/
theorem C33_text_trimWhiteSpace (v : Version) :
    (∀ s : List U16, Storable s → ∃ r, TrimmedTo (fun c => TrimBlank c.toNat) s r ∧
      Changes v (name% "trimWhiteSpace") (.str16 s) [] (.ok (.str16 r))) ∧
    ∀ s : List U32, Storable s → ∃ r, TrimmedTo (fun c => TrimBlank c.toNat) s r ∧
      Changes v (name% "trimWhiteSpace") (.str32 s) [] (.ok (.str32 r)) :=
  ⟨fun s hs => ⟨_, (C33_trimWhiteSpace s []).1, C67_trimWhiteSpace_16 v s hs⟩,
   fun s hs => ⟨_, (C33_trimWhiteSpace [] s).2, C67_trimWhiteSpace_32 v s hs⟩⟩

/-- UTF-8: for text whose characters are `vs`, which are `ws` without the outer blanks, the result is the encoding of
`ws`. -/
theorem C34_text (v : Version) {vs ws : List Nat} (hv : ∀ x ∈ vs, Scalar x) (h : TrimmedTo TrimBlank vs ws)
    (hs : Storable (utf8Of vs)) :
    Changes v (name% "trimWhiteSpace") (.str8 (utf8Of vs)) [] (.ok (.str8 (utf8Of ws))) := by
  have e := C67_trimWhiteSpace_8 v (utf8Of vs) hs
  rw [C34_utf8 hv h] at e
  exact e

/-- Text beyond U+10FFFF, which `isUtf8` accepts, is emptied, and an encoded surrogate pair is re-encoded. -/
theorem C34_text_violated (v : Version) :
    (Returns v (name% "isUtf8") [.str8 [0xF4, 0x90, 0x80, 0x80], .range kUtf8] (.bool true) ∧
      Changes v (name% "trimWhiteSpace") (.str8 [0xF4, 0x90, 0x80, 0x80]) [] (.ok (.str8 []))) ∧
    (Returns v (name% "isUtf8") [.str8 [0xED, 0xA0, 0xBD, 0xED, 0xB8, 0x80], .range kUtf8] (.bool true) ∧
      Changes v (name% "trimWhiteSpace") (.str8 [0xED, 0xA0, 0xBD, 0xED, 0xB8, 0x80]) []
        (.ok (.str8 [0xF0, 0x9F, 0x98, 0x80]))) := by
  obtain ⟨⟨h1, h2⟩, h3, h4⟩ := C34_violated (Unicode.charClass v)
  have e1 := C67_isUtf8_SR v [0xF4, 0x90, 0x80, 0x80] kUtf8
  have e2 := C67_trimWhiteSpace_8 v [0xF4, 0x90, 0x80, 0x80] (by decide)
  have e3 := C67_isUtf8_SR v [0xED, 0xA0, 0xBD, 0xED, 0xB8, 0x80] kUtf8
  have e4 := C67_trimWhiteSpace_8 v [0xED, 0xA0, 0xBD, 0xED, 0xB8, 0x80] (by decide)
  rw [h1] at e1
  rw [h2] at e2
  rw [h3] at e3
  rw [h4] at e4
  exact ⟨⟨e1, e2⟩, e3, e4⟩

/-- `trimWhiteSpace` of any UTF-8 string, valid or not, is defined. -/
theorem C67_trimWhiteSpace_8_defined (v : Version) {s : List Byte} (hs : Storable s) :
    ∃ r, Changes v (name% "trimWhiteSpace") (.str8 s) [] (.ok (.str8 r)) := by
  have e := C67_trimWhiteSpace_8 v s hs
  by_cases h : ∃ vs t, Spec.Utf8Reads (Spec.textOf s) vs t ∧ ∀ x ∈ vs, x ≤ 0x10FFFF
  · obtain ⟨vs, t, hr, hle⟩ := h
    have hsc : ∀ x ∈ vs, Scalar x := fun x hx => by
      obtain ⟨a, _, ha, _⟩ := hr
      exact encodable_scalar (text_encodable ha x hx) (hle x hx)
    have ht := trim_trimmedTo (P := TrimBlank) (blank := fun v => decide (TrimBlank v))
      (fun _ => decide_eq_true_iff) vs
    rw [(C34_any_partial s).1 vs t hr hle, C34_utf8 hsc ht] at e
    exact ⟨_, e⟩
  · rw [(C34_any_partial s).2 h] at e
    exact ⟨_, e⟩

example (v : Version) : Changes v (name% "trimWhiteSpace") (.str8 [0xC2, 0xA0, 0x41, 0x20, 0xE2, 0x82, 0xAC, 0x0A]) []
    (.ok (.str8 [0x41, 0x20, 0xE2, 0x82, 0xAC])) :=
  C34_text v (vs := [0xA0, 0x41, 0x20, 0x20AC, 0x0A]) (ws := [0x41, 0x20, 0x20AC]) (by decide)
    ⟨⟨[0xA0], [0x0A], rfl, by decide, by decide⟩, by simp; decide, by simp; decide⟩ (by decide)

example (v : Version) : Changes v (name% "trim") (.str8 [0x20, 0x61, 0x20, 0x62, 0x20]) [] (.ok (.str8 [0x61, 0x20, 0x62])) := by
  obtain ⟨r, hr, h⟩ := (C33_text_trim_8 v (s := [0x20, 0x61, 0x20, 0x62, 0x20]) (by decide)).1
  have e := C33_unique hr (r' := [0x61, 0x20, 0x62]) ⟨⟨[0x20], [0x20], rfl, by decide, by decide⟩, by simp, by simp⟩
  exact e ▸ h

end Ansak.Props
