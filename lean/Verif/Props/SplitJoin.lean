import Verif.Lemmas.SplitJoin

/-!
# C31, C32: splitting and joining

`w` is the width of the character type. `List.intercalate [d] v` is `v` written out with `d` between its
elements.
-/

namespace Ansak.Props

/-- Joining writes the strings out with the delimiter between them. Missing from C31: the delimiter NUL. -/
theorem C31_join_partial {w : Nat} (v : List (List (BitVec w))) {d : BitVec w} (hd : d ≠ 0) :
    join v d = .ok (List.intercalate [d] v) := by
  rw [join_eq, if_neg hd]

/-- Joining what was split gives the string back. Missing from the full property: the delimiter NUL, and
strings with 2^31 delimiters or more. -/
theorem C31_join_split_partial {w : Nat} (s : List (BitVec w)) {d : BitVec w} (hd : d ≠ 0)
    (hs : s.count d ≤ 0x7FFFFFFF) : (split s d).bind (join · d) = .ok s := by
  rw [split_eq]
  by_cases h : s = []
  · subst h; rw [if_pos rfl, Res.bind_ok, C31_join_partial _ hd]; rfl
  · rw [if_neg h, if_pos hs, Res.bind_ok, C31_join_partial _ hd, intercalate_pieces]

/-- Splitting what was joined gives the strings back. Missing from the full property: as above. -/
theorem C31_split_join_partial {w : Nat} {v : List (List (BitVec w))} {d : BitVec w} (hd : d ≠ 0)
    (hne : v ≠ []) (hne2 : v ≠ [[]]) (hv : ∀ p ∈ v, d ∉ p) (hlen : v.length ≤ 0x80000000) :
    (join v d).bind (split · d) = .ok v := by
  rw [C31_join_partial v hd, Res.bind_ok, split_eq]
  have hp := pieces_intercalate hne hv
  have hl := pieces_length d (List.intercalate [d] v)
  rw [hp] at hl
  rw [if_neg, if_pos (by omega), hp]
  intro h
  rw [h] at hp
  exact hne2 hp.symm

example : (split ([0x61, 0x2C, 0x2C, 0x62] : List (BitVec 8)) 0x2C).bind (join · 0x2C) =
    .ok [0x61, 0x2C, 0x2C, 0x62] := C31_join_split_partial _ (by decide) (by decide)

example : (join ([[0x61], [], [0x62]] : List (List (BitVec 8))) 0x2C).bind (split · 0x2C) =
    .ok [[0x61], [], [0x62]] :=
  C31_split_join_partial (by decide) (by decide) (by decide) (by decide) (by decide)

/-- Violation of C31: the delimiter NUL is lost. -/
theorem C31_nul_violated :
    (split ([0x61, 0x00, 0x62] : List (BitVec 8)) 0).bind (join · 0) = .ok [0x61, 0x62] := by
  rw [split_eq, if_neg (by decide), if_pos (by decide), Res.bind_ok, join_eq]
  rfl

/-- Violation of C31 and C32: the `int` index overflows if there are 2^31 delimiters or more. -/
theorem C31_overflow_violated {w : Nat} (s : List (BitVec w)) (d : BitVec w) (h : 0x80000000 ≤ s.count d) :
    split s d = .ub := by
  rw [split_eq, if_neg, if_neg (by omega)]
  rintro rfl
  simp at h

example : 0x80000000 ≤ (List.replicate 0x80000000 (0x2C : BitVec 8)).count 0x2C := by
  rw [List.count_replicate_self]; exact Nat.le_refl _

/-- Splitting the empty string gives no pieces. -/
theorem C32_empty {w : Nat} (d : BitVec w) : split [] d = .ok [] := by
  rw [split_eq, if_pos rfl]

/-- Splitting a non-empty string gives one more piece than there are delimiters, without delimiters, and
the pieces with delimiters between them are the string. Missing from the full property: strings with
2^31 delimiters or more (`C31_overflow_violated`). -/
theorem C32_pieces_partial {w : Nat} {s : List (BitVec w)} (hne : s ≠ []) {d : BitVec w}
    (hs : s.count d ≤ 0x7FFFFFFF) :
    ∃ v, split s d = .ok v ∧ v.length = s.count d + 1 ∧ (∀ p ∈ v, d ∉ p) ∧ List.intercalate [d] v = s := by
  refine ⟨pieces d s, ?_, pieces_length d s, pieces_not_mem d s, intercalate_pieces d s⟩
  rw [split_eq, if_neg hne, if_pos hs]

/-- The pieces are determined by the string: they are the only delimiter-free strings that make it up. -/
theorem C32_unique_partial {w : Nat} {s : List (BitVec w)} (hne : s ≠ []) {d : BitVec w}
    (hs : s.count d ≤ 0x7FFFFFFF) {v : List (List (BitVec w))} (hv : ∀ p ∈ v, d ∉ p)
    (h : List.intercalate [d] v = s) : split s d = .ok v := by
  have hvn : v ≠ [] := by rintro rfl; exact hne h.symm
  rw [split_eq, if_neg hne, if_pos hs, ← h, pieces_intercalate hvn hv]

example : split ([0x2C, 0x61, 0x2C] : List (BitVec 8)) 0x2C = .ok [[], [0x61], []] :=
  C32_unique_partial (by decide) (by decide) (by decide) rfl

end Ansak.Props
