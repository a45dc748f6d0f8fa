import Verif.Lemmas.Compose

/-!
# C54: the sizes of results
-/

namespace Ansak.Props

open Spec (Encodable Scalar Surrogate HighSurrogate LowSurrogate utf8Of utf16Of ucs2Of ucs4Of textOf Utf8Char
  Utf8Text)

/-! ## One character -/

theorem utf8_length_eq (v : Nat) : (Spec.utf8 v).length =
    if v < 0x80 then 1 else if v < 0x800 then 2 else if v < 0x10000 then 3 else if v < 0x200000 then 4
    else if v < 0x4000000 then 5 else 6 := by
  unfold Spec.utf8 Spec.utf8Values
  rw [List.length_map]
  repeat' split
  all_goals rfl

theorem utf16_length_eq (v : Nat) : (Spec.utf16 v).length = if v < 0x10000 then 1 else 2 := by
  unfold Spec.utf16
  split <;> rfl

theorem char_length {bs : List Byte} {v : Nat} (h : Utf8Char bs v) : (Spec.utf8 v).length ≤ bs.length := by
  cases h with
  | plain _ => exact Nat.le_refl _
  | @pair hi lo hh hl =>
    have := pairValue_bounds hh hl
    unfold HighSurrogate at hh
    unfold LowSurrogate at hl
    rw [List.length_append, utf8_length_eq, utf8_length_eq, utf8_length_eq]
    repeat' split
    all_goals omega

theorem flatMap_le {α β : Type} {f : Nat → List α} {g : Nat → List β} {k : Nat} {vs : List Nat}
    (h : ∀ v ∈ vs, (f v).length ≤ k * (g v).length) : (vs.flatMap f).length ≤ k * (vs.flatMap g).length := by
  induction vs with
  | nil => simp
  | cons v vs ih =>
    rw [List.forall_mem_cons] at h
    rw [List.flatMap_cons, List.flatMap_cons, List.length_append, List.length_append, Nat.mul_add]
    exact Nat.add_le_add h.1 (ih h.2)

theorem flatMap_single (vs : List Nat) : vs.flatMap (fun v => [v]) = vs := by
  induction vs with
  | nil => rfl
  | cons v vs ih => rw [List.flatMap_cons, ih]; rfl

theorem utf8Of_length_le {vs : List Nat} {k : Nat} (h : ∀ v ∈ vs, (Spec.utf8 v).length ≤ k) :
    (utf8Of vs).length ≤ k * vs.length := by
  have := flatMap_le (f := Spec.utf8) (g := fun v => [v]) (k := k) (vs := vs)
    (fun v hv => by have := h v hv; simp; omega)
  rwa [flatMap_single] at this

theorem utf8Of_length_ge (vs : List Nat) : vs.length ≤ (utf8Of vs).length := by
  have := flatMap_le (g := Spec.utf8) (f := fun v => [v]) (k := 1) (vs := vs)
    (fun v _ => by rw [utf8_length_eq]; repeat' split
                   all_goals simp)
  rwa [flatMap_single, Nat.one_mul] at this

theorem utf16Of_length_ge (vs : List Nat) : vs.length ≤ (utf16Of vs).length := by
  have := flatMap_le (g := Spec.utf16) (f := fun v => [v]) (k := 1) (vs := vs)
    (fun v _ => by rw [utf16_length_eq]; repeat' split
                   all_goals simp)
  rwa [flatMap_single, Nat.one_mul] at this

theorem utf16Of_length_le (vs : List Nat) : (utf16Of vs).length ≤ 2 * vs.length := by
  have := flatMap_le (f := Spec.utf16) (g := fun v => [v]) (k := 2) (vs := vs)
    (fun v _ => by rw [utf16_length_eq]; repeat' split
                   all_goals simp)
  rwa [flatMap_single] at this

theorem utf16_utf8_length (vs : List Nat) : (utf16Of vs).length ≤ (utf8Of vs).length := by
  have := flatMap_le (f := Spec.utf16) (g := Spec.utf8) (k := 1) (vs := vs)
    (fun v _ => by
      rw [utf16_length_eq, utf8_length_eq]
      repeat' split
      all_goals omega)
  rwa [Nat.one_mul] at this

theorem utf8_utf16_length {vs : List Nat} (h : ∀ v ∈ vs, v ≤ 0x10FFFF) :
    (utf8Of vs).length ≤ 3 * (utf16Of vs).length :=
  flatMap_le fun v hv => by
    have := h v hv
    rw [utf16_length_eq, utf8_length_eq]
    repeat' split
    all_goals omega

/-! ## Texts -/

theorem text_length {s : List Byte} {vs : List Nat} (h : Utf8Text s vs) : (utf8Of vs).length ≤ s.length := by
  induction h with
  | nil => exact Nat.le_refl _
  | cons hc _ ih =>
    have := char_length hc
    unfold utf8Of at ih ⊢
    rw [List.flatMap_cons, List.length_append, List.length_append]
    omega

theorem scan_length {s : List Byte} {vs : List Nat} {e : End} (h : Scan s vs e) :
    (utf8Of vs).length ≤ s.length := by
  induction h with
  | done => exact Nat.le_refl _
  | cut _ => exact Nat.zero_le _
  | bad _ _ => exact Nat.zero_le _
  | char hc _ ih =>
    have := char_length hc
    unfold utf8Of at ih ⊢
    rw [List.flatMap_cons, List.length_append, List.length_append]
    omega

theorem scan16_length {l : Bool} {s : List U16} {vs : List Nat} {e : End16} (h : Scan16 l s vs e) :
    (utf16Of vs).length ≤ s.length ∧ ∀ v ∈ vs, v ≤ 0x10FFFF := by
  induction h with
  | done => exact ⟨Nat.le_refl _, fun _ h => nomatch h⟩
  | cut _ => exact ⟨Nat.zero_le _, fun _ h => nomatch h⟩
  | badHigh _ _ _ => exact ⟨Nat.zero_le _, fun _ h => nomatch h⟩
  | badLow _ _ => exact ⟨Nat.zero_le _, fun _ h => nomatch h⟩
  | @unit c s vs e _ _ _ _ ih =>
    have := c.isLt
    refine ⟨?_, List.forall_mem_cons.2 ⟨by omega, ih.2⟩⟩
    have ih := ih.1
    unfold utf16Of at ih ⊢
    rw [List.flatMap_cons, List.length_append, utf16_length_eq, if_pos (by omega), List.length_cons]
    omega
  | @pair a b s vs e hh hl _ ih =>
    have := pairValue_bounds hh hl
    refine ⟨?_, List.forall_mem_cons.2 ⟨by omega, ih.2⟩⟩
    have ih := ih.1
    unfold utf16Of at ih ⊢
    rw [List.flatMap_cons, List.length_append, utf16_length_eq, if_neg (by omega), List.length_cons,
      List.length_cons]
    omega

theorem textOf_length {w : Nat} (s : List (BitVec w)) : (textOf s).length ≤ s.length :=
  (List.takeWhile_sublist _).length_le

theorem ite_length {α : Type} {p : Prop} [Decidable p] {a : List α} {n : Nat} (h : a.length ≤ n) :
    (if p then a else []).length ≤ n := by
  split
  · exact h
  · exact Nat.zero_le _

/-! ## C54 -/

/-- From UTF-8, any string: not more units than there were bytes. -/
theorem C54_from_utf8 (s : List Byte) : ∃ a b c, toUtf16From8S s = .ok a ∧ toUcs2From8S s = .ok b ∧
    toUcs4From8S s = .ok c ∧ a.length ≤ s.length ∧ b.length ≤ s.length ∧ c.length ≤ s.length := by
  obtain ⟨vs, e, h, h1, h2, h3⟩ := toUcs4From8S_any s
  have l1 := scan_length h
  have l2 := textOf_length s
  have l3 := utf16_utf8_length vs
  have l4 := utf8Of_length_ge vs
  refine ⟨_, _, _, h2, h3, h1, ite_length (by omega), ite_length ?_, ite_length ?_⟩
  · unfold ucs2Of; rw [List.length_map]; omega
  · unfold ucs4Of; rw [List.length_map]; omega

/-- From UTF-16, any string: at most three bytes of UTF-8, or one unit of UCS-4, for each unit. -/
theorem C54_from_utf16 (s : List U16) : ∃ a b, toUtf8From16S s = .ok a ∧ toUcs4From16S s = .ok b ∧
    a.length ≤ 3 * s.length ∧ b.length ≤ s.length := by
  obtain ⟨vs, e, h, h1⟩ := toUtf8From16S_any s
  obtain ⟨vs', e', h', h1'⟩ := toUcs4From16S_any s
  have l1 := scan16_length h
  have l1' := scan16_length h'
  have l2 := textOf_length s
  have l3 := utf8_utf16_length l1.2
  have l4 := utf16Of_length_ge vs'
  refine ⟨_, _, h1, h1', ite_length (by omega), ite_length ?_⟩
  unfold ucs4Of; rw [List.length_map]; omega

/-- From UCS-4, any string: at most six bytes of UTF-8, two units of UTF-16 or one of UCS-2 for each
unit. -/
theorem C54_from_ucs4 (s : List U32) : ∃ a b c, toUtf8From32S s = .ok a ∧ toUtf16From32S s = .ok b ∧
    toUcs2From32S s = .ok c ∧ a.length ≤ 6 * s.length ∧ b.length ≤ 2 * s.length ∧ c.length ≤ s.length := by
  have l2 := textOf_length s
  have lv : (vals (textOf s)).length = (textOf s).length := by unfold vals; rw [List.length_map]
  have l3 := utf16Of_length_le (vals (textOf s))
  have l4 : (utf8Of (vals (textOf s))).length ≤ 6 * (vals (textOf s)).length :=
    utf8Of_length_le fun v _ => by
      rw [utf8_length_eq]
      repeat' split
      all_goals omega
  refine ⟨_, _, _, toUtf8From32S_any s, toUtf16From32S_any s, toUcs2From32S_any s,
    ite_length (by omega), ite_length (by omega), ite_length ?_⟩
  unfold ucs2Of; rw [List.length_map]; omega

/-- Unicode text needs at most four bytes of UTF-8 for each unit of UCS-4. -/
theorem C54_unicode {s : List U32} (hs : ∀ c ∈ s, c.toNat ≤ 0x10FFFF) :
    ∃ a, toUtf8From32S s = .ok a ∧ a.length ≤ 4 * s.length := by
  have l2 := textOf_length s
  have lv : (vals (textOf s)).length = (textOf s).length := by unfold vals; rw [List.length_map]
  have l4 : (utf8Of (vals (textOf s))).length ≤ 4 * (vals (textOf s)).length :=
    utf8Of_length_le fun v hv => by
      obtain ⟨c, hc, rfl⟩ := List.mem_map.1 hv
      have := hs c ((List.takeWhile_sublist _).subset hc)
      rw [utf8_length_eq]
      repeat' split
      all_goals omega
  exact ⟨_, toUtf8From32S_any s, ite_length (by omega)⟩

/-- Text that can be converted to UTF-8 or UTF-16 needs at least one unit for each of its characters. -/
theorem C54_at_least {s : List U32} (hs : ∀ c ∈ s, Scalar c.toNat) :
    ∃ a b, toUtf8From32S s = .ok a ∧ toUtf16From32S s = .ok b ∧ s.length ≤ b.length ∧
      b.length ≤ a.length ∧ a.length ≤ 3 * b.length := by
  have hv : ∀ v ∈ vals s, Scalar v := by
    intro v hv
    obtain ⟨c, hc, rfl⟩ := List.mem_map.1 hv
    exact hs c hc
  have h1 := toUtf8From32S_ucs4Of fun v h => scalar_encodable (hv v h)
  have h2 := toUtf16From32S_ucs4Of fun v h => scalar_encodable (hv v h)
  rw [ucs4Of_vals] at h1
  rw [ucs4Of_vals, if_pos fun v h => (hv v h).2.1] at h2
  have lv : (vals s).length = s.length := by unfold vals; rw [List.length_map]
  have l := utf16Of_length_ge (vals s)
  exact ⟨_, _, h1, h2, by omega, utf16_utf8_length _, utf8_utf16_length fun v h => (hv v h).2.1⟩

/-- The bounds are reached. -/
theorem C54_reached :
    (∃ a, toUtf16From8S [0x41] = .ok a ∧ a.length = 1) ∧
    (∃ a, toUcs4From8S [0x41] = .ok a ∧ a.length = 1) ∧
    (∃ a, toUtf8From16S [0x20AC] = .ok a ∧ a.length = 3 * 1) ∧
    (∃ a, toUtf8From32S [0x7FFFFFFF] = .ok a ∧ a.length = 6 * 1) ∧
    (∃ a, toUtf16From32S [0x1F600] = .ok a ∧ a.length = 2 * 1) ∧
    (∃ a, toUtf8From32S [0x1F600] = .ok a ∧ a.length = 4 * 1) :=
  ⟨⟨[0x41], by decide +kernel⟩, ⟨[0x41], by decide +kernel⟩, ⟨[0xE2, 0x82, 0xAC], by decide +kernel⟩,
    ⟨[0xFD, 0xBF, 0xBF, 0xBF, 0xBF, 0xBF], by decide +kernel⟩, ⟨[0xD83D, 0xDE00], by decide +kernel⟩,
    ⟨[0xF0, 0x9F, 0x98, 0x80], by decide +kernel⟩⟩

/-! ## The hypotheses can be met -/

example : ∀ c ∈ ([0x41, 0x20AC, 0x1F600] : List U32), Scalar c.toNat ∧ c.toNat ≤ 0x10FFFF := by decide

end Ansak.Props
