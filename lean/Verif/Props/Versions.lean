import Verif.Props.History
import Verif.Props.Unicode
import Verif.Props.LowerText

/-!
# C65: text that is accepted under one Unicode version stays accepted under a later one
-/

namespace Ansak.Props

open Spec (Class Cond conditionsOf textOf utf8Of utf16Of ucs2Of ucs4Of)
open Unicode (charClass)

theorem predUnit_le {v : Nat} (h : Spec.Scalar v) : predUnit v ≤ 0xFFFF := by
  have hv : v ≤ 0x10FFFF := by unfold Spec.Scalar Spec.Surrogate at h; omega
  unfold predUnit
  split
  · omega
  · omega

/-- The classes other than `assigned` are the same under all versions. -/
theorem classes32_same (v w : Version) {x : Nat} (hx : x < 2 ^ 32) {k : Class} (hk : k ≠ .assigned) :
    classes32 (charClass v) x k = classes32 (charClass w) x k := by
  have e : (BitVec.ofNat 32 x).toNat = x := by rw [BitVec.toNat_ofNat]; exact Nat.mod_eq_of_lt hx
  have gen : ∀ v, (classes32 (charClass v) x .privateUse = true ↔ Spec.PrivateUse x) ∧
      (classes32 (charClass v) x .control = true ↔ Spec.Control x) ∧
      (classes32 (charClass v) x .whiteSpace = true ↔ Spec.WhiteSpace x) := by
    intro v
    have h1 := C26_private32 v (BitVec.ofNat 32 x)
    have h2 := C26_control32 v (BitVec.ofNat 32 x)
    have h3 := C26_white32 v (BitVec.ofNat 32 x)
    rw [e] at h1 h2 h3
    unfold Pred.call32 charToEncodingTypeMask32 at h1 h2 h3
    rw [test_private] at h1
    rw [test_control] at h2
    rw [test_white] at h3
    exact ⟨h1, h2, h3⟩
  rw [Bool.eq_iff_iff]
  cases k with
  | assigned => exact absurd rfl hk
  | privateUse => exact (gen v).1.trans (gen w).1.symm
  | control => exact (gen v).2.1.trans (gen w).2.1.symm
  | whiteSpace => exact (gen v).2.2.trans (gen w).2.2.symm

theorem classes16_same (v w : Version) {x : Nat} (hx : x < 2 ^ 16) {k : Class} (hk : k ≠ .assigned) :
    classes16 (charClass v) x k = classes16 (charClass w) x k := by
  have e : (BitVec.ofNat 16 x).toNat = x := by rw [BitVec.toNat_ofNat]; exact Nat.mod_eq_of_lt hx
  have gen : ∀ v, (classes16 (charClass v) x .privateUse = true ↔ Spec.PrivateUse x) ∧
      (classes16 (charClass v) x .control = true ↔ Spec.Control x) ∧
      (classes16 (charClass v) x .whiteSpace = true ↔ Spec.WhiteSpace x) := by
    intro v
    have h1 := C26_private16 v (BitVec.ofNat 16 x)
    have h2 := C26_control16 v (BitVec.ofNat 16 x)
    have h3 := C26_white16 v (BitVec.ofNat 16 x)
    rw [e] at h1 h2 h3
    unfold Pred.call16 charToEncodingTypeMask16 at h1 h2 h3
    rw [test_private] at h1
    rw [test_control] at h2
    rw [test_white] at h3
    exact ⟨h1, h2, h3⟩
  rw [Bool.eq_iff_iff]
  cases k with
  | assigned => exact absurd rfl hk
  | privateUse => exact (gen v).1.trans (gen w).1.symm
  | control => exact (gen v).2.1.trans (gen w).2.1.symm
  | whiteSpace => exact (gen v).2.2.trans (gen w).2.2.symm

theorem classes32_newer {v w : Version} (h : Spec.Version.LE v w) {x : Nat} (hx : x < 2 ^ 32)
    (ha : classes32 (charClass v) x .assigned = true) : classes32 (charClass w) x .assigned = true := by
  have e : (BitVec.ofNat 32 x).toNat = x := by rw [BitVec.toNat_ofNat]; exact Nat.mod_eq_of_lt hx
  have gen : ∀ v, classes32 (charClass v) x .assigned = true ↔ Spec.Assigned v x := by
    intro v
    have h1 := C25_char32 v (BitVec.ofNat 32 x)
    rw [e] at h1
    unfold Pred.call32 charToEncodingTypeMask32 at h1
    rw [test_assigned] at h1
    exact h1
  exact (gen w).2 (Unicode.assigned_stable h ((gen v).1 ha))

theorem classes16_newer {v w : Version} (h : Spec.Version.LE v w) {x : Nat} (hx : x < 2 ^ 16)
    (ha : classes16 (charClass v) x .assigned = true) : classes16 (charClass w) x .assigned = true := by
  have e : (BitVec.ofNat 16 x).toNat = x := by rw [BitVec.toNat_ofNat]; exact Nat.mod_eq_of_lt hx
  have gen : ∀ v, classes16 (charClass v) x .assigned = true ↔ Spec.Assigned v x := by
    intro v
    have h1 := C25_char16 v (BitVec.ofNat 16 x)
    rw [e] at h1
    unfold Pred.call16 charToEncodingTypeMask16 at h1
    rw [test_assigned] at h1
    exact h1
  exact (gen w).2 (Unicode.assigned_stable h ((gen v).1 ha))

/-- If the classes of a character change only by becoming assigned, and no condition asks for unassigned
characters, then a predicate that holds keeps holding. -/
theorem test_newer {c d : Class → Bool} (hs : ∀ k, k ≠ .assigned → c k = d k)
    (ha : c .assigned = true → d .assigned = true) {ks : List Cond}
    (hk : (⟨.assigned, false⟩ : Cond) ∉ ks) (h : (predOf ks).test (encSet c) = true) :
    (predOf ks).test (encSet d) = true := by
  rw [test_predOf_any] at h ⊢
  intro j hj
  obtain ⟨k, want⟩ := j
  by_cases e : k = .assigned
  · subst e
    cases want with
    | false => exact absurd hj hk
    | true => exact ⟨fun _ => hj, fun _ => ha ((h _ hj).2 hj)⟩
  · show d k = true ↔ _
    rw [← hs k e]
    exact h _ hj

theorem test_same {c d : Class → Bool} (hs : ∀ k, k ≠ .assigned → c k = d k) {ks : List Cond}
    (hk : ∀ b, (⟨.assigned, b⟩ : Cond) ∉ ks) :
    (predOf ks).test (encSet c) = true ↔ (predOf ks).test (encSet d) = true := by
  rw [test_predOf_any, test_predOf_any]
  constructor <;> intro h j hj
  all_goals
    have e : j.cls ≠ .assigned := fun e => hk j.want (e ▸ hj)
    have := h j hj
    first | rwa [hs _ e] at this | rwa [← hs _ e] at this

/-- The carrier of the two theorems: an implication between predicates gives one between validators. -/
theorem validators_mono {U V : CharClass} {p q : Pred}
    (h32 : ∀ x, x < 2 ^ 32 → p.call32 U x = true → q.call32 V x = true)
    (h16 : ∀ x, x < 2 ^ 16 → p.call16 U x = true → q.call16 V x = true) (r : Spec.Range) :
    (∀ s, isUtf8S U s r.code p = .ok true → isUtf8S V s r.code q = .ok true) ∧
    (∀ s, isUtf16S U s r.code p = .ok true → isUtf16S V s r.code q = .ok true) ∧
    (∀ s, isUcs2S U s r.code p = .ok true → isUcs2S V s r.code q = .ok true) ∧
    (∀ s, isUcs4S U s r.code p = .ok true → isUcs4S V s r.code q = .ok true) := by
  refine ⟨fun s hs => ?_, fun s hs => ?_, fun s hs => ?_, fun s hs => ?_⟩
  · obtain ⟨vs, e, hsc⟩ := scan_exists (textOf_nulFree s)
    obtain ⟨ha, he⟩ := of_ok_true (isUtf8S_any U r _ hsc) hs
    refine ok_true_of (isUtf8S_any V r _ hsc) ⟨fun v hv => ⟨(ha v hv).1, h32 v ?_ (ha v hv).2⟩, he⟩
    have := scan_encodable hsc v hv
    unfold Spec.Encodable at this
    omega
  · obtain ⟨vs, e, hsc⟩ := scan16_exists false (textOf_nulFree s)
    obtain ⟨ha, he⟩ := of_ok_true (isUtf16S_any U r _ hsc) hs
    refine ok_true_of (isUtf16S_any V r _ hsc) ⟨fun v hv => ⟨(ha v hv).1, h16 _ ?_ (ha v hv).2⟩, he⟩
    have := predUnit_le (scan16_scalar hsc v hv)
    omega
  · have ha := of_ok_true (isUcs2S_any U r _ s) hs
    exact ok_true_of (isUcs2S_any V r _ s) fun c hc =>
      ⟨(ha c hc).1, (ha c hc).2.1, h16 _ c.isLt (ha c hc).2.2⟩
  · have ha := of_ok_true (isUcs4S_any U r _ s) hs
    exact ok_true_of (isUcs4S_any V r _ s) fun c hc =>
      ⟨(ha c hc).1, (ha c hc).2.1, h32 _ c.isLt (ha c hc).2.2⟩

/-- Text that a validator accepts with the tables of one Unicode version it accepts with those of every later one,
for every predicate a program can make that does not ask for unassigned characters. -/
theorem C65_newer {v w : Version} (hvw : Spec.Version.LE v w) (r : Spec.Range) (ss : List Stmt) (x : Nat)
    (h : (⟨.assigned, false⟩ : Cond) ∉ conditionsOf ss x) :
    (∀ s, isUtf8S (charClass v) s r.code (execAll ss x) = .ok true →
      isUtf8S (charClass w) s r.code (execAll ss x) = .ok true) ∧
    (∀ s, isUtf16S (charClass v) s r.code (execAll ss x) = .ok true →
      isUtf16S (charClass w) s r.code (execAll ss x) = .ok true) ∧
    (∀ s, isUcs2S (charClass v) s r.code (execAll ss x) = .ok true →
      isUcs2S (charClass w) s r.code (execAll ss x) = .ok true) ∧
    (∀ s, isUcs4S (charClass v) s r.code (execAll ss x) = .ok true →
      isUcs4S (charClass w) s r.code (execAll ss x) = .ok true) := by
  rw [execAll_spec]
  exact validators_mono
    (fun x hx => test_newer (c := classes32 (charClass v) x) (d := classes32 (charClass w) x)
      (fun _ hk => classes32_same v w hx hk) (classes32_newer hvw hx) h)
    (fun x hx => test_newer (c := classes16 (charClass v) x) (d := classes16 (charClass w) x)
      (fun _ hk => classes16_same v w hx hk) (classes16_newer hvw hx) h) r

/-- A predicate that says nothing about assigned characters means the same with the tables of every version. -/
theorem C65_same (v w : Version) (r : Spec.Range) (ss : List Stmt) (x : Nat)
    (h : ∀ b, (⟨.assigned, b⟩ : Cond) ∉ conditionsOf ss x) :
    (∀ s, isUtf8S (charClass v) s r.code (execAll ss x) = isUtf8S (charClass w) s r.code (execAll ss x)) ∧
    (∀ s, isUtf16S (charClass v) s r.code (execAll ss x) = isUtf16S (charClass w) s r.code (execAll ss x)) ∧
    (∀ s, isUcs2S (charClass v) s r.code (execAll ss x) = isUcs2S (charClass w) s r.code (execAll ss x)) ∧
    (∀ s, isUcs4S (charClass v) s r.code (execAll ss x) = isUcs4S (charClass w) s r.code (execAll ss x)) := by
  rw [execAll_spec]
  have gen : ∀ v w : Version, _ := fun v w => validators_mono
    (U := charClass v) (V := charClass w) (p := predOf (conditionsOf ss x)) (q := predOf (conditionsOf ss x))
    (fun x hx => (test_same (c := classes32 (charClass v) x) (d := classes32 (charClass w) x)
      (fun _ hk => classes32_same v w hx hk) h).1)
    (fun x hx => (test_same (c := classes16 (charClass v) x) (d := classes16 (charClass w) x)
      (fun _ hk => classes16_same v w hx hk) h).1) r
  have eq : ∀ {a b : Res Bool}, (∃ x, a = .ok x) → (∃ x, b = .ok x) → (a = .ok true → b = .ok true) →
      (b = .ok true → a = .ok true) → a = b := by
    rintro a b ⟨x, rfl⟩ ⟨y, rfl⟩ h1 h2
    cases x <;> cases y
    · rfl
    · exact h2 rfl
    · exact (h1 rfl).symm
    · rfl
  refine ⟨fun s => ?_, fun s => ?_, fun s => ?_, fun s => ?_⟩
  · obtain ⟨vs, e, hsc⟩ := scan_exists (textOf_nulFree s)
    obtain ⟨a, ha, _⟩ := isUtf8S_any (charClass v) r (predOf (conditionsOf ss x)) hsc
    obtain ⟨b, hb, _⟩ := isUtf8S_any (charClass w) r (predOf (conditionsOf ss x)) hsc
    exact eq ⟨a, ha⟩ ⟨b, hb⟩ ((gen v w).1 s) ((gen w v).1 s)
  · obtain ⟨vs, e, hsc⟩ := scan16_exists false (textOf_nulFree s)
    obtain ⟨a, ha, _⟩ := isUtf16S_any (charClass v) r (predOf (conditionsOf ss x)) hsc
    obtain ⟨b, hb, _⟩ := isUtf16S_any (charClass w) r (predOf (conditionsOf ss x)) hsc
    exact eq ⟨a, ha⟩ ⟨b, hb⟩ ((gen v w).2.1 s) ((gen w v).2.1 s)
  · obtain ⟨a, ha, _⟩ := isUcs2S_any (charClass v) r (predOf (conditionsOf ss x)) s
    obtain ⟨b, hb, _⟩ := isUcs2S_any (charClass w) r (predOf (conditionsOf ss x)) s
    exact eq ⟨a, ha⟩ ⟨b, hb⟩ ((gen v w).2.2.1 s) ((gen w v).2.2.1 s)
  · obtain ⟨a, ha, _⟩ := isUcs4S_any (charClass v) r (predOf (conditionsOf ss x)) s
    obtain ⟨b, hb, _⟩ := isUcs4S_any (charClass w) r (predOf (conditionsOf ss x)) s
    exact eq ⟨a, ha⟩ ⟨b, hb⟩ ((gen v w).2.2.2 s) ((gen w v).2.2.2 s)

/-- It does not work the other way round: of two different versions the later one accepts a text, in every encoding,
that the earlier one rejects. -/
theorem C65_strict {v w : Version} (hvw : Spec.Version.LE v w) (hne : v ≠ w) {r : Spec.Range} (hr : r ≠ .ascii) :
    ∃ c : Nat, Spec.Bmp c ∧
      (isUtf8S (charClass w) (utf8Of [c]) r.code (Pred.validIf kIsAssigned) = .ok true ∧
        isUtf8S (charClass v) (utf8Of [c]) r.code (Pred.validIf kIsAssigned) = .ok false) ∧
      (isUtf16S (charClass w) (utf16Of [c]) r.code (Pred.validIf kIsAssigned) = .ok true ∧
        isUtf16S (charClass v) (utf16Of [c]) r.code (Pred.validIf kIsAssigned) = .ok false) ∧
      (isUcs2S (charClass w) (ucs2Of [c]) r.code (Pred.validIf kIsAssigned) = .ok true ∧
        isUcs2S (charClass v) (ucs2Of [c]) r.code (Pred.validIf kIsAssigned) = .ok false) ∧
      (isUcs4S (charClass w) (ucs4Of [c]) r.code (Pred.validIf kIsAssigned) = .ok true ∧
        isUcs4S (charClass v) (ucs4Of [c]) r.code (Pred.validIf kIsAssigned) = .ok false) := by
  obtain ⟨u, ⟨hu0, hu1⟩, h1, h2⟩ := tables_differ hvw hne
  generalize u.toNat = c at hu0 hu1 h1 h2
  have hsur : ¬ Spec.Surrogate c := by unfold Spec.Surrogate; omega
  have hsc : ∀ x ∈ [c], Spec.Scalar x := by
    intro x hx
    rw [List.mem_singleton.1 hx]
    unfold Spec.Scalar
    exact ⟨hu0, by omega, hsur⟩
  have henc : ∀ x ∈ [c], Spec.Encodable x := by
    intro x hx
    rw [List.mem_singleton.1 hx]
    unfold Spec.Encodable
    exact ⟨hu0, by omega, hsur⟩
  have hacc : AccFlags r c ∧ Acc8 r c := by
    cases r with
    | ascii => exact absurd rfl hr
    | ucs4 => exact ⟨trivial, show c < _ by omega⟩
    | _ => exact ⟨show c < _ by omega, show c < _ by omega⟩
  have e16 : ∀ v, (Pred.validIf kIsAssigned).call16 (charClass v) c =
      (Pred.validIf kIsAssigned).call32 (charClass v) c := by
    intro v
    have := C26_overloads_agree v (Pred.validIf kIsAssigned) (BitVec.ofNat 16 c)
    rwa [show (BitVec.ofNat 16 c).toNat = c by
      rw [BitVec.toNat_ofNat]; exact Nat.mod_eq_of_lt (by omega)] at this
  have hpu : predUnit c = c := by unfold predUnit; exact if_pos (by omega)
  have t2 : (BitVec.ofNat 16 c).toNat = c := by
    rw [BitVec.toNat_ofNat]; exact Nat.mod_eq_of_lt (by omega)
  have t4 : (BitVec.ofNat 32 c).toNat = c := by
    rw [BitVec.toNat_ofNat]; exact Nat.mod_eq_of_lt (by omega)
  have n2 : textOf (ucs2Of [c]) = ucs2Of [c] := textOf_of_nulFree fun x hx h0 => by
    have : x = BitVec.ofNat 16 c := List.mem_singleton.1 hx
    rw [this] at h0
    rw [h0] at t2
    have : (0 : U16).toNat = 0 := rfl
    omega
  have n4 : textOf (ucs4Of [c]) = ucs4Of [c] := textOf_of_nulFree (ucs4Of_nulFree henc)
  have s8 := scan_of_text (text_utf8Of henc)
  have s16 := scan16_utf16Of (lenient := false) hsc
  rw [← textOf_of_nulFree (utf8Of_nulFree henc)] at s8
  rw [← textOf_of_nulFree (utf16Of_nulFree hsc)] at s16
  refine ⟨c, ⟨hu0, by omega, hsur⟩, ⟨?_, ?_⟩, ⟨?_, ?_⟩, ⟨?_, ?_⟩, ?_, ?_⟩
  · exact ok_true_of (isUtf8S_any _ r _ s8) ⟨fun x hx => by
      rw [List.mem_singleton.1 hx]; exact ⟨hacc.2, h1⟩, trivial⟩
  · refine ok_false_of (isUtf8S_any _ r _ s8) fun h => ?_
    have := (h.1 c (by simp)).2
    rw [h2] at this; cases this
  · exact ok_true_of (isUtf16S_any _ r _ s16) ⟨fun x hx => by
      rw [List.mem_singleton.1 hx, hpu, e16]; exact ⟨hacc.1, h1⟩, trivial⟩
  · refine ok_false_of (isUtf16S_any _ r _ s16) fun h => ?_
    have := (h.1 c (by simp)).2
    rw [hpu, e16, h2] at this; cases this
  · refine ok_true_of (isUcs2S_any _ r _ _) fun x hx => ?_
    rw [n2] at hx
    rw [show x = BitVec.ofNat 16 c from List.mem_singleton.1 hx, t2, e16]
    exact ⟨hsur, hacc.1, h1⟩
  · refine ok_false_of (isUcs2S_any _ r _ _) fun h => ?_
    rw [n2] at h
    have := (h (BitVec.ofNat 16 c) (List.mem_singleton.2 rfl)).2.2
    rw [t2, e16, h2] at this; cases this
  · refine ok_true_of (isUcs4S_any _ r _ _) fun x hx => ?_
    rw [n4] at hx
    rw [show x = BitVec.ofNat 32 c from List.mem_singleton.1 hx, t4]
    exact ⟨hsur, hacc.1, h1⟩
  · refine ok_false_of (isUcs4S_any _ r _ _) fun h => ?_
    rw [n4] at h
    have := (h (BitVec.ofNat 32 c) (List.mem_singleton.2 rfl)).2.2
    rw [t4, h2] at this; cases this

/-- A case that meets the hypotheses of both: `p = validIfNot(control); q = p; q.andIf(assigned)`. Here `q` asks for
assigned characters, and `p` says nothing about them. -/
example : (⟨.assigned, false⟩ : Cond) ∉ conditionsOf
      [.make 0 ⟨.control, false⟩, .copy 1 0, .narrow 1 ⟨.assigned, true⟩] 1 ∧
    (∀ b, (⟨.assigned, b⟩ : Cond) ∉ conditionsOf
      [.make 0 ⟨.control, false⟩, .copy 1 0, .narrow 1 ⟨.assigned, true⟩] 0) ∧
    Spec.Version.LE .v7 .v16 :=
  ⟨by decide, by decide, by unfold Spec.Version.LE; decide⟩

end Ansak.Props
