import Verif.Spec.History
import Verif.Lemmas.Predicate
import Verif.Lemmas.Compose

/-!
# C57: predicate objects through any history of copying and narrowing
# C58: another condition only narrows
-/

namespace Ansak.Props

open Spec (Class Cond Consistent conditions conditionsOf textOf)

/-- The predicate made from a list of conditions. -/
def predOf (ks : List Cond) : Pred := ks.foldl also Pred.none

theorem also_none (k : Cond) : also Pred.none k = start k := by
  obtain ⟨c, w⟩ := k
  cases c <;> cases w <;> rfl

theorem predOf_cons (k : Cond) (ks : List Cond) : predOf (k :: ks) = chain k ks := by
  unfold predOf chain
  rw [List.foldl_cons, also_none]

theorem predOf_append (ks : List Cond) (k : Cond) : predOf (ks ++ [k]) = also (predOf ks) k := by
  unfold predOf
  rw [List.foldl_append]; rfl

theorem test_predOf (c : Class → Bool) (ks : List Cond) (h : Consistent ks) :
    (predOf ks).test (encSet c) = true ↔ ∀ j ∈ ks, j.Holds c := by
  cases ks with
  | nil => exact ⟨fun _ j hj => absurd hj (by simp), fun _ => rfl⟩
  | cons k ks => rw [predOf_cons]; exact test_chain c k ks h

/-- Without the assumption of consistency: a class that is asked for anywhere counts as asked for. -/
theorem test_predOf_any (c : Class → Bool) (ks : List Cond) :
    (predOf ks).test (encSet c) = true ↔
      ∀ j ∈ ks, (c j.cls = true ↔ ⟨j.cls, true⟩ ∈ ks) := by
  cases ks with
  | nil => exact ⟨fun _ j hj => absurd hj (by simp), fun _ => rfl⟩
  | cons k ks =>
    rw [predOf_cons, chain_sets, test_sets]
    · have e : ∀ X : Class, ((k :: ks).any fun j => decide (X = j.cls) && j.want) = true ↔
          (⟨X, true⟩ : Cond) ∈ k :: ks := by
        intro X
        rw [List.any_eq_true]
        constructor
        · rintro ⟨⟨cls, want⟩, hj, hh⟩
          rw [Bool.and_eq_true, decide_eq_true_iff] at hh
          obtain ⟨rfl, h2⟩ := hh
          cases h2
          exact hj
        · exact fun hj => ⟨_, hj, by simp⟩
      constructor
      · intro h j hj
        have := h j.cls (List.any_eq_true.2 ⟨j, hj, by simp⟩)
        rw [this, e]
      · intro h X hX
        obtain ⟨j, hj, hX⟩ := List.any_eq_true.1 hX
        have hX : X = j.cls := by simpa using hX
        subst hX
        rw [Bool.eq_iff_iff, e]
        exact h j hj
    · intro X hX
      obtain ⟨j, hj, hX⟩ := List.any_eq_true.1 hX
      rw [Bool.and_eq_true] at hX
      exact List.any_eq_true.2 ⟨j, hj, hX.1⟩

theorem set_same (σ : Objects) (x : Nat) (p : Pred) : σ.set x p x = p := if_pos rfl
theorem set_other (σ : Objects) {x z : Nat} (p : Pred) (h : z ≠ x) : σ.set x p z = σ z := if_neg h

theorem narrow_spec (σ : Objects) (y : Nat) (o : Pred) :
    (σ.narrow y o).2 = ⟨(σ y).mask ||| o.mask, (σ y).value ||| o.value⟩ ∧
    (σ.narrow y o).1 y = (σ.narrow y o).2 ∧ ∀ z, z ≠ y → (σ.narrow y o).1 z = σ z := by
  unfold Objects.narrow
  refine ⟨?_, rfl, fun z hz => ?_⟩
  · simp only [set_same]
  · simp only [set_other _ _ hz]

theorem call_spec (σ : Objects) (y : Nat) (k : Cond) :
    (σ.call y k).2 = also (σ y) k ∧ (σ.call y k).1 y = also (σ y) k ∧
      ∀ z, z ≠ y → (σ.call y k).1 z = σ z := by
  unfold Objects.call also
  by_cases hk : k.want = true
  · rw [if_pos hk, if_pos hk]
    obtain ⟨h1, h2, h3⟩ := narrow_spec σ y (Pred.mk' k.cls.code)
    exact ⟨h1, h2.trans h1, h3⟩
  · rw [if_neg hk, if_neg hk]
    obtain ⟨h1, h2, h3⟩ := narrow_spec σ y (Pred.mk' k.cls.code false)
    exact ⟨h1, h2.trans h1, h3⟩

theorem exec_spec {σ : Objects} {h : Nat → List Cond} (hσ : ∀ z, σ z = predOf (h z)) (s : Stmt) (z : Nat) :
    s.exec σ z = predOf (conditions h s z) := by
  cases s with
  | declare x =>
    show σ.set x Pred.none z = predOf (if z = x then [] else h z)
    by_cases hz : z = x
    · rw [if_pos hz, hz, set_same]; rfl
    · rw [if_neg hz, set_other _ _ hz, hσ]
  | make x k =>
    show σ.set x (start k) z = predOf (if z = x then [k] else h z)
    by_cases hz : z = x
    · rw [if_pos hz, hz, set_same, ← also_none]; rfl
    · rw [if_neg hz, set_other _ _ hz, hσ]
  | copy x y =>
    show σ.set x (σ y) z = predOf (if z = x then h y else h z)
    by_cases hz : z = x
    · rw [if_pos hz, hz, set_same, hσ]
    · rw [if_neg hz, set_other _ _ hz, hσ]
  | narrow y k =>
    show (σ.call y k).1 z = predOf (if z = y then h y ++ [k] else h z)
    obtain ⟨_, h2, h3⟩ := call_spec σ y k
    by_cases hz : z = y
    · rw [if_pos hz, hz, h2, predOf_append, hσ]
    · rw [if_neg hz, h3 z hz, hσ]
  | derive x y k =>
    show (σ.call y k).1.set x (σ.call y k).2 z = predOf (if z = x ∨ z = y then h y ++ [k] else h z)
    obtain ⟨h1, h2, h3⟩ := call_spec σ y k
    by_cases hx : z = x
    · rw [if_pos (.inl hx), hx, set_same, h1, predOf_append, hσ]
    · rw [set_other _ _ hx]
      by_cases hz : z = y
      · rw [if_pos (.inr hz), hz, h2, predOf_append, hσ]
      · rw [if_neg (fun h => h.elim hx hz), h3 z hz, hσ]

theorem execAll_spec (ss : List Stmt) (z : Nat) : execAll ss z = predOf (conditionsOf ss z) := by
  have gen : ∀ (ss : List Stmt) (σ : Objects) (h : Nat → List Cond), (∀ z, σ z = predOf (h z)) →
      ∀ z, ss.foldl Stmt.exec σ z = predOf (ss.foldl conditions h z) := by
    intro ss
    induction ss with
    | nil => exact fun σ h hσ => hσ
    | cons s ss ih => exact fun σ h hσ => ih _ _ (exec_spec hσ s)
  exact gen ss (fun _ => Pred.none) (fun _ => []) (fun _ => rfl) z

/-! ## C57 -/

/-- After any program a predicate holds of exactly the characters that satisfy all conditions its variable has
collected, as long as they do not contradict one another. -/
theorem C57_history_partial (U : CharClass) (ss : List Stmt) (x : Nat) (h : Consistent (conditionsOf ss x))
    (v : Nat) :
    ((execAll ss x).call32 U v = true ↔ ∀ j ∈ conditionsOf ss x, j.Holds (classes32 U v)) ∧
    ((execAll ss x).call16 U v = true ↔ ∀ j ∈ conditionsOf ss x, j.Holds (classes16 U v)) ∧
    ((execAll ss x).call8 U v = true ↔ ∀ j ∈ conditionsOf ss x, j.Holds (classes8 U v)) := by
  rw [execAll_spec]
  exact ⟨test_predOf (classes32 U v) _ h, test_predOf (classes16 U v) _ h, test_predOf (classes8 U v) _ h⟩

/-- The same without the assumption: of two contradictory conditions the one that asks for the class wins. -/
theorem C57_any_history (U : CharClass) (ss : List Stmt) (x v : Nat) :
    ((execAll ss x).call32 U v = true ↔
      ∀ j ∈ conditionsOf ss x, (classes32 U v j.cls = true ↔ ⟨j.cls, true⟩ ∈ conditionsOf ss x)) ∧
    ((execAll ss x).call16 U v = true ↔
      ∀ j ∈ conditionsOf ss x, (classes16 U v j.cls = true ↔ ⟨j.cls, true⟩ ∈ conditionsOf ss x)) ∧
    ((execAll ss x).call8 U v = true ↔
      ∀ j ∈ conditionsOf ss x, (classes8 U v j.cls = true ↔ ⟨j.cls, true⟩ ∈ conditionsOf ss x)) := by
  rw [execAll_spec]
  exact ⟨test_predOf_any (classes32 U v) _, test_predOf_any (classes16 U v) _, test_predOf_any (classes8 U v) _⟩

/-- A statement leaves all other variables alone: copies are independent. -/
theorem C57_frame (σ : Objects) (s : Stmt) (z : Nat) (h : ¬ s.Writes z) : s.exec σ z = σ z := by
  cases s with
  | declare x => exact set_other _ _ h
  | make x k => exact set_other _ _ h
  | copy x y => exact set_other _ _ h
  | narrow y k => exact (call_spec σ y k).2.2 z h
  | derive x y k =>
    have h := not_or.1 h
    exact (set_other _ _ h.1).trans ((call_spec σ y k).2.2 z h.2)

/-- `x = y.andIf(X)` narrows `y` as well: afterwards the two compare equal. -/
theorem C57_receiver (σ : Objects) (x y : Nat) (k : Cond) :
    ((Stmt.derive x y k).exec σ y).eq ((Stmt.derive x y k).exec σ x) = true := by
  have e : ∀ p : Pred, p.eq p = true := fun p => by unfold Pred.eq; simp
  obtain ⟨h1, h2, _⟩ := call_spec σ y k
  show Pred.eq ((σ.call y k).1.set x (σ.call y k).2 y) ((σ.call y k).1.set x (σ.call y k).2 x) = true
  rw [set_same]
  by_cases hz : y = x
  · rw [hz, set_same]; exact e _
  · rw [set_other _ _ hz, h1, h2]; exact e _

/-- So two predicates cannot be derived from a common one without a copy: with
`p = validIf(assigned); q = p.andIf(whiteSpace); r = p.andIf(control);` the predicate `r` also asks for white
space. -/
theorem C57_shared (U : CharClass) (v : Nat) :
    (execAll [.make 0 ⟨.assigned, true⟩, .derive 1 0 ⟨.whiteSpace, true⟩, .derive 2 0 ⟨.control, true⟩] 2).call32
      U v = (U.assigned32 v && U.control32 v && U.white32 v) := by
  have h := (C57_history_partial U [.make 0 ⟨.assigned, true⟩, .derive 1 0 ⟨.whiteSpace, true⟩,
    .derive 2 0 ⟨.control, true⟩] 2 (by decide) v).1
  rw [Bool.eq_iff_iff, h]
  show (∀ j ∈ ([⟨.assigned, true⟩, ⟨.whiteSpace, true⟩, ⟨.control, true⟩] : List Cond), _) ↔ _
  simp only [List.forall_mem_cons, Cond.Holds, classes32, Bool.and_eq_true]
  constructor
  · exact fun ⟨h1, h2, h3, _⟩ => ⟨⟨h1, h3⟩, h2⟩
  · exact fun ⟨⟨h1, h3⟩, h2⟩ => ⟨h1, h2, h3, fun _ hx => absurd hx (by simp)⟩

/-! ## C58 -/

theorem test_narrows (c : Class → Bool) {ks : List Cond} {k : Cond} (h : Consistent (ks ++ [k]))
    (ht : (also (predOf ks) k).test (encSet c) = true) : (predOf ks).test (encSet c) = true := by
  rw [← predOf_append, test_predOf c _ h] at ht
  refine (test_predOf c ks fun j hj j' hj' => h j (List.mem_append_left _ hj) j' (List.mem_append_left _ hj')).2
    fun j hj => ht j (List.mem_append_left _ hj)

/-- What a validator accepts with one more condition it accepts without, for every predicate a program can make
and every condition that does not contradict it. -/
theorem C58_narrows_partial (U : CharClass) (r : Spec.Range) (ss : List Stmt) (x : Nat) (k : Cond)
    (h : Consistent (conditionsOf ss x ++ [k])) :
    (∀ s, isUtf8S U s r.code (also (execAll ss x) k) = .ok true → isUtf8S U s r.code (execAll ss x) = .ok true) ∧
    (∀ s, isUtf16S U s r.code (also (execAll ss x) k) = .ok true → isUtf16S U s r.code (execAll ss x) = .ok true) ∧
    (∀ s, isUcs2S U s r.code (also (execAll ss x) k) = .ok true → isUcs2S U s r.code (execAll ss x) = .ok true) ∧
    (∀ s, isUcs4S U s r.code (also (execAll ss x) k) = .ok true → isUcs4S U s r.code (execAll ss x) = .ok true) := by
  rw [execAll_spec]
  have h32 : ∀ v, (also (predOf (conditionsOf ss x)) k).call32 U v = true →
      (predOf (conditionsOf ss x)).call32 U v = true := fun v hv => test_narrows (classes32 U v) h hv
  have h16 : ∀ v, (also (predOf (conditionsOf ss x)) k).call16 U v = true →
      (predOf (conditionsOf ss x)).call16 U v = true := fun v hv => test_narrows (classes16 U v) h hv
  refine ⟨fun s hs => ?_, fun s hs => ?_, fun s hs => ?_, fun s hs => ?_⟩
  · obtain ⟨vs, e, hsc⟩ := scan_exists (textOf_nulFree s)
    obtain ⟨ha, he⟩ := of_ok_true (isUtf8S_any U r _ hsc) hs
    exact ok_true_of (isUtf8S_any U r _ hsc) ⟨fun v hv => ⟨(ha v hv).1, h32 v (ha v hv).2⟩, he⟩
  · obtain ⟨vs, e, hsc⟩ := scan16_exists false (textOf_nulFree s)
    obtain ⟨ha, he⟩ := of_ok_true (isUtf16S_any U r _ hsc) hs
    exact ok_true_of (isUtf16S_any U r _ hsc) ⟨fun v hv => ⟨(ha v hv).1, h16 _ (ha v hv).2⟩, he⟩
  · have ha := of_ok_true (isUcs2S_any U r _ s) hs
    exact ok_true_of (isUcs2S_any U r _ s) fun c hc => ⟨(ha c hc).1, (ha c hc).2.1, h16 _ (ha c hc).2.2⟩
  · have ha := of_ok_true (isUcs4S_any U r _ s) hs
    exact ok_true_of (isUcs4S_any U r _ s) fun c hc => ⟨(ha c hc).1, (ha c hc).2.1, h32 _ (ha c hc).2.2⟩

/-- Without it, another condition can widen: `validIfNot(X).andIf(X)` accepts exactly what `validIfNot(X)` does
not. -/
theorem C58_contradiction_violated (U : CharClass) (X : Class) (v : Nat) :
    ((Pred.validIfNot X.code).andIf X.code).call32 U v = !(Pred.validIfNot X.code).call32 U v := by
  have e1 : (Pred.validIfNot X.code).andIf X.code = predOf [⟨X, false⟩, ⟨X, true⟩] := by
    rw [predOf_cons]; rfl
  have e2 : Pred.validIfNot X.code = predOf [⟨X, false⟩] := by rw [predOf_cons]; rfl
  have h1 := test_predOf_any (classes32 U v) [⟨X, false⟩, ⟨X, true⟩]
  have h2 := test_predOf_any (classes32 U v) [⟨X, false⟩]
  rw [← e1] at h1
  rw [← e2] at h2
  show Pred.test _ (encSet (classes32 U v)) = !Pred.test _ (encSet (classes32 U v))
  have a1 : Pred.test _ (encSet (classes32 U v)) = true ↔ classes32 U v X = true := h1.trans (by simp)
  have a2 : Pred.test _ (encSet (classes32 U v)) = true ↔ ¬ classes32 U v X = true := h2.trans (by simp)
  rw [Bool.eq_iff_iff, a1, Bool.not_eq_true', ← Bool.not_eq_true, a2, Classical.not_not]

/-! ## The hypotheses can be met -/

/-- The program of test/unit/encode_predicate_test.cxx:299-303. -/
def testProgram : List Stmt := [.make 0 ⟨.assigned, true⟩,
  .derive 3 0 ⟨.whiteSpace, true⟩, .derive 4 3 ⟨.control, false⟩, .derive 1 4 ⟨.privateUse, false⟩,
  .derive 5 0 ⟨.whiteSpace, true⟩, .derive 6 5 ⟨.control, true⟩, .derive 2 6 ⟨.privateUse, false⟩]

example : Consistent (conditionsOf testProgram 1) ∧ Consistent (conditionsOf testProgram 2) ∧
    conditionsOf testProgram 2 = [⟨.assigned, true⟩, ⟨.whiteSpace, true⟩, ⟨.whiteSpace, true⟩, ⟨.control, true⟩,
      ⟨.privateUse, false⟩] := by decide

example : ¬ (Stmt.derive 1 0 ⟨.control, true⟩).Writes 2 ∧ ¬ (Stmt.narrow 1 ⟨.control, true⟩).Writes 0 := by
  unfold Stmt.Writes; decide

example : Consistent (conditionsOf [.make 0 ⟨.assigned, true⟩] 0 ++ [⟨.control, false⟩]) := by decide

end Ansak.Props
