import Verif.Props.TextPredicate

/-!
# C69: comparing predicates compares their conditions
-/

namespace Ansak.Props

open Spec (Arg Runs RunsMember RunsOnItself Built InClass Cond Class Consistent)
open Unicode (charClass)

/-! ## The model -/

theorem any_class (ks : List Cond) (X : Class) : (ks.any fun j => decide (X = j.cls)) = true ↔ ∃ w, ⟨X, w⟩ ∈ ks := by
  rw [List.any_eq_true]
  constructor
  · rintro ⟨⟨c, w⟩, hj, h⟩
    obtain rfl := of_decide_eq_true h
    exact ⟨w, hj⟩
  · rintro ⟨w, h⟩
    exact ⟨_, h, decide_eq_true rfl⟩

theorem any_wanted (ks : List Cond) (X : Class) :
    (ks.any fun j => decide (X = j.cls) && j.want) = true ↔ ⟨X, true⟩ ∈ ks := by
  rw [List.any_eq_true]
  constructor
  · rintro ⟨⟨c, w⟩, hj, h⟩
    rw [Bool.and_eq_true] at h
    obtain rfl := of_decide_eq_true h.1
    obtain rfl : w = true := h.2
    exact hj
  · exact fun h => ⟨_, h, by simp⟩

theorem predOf_sets (ks : List Cond) :
    predOf ks = ⟨encSet fun c => ks.any fun j => decide (c = j.cls), encSet fun c => ks.any fun j => decide (c = j.cls) && j.want⟩ := by
  cases ks with
  | nil => rfl
  | cons k ks => rw [predOf_cons, chain_sets]

theorem predOf_inj (ks js : List Cond) :
    predOf ks = predOf js ↔ ∀ X, ((∃ w, ⟨X, w⟩ ∈ ks) ↔ ∃ w, ⟨X, w⟩ ∈ js) ∧ (⟨X, true⟩ ∈ ks ↔ ⟨X, true⟩ ∈ js) := by
  rw [predOf_sets, predOf_sets, Pred.mk.injEq, encSet_inj, encSet_inj, ← forall_and]
  refine forall_congr' fun X => and_congr ?_ ?_
  · rw [Bool.eq_iff_iff, any_class, any_class]
  · rw [Bool.eq_iff_iff, any_wanted, any_wanted]

theorem eq_iff (p q : Pred) : p.eq q = true ↔ p = q := by
  unfold Pred.eq
  rw [Bool.and_eq_true, beq_iff_eq, beq_iff_eq]
  exact ⟨fun h => by cases p; cases q; cases h.1; cases h.2; rfl, fun h => by rw [h]; exact ⟨rfl, rfl⟩⟩

/-! ## The text -/

/-- `p == q` is true exactly when the two predicates have conditions on the same classes and ask for the same ones; comparing
changes neither. -/
theorem C69_equal (v : Version) {ks js : List Cond} {p q : Pred} (hp : Built v ks p) (hq : Built v js q) :
    ∃ b, RunsMember v (name% "operator==") p [.pred q] (.bool b) p ∧
      (b = true ↔ ∀ X, ((∃ w, ⟨X, w⟩ ∈ ks) ↔ ∃ w, ⟨X, w⟩ ∈ js) ∧ (⟨X, true⟩ ∈ ks ↔ ⟨X, true⟩ ∈ js)) := by
  refine ⟨_, C67_equals v p q, ?_⟩
  rw [eq_iff, (built_iff v ks p).1 hp, (built_iff v js q).1 hq, predOf_inj]

/-- If the conditions of neither contradict each other: exactly when the two have the same conditions, in any order and number. -/
theorem C69_equal_conditions (v : Version) {ks js : List Cond} {p q : Pred} (hp : Built v ks p) (hq : Built v js q)
    (hk : Consistent ks) (hj : Consistent js) :
    ∃ b, RunsMember v (name% "operator==") p [.pred q] (.bool b) p ∧ (b = true ↔ ∀ k, k ∈ ks ↔ k ∈ js) := by
  obtain ⟨b, h, hb⟩ := C69_equal v hp hq
  refine ⟨b, h, hb.trans ⟨fun H => ?_, fun H X => ⟨exists_congr fun w => H _, H _⟩⟩⟩
  have half : ∀ {ks js : List Cond}, Consistent js →
      (∀ X, ((∃ w, (⟨X, w⟩ : Cond) ∈ ks) → ∃ w, (⟨X, w⟩ : Cond) ∈ js) ∧ ((⟨X, true⟩ : Cond) ∈ ks ↔ ⟨X, true⟩ ∈ js)) →
      Consistent ks → ∀ k ∈ ks, k ∈ js := by
    rintro ks js hj H hk ⟨X, w⟩ h
    cases w with
    | true => exact (H X).2.1 h
    | false =>
      obtain ⟨w, hw⟩ := (H X).1 ⟨_, h⟩
      cases w with
      | false => exact hw
      | true => exact absurd (hk _ h _ ((H X).2.2 hw) rfl) Bool.false_ne_true
  exact fun k => ⟨half hj (fun X => ⟨(H X).1.1, (H X).2⟩) hk k, half hk (fun X => ⟨(H X).1.2, (H X).2.symm⟩) hj k⟩

/-- `!=` is the opposite. -/
theorem C69_differ (v : Version) (p q : Pred) {b : Bool} (h : RunsMember v (name% "operator==") p [.pred q] (.bool b) p) :
    RunsMember v (name% "operator!=") p [.pred q] (.bool !b) p := by
  obtain rfl := Arg.bool.inj (C67_member_unique h (C67_equals v p q)).1
  exact C67_differs v p q

/-- An object is equal to itself, and to a copy of itself. -/
theorem C69_itself (v : Version) (p : Pred) :
    RunsOnItself v (name% "operator==") p (.bool true) ∧ RunsOnItself v (name% "operator!=") p (.bool false) ∧
    RunsMember v (name% "operator==") p [.pred p] (.bool true) p := by
  refine ⟨C67_equals_itself v p, C67_differs_itself v p, ?_⟩
  have := C67_equals v p p
  rwa [(eq_iff p p).2 rfl] at this

/-- Being equal is symmetric and transitive. -/
theorem C69_equivalence (v : Version) (p q r : Pred) (h : RunsMember v (name% "operator==") p [.pred q] (.bool true) p) :
    RunsMember v (name% "operator==") q [.pred p] (.bool true) q ∧
    (RunsMember v (name% "operator==") q [.pred r] (.bool true) q → RunsMember v (name% "operator==") p [.pred r] (.bool true) p) := by
  obtain rfl := (eq_iff p q).1 (Arg.bool.inj (C67_member_unique (C67_equals v p q) h).1)
  exact ⟨h, id⟩

/-- Equal predicates give the same answer wherever they are used: called for a character, or given to a function. -/
theorem C69_same_answers (v : Version) {p q : Pred} (h : RunsMember v (name% "operator==") p [.pred q] (.bool true) p) :
    (∀ (c : Arg) (b : Bool), RunsMember v (name% "operator()") p [c] (.bool b) p ↔
      RunsMember v (name% "operator()") q [c] (.bool b) q) ∧
    ∀ (name : Nat) (before : List Arg) (out : Res Arg),
      Runs v name (before ++ [.pred p]) out ↔ Runs v name (before ++ [.pred q]) out := by
  obtain rfl := (eq_iff p q).1 (Arg.bool.inj (C67_member_unique (C67_equals v p q) h).1)
  exact ⟨fun _ _ => Iff.rfl, fun _ _ _ => Iff.rfl⟩

/-- But predicates that give the same answer for all characters need not be equal. -/
theorem C69_answers_only (v : Version) : ∃ p q, Built v [⟨.control, true⟩, ⟨.privateUse, true⟩] p ∧
    Built v [⟨.control, true⟩, ⟨.privateUse, true⟩, ⟨.assigned, true⟩] q ∧
    (∀ c : U32, ∃ b, RunsMember v (name% "operator()") p [.char32 c] (.bool b) p ∧
      RunsMember v (name% "operator()") q [.char32 c] (.bool b) q) ∧
    RunsMember v (name% "operator==") p [.pred q] (.bool false) p := by
  have hp := (built_iff v [⟨.control, true⟩, ⟨.privateUse, true⟩] _).2 rfl
  have hq := (built_iff v [⟨.control, true⟩, ⟨.privateUse, true⟩, ⟨.assigned, true⟩] _).2 rfl
  refine ⟨_, _, hp, hq, fun c => ⟨false, ?_⟩, ?_⟩
  · have none_ : ¬ (InClass v .control c.toNat ∧ InClass v .privateUse c.toNat) := by
      rintro ⟨h1, h2⟩
      simp only [InClass, Spec.Control, Spec.PrivateUse] at h1 h2
      omega
    have no : ∀ {ks : List Cond}, ⟨.control, true⟩ ∈ ks → ⟨.privateUse, true⟩ ∈ ks →
        ¬ ∀ k ∈ ks, k.TrueOf v c.toNat := fun h1 h2 h => none_ ⟨(h _ h1).2 rfl, (h _ h2).2 rfl⟩
    obtain ⟨b, h, hb⟩ := (C24_text_partial v hp (by decide)).1 c
    obtain ⟨b', h', hb'⟩ := (C24_text_partial v hq (by decide)).1 c
    cases b with
    | true => exact absurd (hb.1 rfl) (no (by simp) (by simp))
    | false =>
      cases b' with
      | true => exact absurd (hb'.1 rfl) (no (by simp) (by simp))
      | false => exact ⟨h, h'⟩
  · obtain ⟨b, h, hb⟩ := C69_equal v hp hq
    cases b with
    | false => exact h
    | true => exact absurd (((hb.1 rfl) .assigned).2.2 (by simp)) (by simp)

/-! ## Cases -/

/-- The order does not matter, nor how often a condition is given. -/
example (v : Version) : ∃ p q, Built v [⟨.assigned, true⟩, ⟨.control, false⟩] p ∧
    Built v [⟨.control, false⟩, ⟨.assigned, true⟩, ⟨.control, false⟩] q ∧
    RunsMember v (name% "operator==") p [.pred q] (.bool true) p := by
  have hp := (built_iff v [⟨.assigned, true⟩, ⟨.control, false⟩] _).2 rfl
  have hq := (built_iff v [⟨.control, false⟩, ⟨.assigned, true⟩, ⟨.control, false⟩] _).2 rfl
  refine ⟨_, _, hp, hq, ?_⟩
  obtain ⟨b, h, hb⟩ := C69_equal_conditions v hp hq (by decide) (by decide)
  rwa [show b = true from hb.2 fun k => by simp only [List.mem_cons, List.not_mem_nil, or_false]; constructor <;> (intro h; rcases h with h | h) <;> simp_all] at h

/-- To ask for a class and to ask for its absence is not the same. -/
example (v : Version) : ∃ p q, Built v [⟨.control, true⟩] p ∧ Built v [⟨.control, false⟩] q ∧
    RunsMember v (name% "operator==") p [.pred q] (.bool false) p ∧ RunsMember v (name% "operator!=") p [.pred q] (.bool true) p := by
  have hp := (built_iff v [⟨.control, true⟩] _).2 rfl
  have hq := (built_iff v [⟨.control, false⟩] _).2 rfl
  refine ⟨_, _, hp, hq, ?_⟩
  obtain ⟨b, h, hb⟩ := C69_equal_conditions v hp hq (by decide) (by decide)
  cases b with
  | false => exact ⟨h, C69_differ v _ _ h⟩
  | true => exact absurd ((hb.1 rfl ⟨.control, true⟩).1 (by decide)) (by decide)

end Ansak.Props
