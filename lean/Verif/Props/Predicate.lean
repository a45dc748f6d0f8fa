import Verif.Lemmas.Predicate

/-!
# C24: predicate combination means conjunction
-/

namespace Ansak.Props

open Spec (Class Cond Consistent)

/-- Missing from the full property: chains that ask for a class and for its absence
(see `C24_contradiction_violated`). -/
theorem C24_conjunction_partial (U : CharClass) (k : Cond) (ks : List Cond)
    (h : Consistent (k :: ks)) (v : Nat) :
    ((chain k ks).call32 U v = true ↔ ∀ j ∈ k :: ks, j.Holds (classes32 U v)) ∧
    ((chain k ks).call16 U v = true ↔ ∀ j ∈ k :: ks, j.Holds (classes16 U v)) ∧
    ((chain k ks).call8 U v = true ↔ ∀ j ∈ k :: ks, j.Holds (classes8 U v)) :=
  ⟨test_chain (classes32 U v) k ks h, test_chain (classes16 U v) k ks h,
    test_chain (classes8 U v) k ks h⟩

example : Consistent [⟨.assigned, true⟩, ⟨.control, false⟩, ⟨.whiteSpace, false⟩] := by decide

/-- The order of the chain is irrelevant (consistent or not). -/
theorem C24_order {k k' : Cond} {ks ks' : List Cond} (h : (k :: ks).Perm (k' :: ks')) :
    chain k ks = chain k' ks' := by
  have e : ∀ f : Cond → Bool, (k :: ks).any f = (k' :: ks').any f := by
    intro f
    rw [Bool.eq_iff_iff, List.any_eq_true, List.any_eq_true]
    constructor
    · rintro ⟨x, hx, hf⟩; exact ⟨x, h.mem_iff.1 hx, hf⟩
    · rintro ⟨x, hx, hf⟩; exact ⟨x, h.mem_iff.2 hx, hf⟩
  rw [chain_sets, chain_sets]
  simp only [e]

example : List.Perm [(⟨.assigned, true⟩ : Cond), ⟨.control, false⟩]
    [⟨.control, false⟩, ⟨.assigned, true⟩] := List.Perm.swap ..

/-- The default predicate accepts everything. -/
theorem C24_default (U : CharClass) (v : Nat) :
    Pred.none.call32 U v = true ∧ Pred.none.call16 U v = true ∧ Pred.none.call8 U v = true :=
  ⟨rfl, rfl, rfl⟩

/-- A type that is not one of the four adds no condition, wherever it is put. -/
theorem C24_illegal_type (t : EncodingType) (h : t ≤ kIsNone ∨ t ≥ kFirstInvalidEncoding) (p : Pred) :
    Pred.validIf t = Pred.none ∧ Pred.validIfNot t = Pred.none ∧ p.andIf t = p ∧ p.andIfNot t = p := by
  have hn : ¬ (t > kIsNone ∧ t < kFirstInvalidEncoding) := by
    rintro ⟨h1, h2⟩
    rcases h with h | h
    · exact absurd h1 (Int.not_lt.2 h)
    · exact absurd h2 (Int.not_lt.2 h)
  have e : ∀ b, Pred.mk' t b = ⟨0, 0⟩ := by intro b; unfold Pred.mk'; rw [if_neg hn]
  unfold Pred.validIf Pred.validIfNot Pred.andIf Pred.andIfNot
  simp only [e]
  exact ⟨rfl, rfl, by simp, by simp⟩

example : (7 : EncodingType) ≤ kIsNone ∨ (7 : EncodingType) ≥ kFirstInvalidEncoding := by decide

/-- Violation of C24: `validIf(X).andIfNot(X)`, which nothing can satisfy, accepts exactly the
characters in `X`. -/
theorem C24_contradiction_violated (U : CharClass) (X : Class) (v : Nat) :
    ((start ⟨X, true⟩).andIfNot X.code).call32 U v = classes32 U v X := by
  unfold Pred.call32
  show Pred.test _ (encSet (classes32 U v)) = _
  have e : (start ⟨X, true⟩).andIfNot X.code = chain ⟨X, true⟩ [⟨X, false⟩] := rfl
  rw [e, chain_sets, Bool.eq_iff_iff, test_sets]
  · simp only [List.any_cons, List.any_nil, Bool.or_false, Bool.or_self, Bool.and_true,
      Bool.and_false, decide_eq_true_iff]
    constructor
    · intro h; simpa using h X rfl
    · rintro h c rfl; simpa using h
  · intro c hc; simpa using hc

end Ansak.Props
