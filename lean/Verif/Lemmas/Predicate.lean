import Verif.Spec.Chain

/-!
# Predicates as sets of conditions
-/

namespace Ansak

open Spec (Class Cond Consistent)

/-- The bit mask of a set of classes. -/
def encSet (c : Class → Bool) : U32 :=
  encodingTypeMask (c .assigned) (c .privateUse) (c .control) (c .whiteSpace)

theorem encMask_or (a b c d a' b' c' d' : Bool) :
    encodingTypeMask a b c d ||| encodingTypeMask a' b' c' d' =
      encodingTypeMask (a || a') (b || b') (c || c') (d || d') := by
  revert a b c d a' b' c' d'; decide

theorem encMask_and (a b c d a' b' c' d' : Bool) :
    encodingTypeMask a b c d &&& encodingTypeMask a' b' c' d' =
      encodingTypeMask (a && a') (b && b') (c && c') (d && d') := by
  revert a b c d a' b' c' d'; decide

theorem encMask_inj (a b c d a' b' c' d' : Bool) :
    encodingTypeMask a b c d = encodingTypeMask a' b' c' d' ↔
      a = a' ∧ b = b' ∧ c = c' ∧ d = d' := by
  revert a b c d a' b' c' d'; decide

theorem encSet_or (f g : Class → Bool) : encSet f ||| encSet g = encSet fun c => f c || g c :=
  encMask_or ..

theorem encSet_and (f g : Class → Bool) : encSet f &&& encSet g = encSet fun c => f c && g c :=
  encMask_and ..

theorem encSet_inj (f g : Class → Bool) : encSet f = encSet g ↔ ∀ c, f c = g c := by
  unfold encSet
  rw [encMask_inj]
  constructor
  · rintro ⟨h1, h2, h3, h4⟩ c
    cases c <;> assumption
  · exact fun h => ⟨h _, h _, h _, h _⟩

theorem encSet_zero (f : Class → Bool) : encSet f = 0 ↔ ∀ c, f c = false := by
  have : (0 : U32) = encSet fun _ => false := by decide
  rw [this, encSet_inj]

/-- One condition as a predicate. -/
theorem mk'_code (k : Cond) :
    Pred.mk' k.cls.code k.want = ⟨encSet fun c => c = k.cls, encSet fun c => c = k.cls && k.want⟩ := by
  obtain ⟨cls, want⟩ := k
  cases cls <;> cases want <;> rfl

/-- What the mask and the value of a predicate say. -/
theorem test_sets (m v c : Class → Bool) (hv : ∀ k, v k = true → m k = true) :
    Pred.test ⟨encSet m, encSet v⟩ (encSet c) = true ↔ ∀ k, m k = true → c k = v k := by
  unfold Pred.test
  by_cases h0 : encSet m = 0
  · rw [if_pos h0]
    have := (encSet_zero m).1 h0
    simp [this]
  · rw [if_neg h0, encSet_and, beq_iff_eq, encSet_inj]
    constructor
    · intro h k hk
      have := h k
      rwa [hk, Bool.and_true] at this
    · intro h k
      cases hk : m k with
      | true => rw [Bool.and_true]; exact h k hk
      | false =>
        rw [Bool.and_false]
        cases hvk : v k with
        | false => rfl
        | true => rw [hv k hvk] at hk; exact absurd hk (by decide)

/-- The mask and the value of a chain: the classes mentioned, the classes asked for. -/
theorem chain_sets (k : Cond) (ks : List Cond) :
    chain k ks = ⟨encSet fun c => (k :: ks).any fun j => decide (c = j.cls),
      encSet fun c => (k :: ks).any fun j => decide (c = j.cls) && j.want⟩ := by
  have step : ∀ (ks : List Cond) (m v : Class → Bool),
      ks.foldl also ⟨encSet m, encSet v⟩ =
        ⟨encSet fun c => m c || ks.any fun j => decide (c = j.cls),
          encSet fun c => v c || ks.any fun j => decide (c = j.cls) && j.want⟩ := by
    intro ks
    induction ks with
    | nil => intro m v; simp
    | cons j ks ih =>
      intro m v
      have e : also ⟨encSet m, encSet v⟩ j =
          ⟨encSet fun c => m c || decide (c = j.cls),
            encSet fun c => v c || (decide (c = j.cls) && j.want)⟩ := by
        have hm := mk'_code j
        unfold also
        cases hw : j.want with
        | true =>
          rw [hw] at hm
          simp only [if_true, Pred.andIf, hm, encSet_or]
        | false =>
          rw [hw] at hm
          simp only [Bool.false_eq_true, if_false, Pred.andIfNot, hm, encSet_or]
      rw [List.foldl_cons, e, ih]
      simp only [List.any_cons, Bool.or_assoc]
  have h0 : start k = ⟨encSet fun c => decide (c = k.cls), encSet fun c => decide (c = k.cls) && k.want⟩ := by
    have hm := mk'_code k
    unfold start
    cases hw : k.want with
    | true => rw [hw] at hm; rw [if_pos rfl]; exact hm
    | false => rw [hw] at hm; rw [if_neg (by simp)]; exact hm
  unfold chain
  rw [h0, step]
  simp only [List.any_cons]

theorem test_chain (c : Class → Bool) (k : Cond) (ks : List Cond) (h : Consistent (k :: ks)) :
    (chain k ks).test (encSet c) = true ↔ ∀ j ∈ k :: ks, j.Holds c := by
  rw [chain_sets, test_sets]
  · constructor
    · intro hh j hj
      have h1 := hh j.cls (List.any_eq_true.2 ⟨j, hj, by simp⟩)
      unfold Cond.Holds
      rw [h1]
      cases hw : j.want with
      | true => exact List.any_eq_true.2 ⟨j, hj, by simp [hw]⟩
      | false =>
        rw [List.any_eq_false]
        intro j' hj'
        simp only [Bool.and_eq_true, decide_eq_true_iff, not_and]
        intro he
        rw [← h j hj j' hj' he, hw]; simp
    · intro hh cls hcls
      obtain ⟨j, hj, hjc⟩ := List.any_eq_true.1 hcls
      have hjc : cls = j.cls := by simpa using hjc
      subst hjc
      have h1 := hh j hj
      unfold Cond.Holds at h1
      rw [h1]
      cases hw : j.want with
      | true => exact (List.any_eq_true.2 ⟨j, hj, by simp [hw]⟩).symm
      | false =>
        symm
        rw [List.any_eq_false]
        intro j' hj'
        simp only [Bool.and_eq_true, decide_eq_true_iff, not_and]
        intro he
        rw [← h j hj j' hj' he, hw]; simp
  · intro cls hv
    obtain ⟨j, hj, hjc⟩ := List.any_eq_true.1 hv
    exact List.any_eq_true.2 ⟨j, hj, (Bool.and_eq_true_iff.1 hjc).1⟩

end Ansak
