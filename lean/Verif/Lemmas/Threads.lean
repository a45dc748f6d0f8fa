import Verif.Spec.Threads
import Verif.Props.TextPredicate
import Verif.Props.TextMore

/-! # Threads that call the library -/

namespace Ansak.Threads

open Spec Props

theorem runsOn_unique {w : Bool} {v : Version} {name : Nat} {args : List Arg} {x y : Res Arg} (hx : RunsOn w v name args x)
    (hy : RunsOn w v name args y) : x = y :=
  yields_unique (hx false _ (Nat.le_refl _)) (hy false _ (Nat.le_refl _))

theorem set_other {σ : Store} {x y : Nat} {a : Arg} (h : y ≠ x) : σ.set x a y = σ y := if_neg h

theorem set_same {σ τ : Store} {x y : Nat} {a : Arg} (h : τ y = σ y) : τ.set x a y = σ.set x a y := by
  unfold Store.set
  rw [h]

theorem does_frame {w : Bool} {v : Version} {σ σ' : Store} {s : LibCall} (h : Does w v σ s σ') {x : Nat}
    (hx : x ∉ s.changes) : σ' x = σ x := by
  cases h with
  | call _ => exact set_other fun e => hx (e ▸ List.mem_singleton.2 rfl)
  | change _ => exact set_other fun e => hx (e ▸ List.mem_singleton.2 rfl)
  | member _ _ => exact set_other fun e => hx (e ▸ List.mem_singleton.2 rfl)
  | @query x' y' _ _ _ _ _ _ _ =>
    have h1 : x ≠ x' := fun e => hx (e ▸ List.mem_cons_self)
    have h2 : x ≠ y' := fun e => hx (e ▸ List.mem_cons_of_mem _ List.mem_cons_self)
    exact (set_other h1).trans (set_other h2)

theorem map_agree {σ τ : Store} {as : List Nat} (h : ∀ x ∈ as, τ x = σ x) : as.map τ = as.map σ :=
  List.map_congr_left h

theorem does_agree {w : Bool} {v : Version} {σ σ' τ : Store} {s : LibCall} (h : Does w v σ s σ')
    (hτ : ∀ x ∈ s.uses, τ x = σ x) : ∃ τ', Does w v τ s τ' ∧ ∀ x, τ x = σ x → τ' x = σ' x := by
  cases h with
  | call h => exact ⟨_, .call (map_agree (fun x hx => hτ x (List.mem_cons_of_mem _ hx)) ▸ h), fun x hx => set_same hx⟩
  | change h =>
    refine ⟨_, .change ?_, fun x hx => set_same hx⟩
    rw [hτ _ List.mem_cons_self, map_agree fun x hx => hτ x (List.mem_cons_of_mem _ hx)]
    exact h
  | member hp h =>
    exact ⟨_, .member ((hτ _ List.mem_cons_self).trans hp) (map_agree (fun x hx => hτ x (List.mem_cons_of_mem _ hx)) ▸ h),
      fun x hx => set_same hx⟩
  | query hp h =>
    exact ⟨_, .query ((hτ _ (List.mem_cons_of_mem _ List.mem_cons_self)).trans hp)
      (map_agree (fun x hx => hτ x (List.mem_cons_of_mem _ (List.mem_cons_of_mem _ hx))) ▸ h),
      fun x hx => set_same (set_same hx)⟩

theorem does_unique {w : Bool} {v : Version} {σ σ' σ'' : Store} {s : LibCall} (h : Does w v σ s σ') (h' : Does w v σ s σ'') :
    σ' = σ'' := by
  cases h with
  | call h =>
    cases h' with
    | call h' =>
      have e := runsOn_unique h h'
      injection e with e
      rw [e]
  | change h =>
    cases h' with
    | change h' =>
      have e := C67_changes_unique h h'
      injection e with e
      rw [e]
  | member hp h =>
    cases h' with
    | member hp' h' =>
      have e := Arg.pred.inj (hp.symm.trans hp')
      subst e
      rw [(C67_member_unique h h').2]
  | query hp h =>
    cases h' with
    | query hp' h' =>
      have e := Arg.pred.inj (hp.symm.trans hp')
      subst e
      rw [(C67_member_unique h h').1, (C67_member_unique h h').2]

theorem alone_snoc {w : Bool} {v : Version} {σ τ : Store} {ss : List LibCall} {s : LibCall} (h : Alone w v σ (ss ++ [s]) τ) :
    ∃ τ', Alone w v σ ss τ' ∧ Does w v τ' s τ := by
  generalize e : ss ++ [s] = l at h
  cases h with
  | nothing => exact absurd e (by simp)
  | «then» h1 h2 =>
    have := List.append_inj' e rfl
    obtain ⟨rfl, e2⟩ := this
    injection e2 with e2
    subst e2
    exact ⟨_, h1, h2⟩

theorem alone_unique {w : Bool} {v : Version} {σ τ τ' : Store} {ss : List LibCall} (h : Alone w v σ ss τ)
    (h' : Alone w v σ ss τ') : τ = τ' := by
  induction h generalizing τ' with
  | nothing =>
    generalize e : ([] : List LibCall) = l at h'
    cases h' with
    | nothing => rfl
    | «then» => exact absurd e (by simp)
  | «then» _ hd ih =>
    obtain ⟨ρ, h1, h2⟩ := alone_snoc h'
    have := ih h1
    subst this
    exact does_unique hd h2

theorem alone_prefix {w : Bool} {v : Version} {σ τ : Store} {l : List LibCall} (h : Alone w v σ l τ) :
    ∀ {ss ts : List LibCall} {s : LibCall}, l = ss ++ s :: ts → ∃ τ' τ'', Alone w v σ ss τ' ∧ Does w v τ' s τ'' := by
  induction h with
  | nothing => intro ss ts s e; exact absurd e (by simp)
  | «then» h hd ih =>
    intro ss ts s e
    rcases List.eq_nil_or_concat ts with rfl | ⟨ts, t, rfl⟩
    · obtain ⟨rfl, e2⟩ := List.append_inj' e rfl
      injection e2 with e2
      subst e2
      exact ⟨_, _, h, hd⟩
    · have e : _ = (ss ++ s :: ts) ++ [t] := e.trans (by simp)
      exact ih (List.append_inj' e rfl).1

/-- What is true whatever has happened: each thread has done the first of its statements, and its variables are as if it had been
alone. -/
def Inv (w : Bool) (v : Version) (σ : Store) (P : Nat → List LibCall) (T : Threads) : Prop :=
  (∀ i, ∃ ss τ, P i = ss ++ (T.thread i).todo ∧ Alone w v σ ss τ ∧ ∀ s ∈ P i, ∀ x ∈ s.uses, T.store x = τ x) ∧
    ∀ x, (∀ i, ∀ s ∈ P i, x ∉ s.changes) → T.store x = σ x

theorem changes_uses {s : LibCall} {x : Nat} (h : x ∈ s.changes) : x ∈ s.uses := by
  cases s with
  | call => exact List.mem_cons.2 (.inl (List.mem_singleton.1 h))
  | change => exact List.mem_cons.2 (.inl (List.mem_singleton.1 h))
  | member => exact List.mem_cons.2 (.inl (List.mem_singleton.1 h))
  | query x y f as =>
    exact (List.mem_cons.1 h).elim (fun h => List.mem_cons.2 (.inl h))
      fun h => List.mem_cons_of_mem _ (List.mem_cons.2 (.inl (List.mem_singleton.1 h)))

theorem inv_reached {w : Bool} {v : Version} {σ : Store} {P : Nat → List LibCall} (hP : Separate P) {T : Threads}
    (h : Reached w v (.start σ P) T) : Inv w v σ P T := by
  induction h with
  | here => exact ⟨fun i => ⟨[], σ, rfl, .nothing, fun _ _ _ _ => rfl⟩, fun _ _ => rfl⟩
  | next _ hn ih =>
    cases hn with
    | begins i hi =>
      refine ⟨fun j => ?_, ih.2⟩
      obtain ⟨ss, τ, h1, h2, h3⟩ := ih.1 j
      refine ⟨ss, τ, h1.trans ?_, h2, h3⟩
      show _ = ss ++ (if j = i then _ else _ : Thread).todo
      split
      · rename_i e; rw [e, hi]
      · rfl
    | ends i hi hd =>
      rename_i s ts σ'
      have mem : ∀ {ss}, P i = ss ++ s :: ts → s ∈ P i := fun e => e ▸ List.mem_append.2 (.inr List.mem_cons_self)
      obtain ⟨ss, τ, h1, h2, h3⟩ := ih.1 i
      rw [hi] at h1
      have hs := mem h1
      refine ⟨fun j => ?_, fun x hx => (does_frame hd (hx i s hs)).trans (ih.2 x hx)⟩
      by_cases e : j = i
      · subst e
        obtain ⟨τ', hd', h4⟩ := does_agree (τ := τ) hd fun x hx => (h3 s hs x hx).symm
        refine ⟨ss ++ [s], τ', ?_, .then h2 hd', fun t ht x hx => (h4 x (h3 t ht x hx).symm).symm⟩
        show _ = ss ++ [s] ++ (if j = j then _ else _ : Thread).todo
        rw [if_pos rfl, h1]
        simp
      · obtain ⟨ss', τ', h1', h2', h3'⟩ := ih.1 j
        refine ⟨ss', τ', ?_, h2', fun t ht x hx => ?_⟩
        · show _ = ss' ++ (if j = i then _ else _ : Thread).todo
          rw [if_neg e]
          exact h1'
        · refine (does_frame hd fun hc => ?_).trans (h3' t ht x hx)
          exact hP i j (fun h => e h.symm) s hs t ht x hc hx

theorem left_same {T U : Threads} : ∀ {n : Nat}, (∀ j < n, U.thread j = T.thread j) → U.left n = T.left n
  | 0, _ => rfl
  | n + 1, h => by
    rw [Threads.left, Threads.left, left_same fun j hj => h j (Nat.lt_succ_of_lt hj), h n (Nat.lt_succ_self n)]

theorem left_step {T U : Threads} {i : Nat} (h : ∀ j, j ≠ i → U.thread j = T.thread j)
    (hi : (U.thread i).left + 1 = (T.thread i).left) : ∀ {n : Nat}, i < n → U.left n + 1 = T.left n
  | 0, hn => absurd hn (Nat.not_lt_zero _)
  | n + 1, hn => by
    rw [Threads.left, Threads.left]
    by_cases e : i = n
    · subst e
      rw [left_same fun j hj => h j (Nat.ne_of_lt hj)]
      omega
    · have := left_step h hi (n := n) (by omega)
      rw [h n fun h => e h.symm]
      omega

/-- Every thread after the first `n` has nothing to do. -/
theorem todo_reached {w : Bool} {v : Version} {S T : Threads} (h : Reached w v S T) {n : Nat}
    (hS : ∀ i, n ≤ i → (S.thread i).todo = []) : ∀ i, n ≤ i → (T.thread i).todo = [] := by
  induction h with
  | here => exact hS
  | next _ hn ih =>
    intro j hj
    cases hn with
    | begins i hi =>
      show (if j = i then _ else _ : Thread).todo = []
      split
      · rename_i e
        have := ih i (e ▸ hj)
        rw [hi] at this
        nomatch this
      · exact ih j hj
    | ends i hi hd =>
      show (if j = i then _ else _ : Thread).todo = []
      split
      · rename_i e
        have := ih i (e ▸ hj)
        rw [hi] at this
        nomatch this
      · exact ih j hj

theorem left_happens {w : Bool} {v : Version} {T U : Threads} (h : Happens w v T U) {n : Nat}
    (hT : ∀ i, n ≤ i → (T.thread i).todo = []) : U.left n + 1 = T.left n := by
  have lt : ∀ {i s ss b}, T.thread i = ⟨s :: ss, b⟩ → i < n := by
    intro i s ss b e
    refine Nat.lt_of_not_le fun hn => ?_
    have := hT i hn
    rw [e] at this
    nomatch this
  cases h with
  | begins i hi =>
    refine left_step (i := i) (fun j hj => if_neg hj) ?_ (lt hi)
    show (if i = i then _ else _ : Thread).left + 1 = _
    rw [if_pos rfl, hi]
    simp only [Thread.left, List.length_cons, if_true, Bool.false_eq_true, if_false]
    omega
  | ends i hi hd =>
    refine left_step (i := i) (fun j hj => if_neg hj) ?_ (lt hi)
    show (if i = i then _ else _ : Thread).left + 1 = _
    rw [if_pos rfl, hi]
    simp only [Thread.left, List.length_cons, if_true, Bool.false_eq_true, if_false]
    omega

end Ansak.Threads
