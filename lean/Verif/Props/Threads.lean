import Verif.Lemmas.Cpp.Writes
import Verif.Lemmas.Threads
import Verif.Lemmas.Cpp.Returns

/-! # C70: threads that call the library at the same time do not disturb one another -/

namespace Ansak.Props

open Spec

/-! ## What the library changes -/

/-- No function of the library changes a variable that is not its own: a parameter, a local variable, or a member of the object it
is called for. So it has no state that calls share. What is changed through a reference is a variable of the caller. -/
theorem C70_text_own (w : Bool) : ∃ is, Cpp.parseAll (Cpp.Source.pieces w) = some is ∧ ChangesOwnOnly is :=
  ⟨_, Cpp.parse_pieces w, Cpp.own_pieces w⟩

/-- The same on Windows. -/
theorem C70_text_own_windows (t : Cpp.Source.Tchar) :
    ∃ is, Cpp.parseAll (Cpp.Source.onWindows t) = some is ∧ ChangesOwnOnly is :=
  ⟨_, Cpp.parse_onWindows t, Cpp.own_onWindows t⟩

/-- A local variable of the library that outlives a call is a constant. -/
theorem C70_text_static (w : Bool) : ∀ t ∈ Cpp.Source.pieces w, StaticIsConstant (Cpp.lex t) := Cpp.static_pieces w

/-- The same on Windows. -/
theorem C70_text_static_windows (u : Cpp.Source.Tchar) : ∀ t ∈ Cpp.Source.onWindows u, StaticIsConstant (Cpp.lex t) :=
  Cpp.static_onWindows u

/-- A function that counts its calls in a variable outside of it, and one that does it in a local variable, are noticed. -/
example :
    ¬ ChangesOwnOnly [.array (.prim .int) 1 (.num 1) .nil, .func ⟨0, 2, .void, [], [], some (.expr (.setAt 1 (.num 0) (.num 5)))⟩] ∧
    ¬ StaticIsConstant [.id (name% "static"), .id (name% "int"), .id (name% "calls"), .sym (name% "="), .num 0] := by
  constructor
  · decide
  · intro h
    rcases h 0 (by decide) rfl with ⟨h, -⟩ | ⟨h, -⟩ <;> cases h

/-! ## Schedules -/

/-- If no thread changes a variable that another one uses, there is no data race with any schedule. -/
theorem C70_text_no_race {w : Bool} {v : Version} {σ : Store} {P : Nat → List LibCall} (hP : Separate P) {T : Threads}
    (h : Reached w v (.start σ P) T) : ¬ Race T := by
  rintro ⟨i, j, s, t, hij, _, _, hs, ht, hc⟩
  have mem : ∀ {i s}, (T.thread i).todo.head? = some s → s ∈ P i := by
    intro i s hs
    obtain ⟨ss, _, e, _⟩ := (Threads.inv_reached hP h).1 i
    rw [e]
    exact List.mem_append.2 (.inr (List.mem_of_head? hs))
  rcases hc with ⟨x, h1, h2⟩ | ⟨x, h1, h2⟩
  · exact hP i j hij s (mem hs) t (mem ht) x h1 h2
  · exact hP j i (fun e => hij e.symm) t (mem ht) s (mem hs) x h1 h2

/-- While a thread is inside a call, nothing that other threads do changes a variable that this call uses. -/
theorem C70_text_stable {w : Bool} {v : Version} {σ : Store} {P : Nat → List LibCall} (hP : Separate P) {T U : Threads}
    (h : Reached w v (.start σ P) T) (hU : Happens w v T U) {i : Nat} {s : LibCall} (hs : (T.thread i).todo.head? = some s)
    (hi : U.thread i = T.thread i) : ∀ x ∈ s.uses, U.store x = T.store x := by
  have mem : ∀ {i s}, (T.thread i).todo.head? = some s → s ∈ P i := by
    intro i s hs
    obtain ⟨ss, _, e, _⟩ := (Threads.inv_reached hP h).1 i
    rw [e]
    exact List.mem_append.2 (.inr (List.mem_of_head? hs))
  intro x hx
  cases hU with
  | begins j hj => rfl
  | ends j hj hd =>
    rename_i t ts σ'
    refine Threads.does_frame hd fun hc => ?_
    by_cases e : i = j
    · subst e
      have : (if i = i then (⟨ts, false⟩ : Thread) else T.thread i) = T.thread i := hi
      rw [if_pos rfl, hj] at this
      injection this with _ this
      nomatch this
    · exact hP j i (fun h => e h.symm) t (mem (by rw [hj]; rfl)) s (mem hs) x hc hx

/-- When all threads have finished, whatever the schedule was, each thread finds its variables as if it had been alone, and what
no thread changes is as it was. -/
theorem C70_text_alone {w : Bool} {v : Version} {σ : Store} {P : Nat → List LibCall} (hP : Separate P) {T : Threads}
    (h : Reached w v (.start σ P) T) (hT : T.Finished) :
    (∀ i, ∃ τ, Alone w v σ (P i) τ ∧ ∀ s ∈ P i, ∀ x ∈ s.uses, T.store x = τ x) ∧
      ∀ x, (∀ i, ∀ s ∈ P i, x ∉ s.changes) → T.store x = σ x := by
  have inv := Threads.inv_reached hP h
  refine ⟨fun i => ?_, inv.2⟩
  obtain ⟨ss, τ, h1, h2, h3⟩ := inv.1 i
  rw [hT i, List.append_nil] at h1
  exact ⟨τ, h1 ▸ h2, h3⟩

/-- All schedules have the same result. -/
theorem C70_text_schedule {w : Bool} {v : Version} {σ : Store} {P : Nat → List LibCall} (hP : Separate P) {T U : Threads}
    (hT : Reached w v (.start σ P) T) (hT' : T.Finished) (hU : Reached w v (.start σ P) U) (hU' : U.Finished) (x : Nat) :
    T.store x = U.store x := by
  have t := C70_text_alone hP hT hT'
  have u := C70_text_alone hP hU hU'
  by_cases h : ∀ i, ∀ s ∈ P i, x ∉ s.changes
  · rw [t.2 x h, u.2 x h]
  · have ⟨i, h⟩ := Classical.not_forall.1 h
    have ⟨s, h⟩ := Classical.not_forall.1 h
    have ⟨hs, h⟩ := Classical.not_forall.1 h
    have hx := Threads.changes_uses (Classical.not_not.1 h)
    obtain ⟨τ, t1, t2⟩ := t.1 i
    obtain ⟨υ, u1, u2⟩ := u.1 i
    rw [t2 s hs x hx, u2 s hs x hx, Threads.alone_unique t1 u1]

/-- No thread waits for another one: if each of them alone could do everything, then something can happen until all have
finished, and that is so for each thread which has not. -/
theorem C70_text_progress {w : Bool} {v : Version} {σ : Store} {P : Nat → List LibCall} (hP : Separate P)
    (ha : ∀ i, ∃ τ, Alone w v σ (P i) τ) {T : Threads} (h : Reached w v (.start σ P) T) {i : Nat}
    (hi : (T.thread i).todo ≠ []) : ∃ U, Happens w v T U ∧ U.thread i ≠ T.thread i := by
  obtain ⟨ss, τ, h1, h2, h3⟩ := (Threads.inv_reached hP h).1 i
  cases e : T.thread i with
  | mk todo inside =>
    cases todo with
    | nil => rw [e] at hi; exact absurd rfl hi
    | cons s ts =>
      rw [e] at h1
      cases inside with
      | false =>
        refine ⟨_, .begins i e, ?_⟩
        show (if i = i then _ else _ : Thread) ≠ _
        rw [if_pos rfl]
        exact fun h => Bool.noConfusion (Thread.mk.inj h).2
      | true =>
        obtain ⟨τ', h4⟩ := ha i
        obtain ⟨ρ, ρ', h5, h6⟩ := Threads.alone_prefix h4 h1
        have := Threads.alone_unique h5 h2
        subst this
        have hs : s ∈ P i := h1 ▸ List.mem_append.2 (.inr List.mem_cons_self)
        obtain ⟨σ', h7, _⟩ := Threads.does_agree (τ := T.store) h6 fun x hx => h3 s hs x hx
        refine ⟨_, .ends i e h7, ?_⟩
        show (if i = i then _ else _ : Thread) ≠ _
        rw [if_pos rfl]
        exact fun h => Bool.noConfusion (Thread.mk.inj h).2

/-- Every schedule ends: each time something happens, less is left to do. -/
theorem C70_text_ends {w : Bool} {v : Version} {σ : Store} {P : Nat → List LibCall} {n : Nat} (hn : ∀ i, n ≤ i → P i = [])
    {T U : Threads} (h : Reached w v (.start σ P) T) (hU : Happens w v T U) : U.left n + 1 = T.left n :=
  Threads.left_happens hU (Threads.todo_reached h hn)

/-- Whatever has happened, the threads can finish. -/
theorem C70_text_finish {w : Bool} {v : Version} {σ : Store} {P : Nat → List LibCall} (hP : Separate P)
    (ha : ∀ i, ∃ τ, Alone w v σ (P i) τ) {n : Nat} (hn : ∀ i, n ≤ i → P i = []) {T : Threads}
    (h : Reached w v (.start σ P) T) : ∃ U, Reached w v (.start σ P) U ∧ U.Finished := by
  generalize e : T.left n = k
  induction k generalizing T with
  | zero =>
    refine ⟨T, h, fun i => Classical.byContradiction fun hi => ?_⟩
    obtain ⟨U, hU, _⟩ := C70_text_progress hP ha h hi
    have := C70_text_ends hn h hU
    omega
  | succ k ih =>
    by_cases hT : T.Finished
    · exact ⟨T, h, hT⟩
    · have ⟨i, hi⟩ := Classical.not_forall.1 hT
      obtain ⟨U, hU, _⟩ := C70_text_progress hP ha h hi
      exact ih (h.next hU) (by have := C70_text_ends hn h hU; omega)

/-! ## Two threads that read the same string

The first converts it to UTF-16 and trims the result; the second converts it to UCS-4, narrows a predicate of its own and asks
whether the string satisfies it. -/

/-- Variable 0 is the string, 3 the predicate. -/
def sharedString : Store := fun x =>
  if x = 0 then .str8 [0x20, 0xC3, 0x84] else if x = 3 then .pred Pred.none else .encoding 1

/-- What the threads do. -/
def twoThreads : Nat → List LibCall
  | 0 => [.call 1 (name% "toUtf16") [0], .change 1 (name% "trim") []]
  | 1 => [.call 2 (name% "toUcs4") [0], .member 3 (name% "andIf") [4], .call 5 (name% "isUtf8") [0, 3]]
  | _ => []

theorem twoThreads_separate : Separate twoThreads := by
  have h01 : ∀ s ∈ twoThreads 0, ∀ t ∈ twoThreads 1, ∀ x ∈ s.changes, x ∉ t.uses := by decide
  have h10 : ∀ s ∈ twoThreads 1, ∀ t ∈ twoThreads 0, ∀ x ∈ s.changes, x ∉ t.uses := by decide
  intro i j hij s hs t ht
  match i, j with
  | 0, 0 => exact absurd rfl hij
  | 1, 1 => exact absurd rfl hij
  | 0, 1 => exact h01 s hs t ht
  | 1, 0 => exact h10 s hs t ht
  | _ + 2, _ => nomatch hs
  | _, _ + 2 => nomatch ht

theorem twoThreads_alone (w : Bool) (v : Version) (i : Nat) : ∃ τ, Alone w v sharedString (twoThreads i) τ := by
  have h1 : Returns v (name% "toUtf16") [.str8 [0x20, 0xC3, 0x84]] (.str16 [0x20, 0xC4]) := by
    simp only [text_iff]; decide +kernel
  have h2 : Returns v (name% "toUcs4") [.str8 [0x20, 0xC3, 0x84]] (.str32 [0x20, 0xC4]) := by
    simp only [text_iff]; decide +kernel
  have h3 : Returns v (name% "isUtf8") [.str8 [0x20, 0xC3, 0x84], .pred (Pred.none.andIf 1)] (.bool true) := by
    simp only [text_iff]; cases v <;> decide +kernel
  match i with
  | 0 => exact ⟨_, (Alone.nothing.then (.call (h1 w))).then (.change (C67_trim_16 v [0x20, 0xC4] (by decide)))⟩
  | 1 => exact ⟨_, ((Alone.nothing.then (.call (h2 w))).then (.member rfl (C67_andIf v Pred.none 1))).then (.call (h3 w))⟩
  | _ + 2 => exact ⟨_, .nothing⟩

/-- They can finish, and whatever the schedule is the first has the trimmed string, and the string is as it was. -/
example (w : Bool) (v : Version) : (∃ T, Reached w v (.start sharedString twoThreads) T ∧ T.Finished) ∧
    ∀ T, Reached w v (.start sharedString twoThreads) T → T.Finished →
      ¬ Race T ∧ T.store 1 = .str16 [0xC4] ∧ T.store 0 = .str8 [0x20, 0xC3, 0x84] := by
  have hn : ∀ i, 2 ≤ i → twoThreads i = [] := fun i hi =>
    match i, hi with
    | _ + 2, _ => rfl
  refine ⟨C70_text_finish twoThreads_separate (twoThreads_alone w v) hn .here, fun T hT hF => ?_⟩
  obtain ⟨h1, h2⟩ := C70_text_alone twoThreads_separate hT hF
  obtain ⟨τ, ha, hτ⟩ := h1 0
  refine ⟨C70_text_no_race twoThreads_separate hT, (hτ _ List.mem_cons_self 1 List.mem_cons_self).trans ?_, h2 0 ?_⟩
  · have h : Returns v (name% "toUtf16") [.str8 [0x20, 0xC3, 0x84]] (.str16 [0x20, 0xC4]) := by
      simp only [text_iff]; decide +kernel
    have ha' : Alone w v sharedString (twoThreads 0) _ :=
      (Alone.nothing.then (.call (h w))).then (.change (C67_trim_16 v [0x20, 0xC4] (by decide)))
    rw [Threads.alone_unique ha ha']
    exact congrArg Arg.str16 (by decide +kernel : trim ([0x20, 0xC4] : List U16) = [0xC4])
  · intro i s hs
    match i with
    | 0 => revert s; decide
    | 1 => revert s; decide
    | _ + 2 => nomatch hs

/-- A predicate that one thread narrows must not be used by another one at the same time: `andIf` changes it. -/
example (w : Bool) (v : Version) :
    ∃ T, Reached w v (.start sharedString fun i => if i = 0 then [.member 3 (name% "andIf") [4]] else
      if i = 1 then [.call 5 (name% "isUtf8") [0, 3]] else []) T ∧ Race T :=
  ⟨_, (Reached.here.next (.begins 0 rfl)).next (.begins 1 rfl), 0, 1, _, _, by decide, rfl, rfl, rfl, rfl,
    .inl ⟨3, List.mem_singleton.2 rfl, by decide⟩⟩

end Ansak.Props
