import Verif.Spec.Writes
import Verif.Lemmas.Cpp.Windows

/-! # What the text of the library changes -/

namespace Ansak.Cpp

open Spec (ChangesOwnOnly StaticIsConstant)

/-- Is this what can follow `static`? -/
def constantOrFunction : List Tok → Bool
  | .id m :: _ :: .sym p :: _ :: _ :: .sym q :: .sym r :: _ =>
    bif Nat.beq m (name% "const") then false
    else (Nat.beq p (name% "(") && Nat.beq q (name% ")") && Nat.beq r (name% "{"))
  | .id m :: _ :: _ :: .sym p :: _ => Nat.beq m (name% "const") && Nat.beq p (name% "[")
  | _ => false

/-- `StaticIsConstant`, to be evaluated. -/
def staticIsConstant : List Tok → Bool
  | [] => true
  | .id n :: ts =>
    bif Nat.beq n (name% "static") then (bif constantOrFunction ts then staticIsConstant ts else false)
    else staticIsConstant ts
  | .num _ :: ts => staticIsConstant ts
  | .chr _ :: ts => staticIsConstant ts
  | .str _ _ :: ts => staticIsConstant ts
  | .sym _ :: ts => staticIsConstant ts
  | .bad :: ts => staticIsConstant ts

theorem constantOrFunction_sound {ts : List Tok} (h : constantOrFunction ts = true) :
    (ts[0]? = some (.id (name% "const")) ∧ ts[3]? = some (.sym (name% "["))) ∨
    (ts[2]? = some (.sym (name% "(")) ∧ ts[5]? = some (.sym (name% ")")) ∧ ts[6]? = some (.sym (name% "{"))) := by
  unfold constantOrFunction at h
  split at h
  · rename_i m _ p _ _ q r _
    cases e : Nat.beq m (name% "const") with
    | true =>
      rw [e] at h
      nomatch h
    | false =>
      rw [e, cond_false, Bool.and_eq_true, Bool.and_eq_true] at h
      exact .inr ⟨congrArg (fun m => some (Tok.sym m)) (Nat.eq_of_beq_eq_true h.1.1),
        congrArg (fun m => some (Tok.sym m)) (Nat.eq_of_beq_eq_true h.1.2),
        congrArg (fun m => some (Tok.sym m)) (Nat.eq_of_beq_eq_true h.2)⟩
  · rw [Bool.and_eq_true] at h
    exact .inl ⟨congrArg (fun m => some (Tok.id m)) (Nat.eq_of_beq_eq_true h.1),
      congrArg (fun m => some (Tok.sym m)) (Nat.eq_of_beq_eq_true h.2)⟩
  · nomatch h

theorem staticIsConstant_step {t : Tok} {ts : List Tok} (h : staticIsConstant (t :: ts) = true) :
    staticIsConstant ts = true ∧ (t = .id (name% "static") → constantOrFunction ts = true) := by
  cases t with
  | id n =>
    rw [staticIsConstant] at h
    cases e : Nat.beq n (name% "static") with
    | true =>
      rw [e, cond_true] at h
      cases e' : constantOrFunction ts with
      | true =>
        rw [e', cond_true] at h
        exact ⟨h, fun _ => rfl⟩
      | false => rw [e'] at h; nomatch h
    | false =>
      rw [e, cond_false] at h
      refine ⟨h, fun h => ?_⟩
      injection h with h
      rw [h, Nat.beq_refl] at e
      nomatch e
  | num => exact ⟨h, fun h => nomatch h⟩
  | chr => exact ⟨h, fun h => nomatch h⟩
  | str => exact ⟨h, fun h => nomatch h⟩
  | sym => exact ⟨h, fun h => nomatch h⟩
  | bad => exact ⟨h, fun h => nomatch h⟩

theorem staticIsConstant_sound : ∀ {ts : List Tok}, staticIsConstant ts = true → StaticIsConstant ts
  | [], _, _, hi, _ => absurd hi (Nat.not_lt_zero _)
  | _ :: _, h, 0, _, hs => constantOrFunction_sound ((staticIsConstant_step h).2 (Option.some.inj hs))
  | _ :: _, h, i + 1, hi, hs => staticIsConstant_sound (staticIsConstant_step h).1 i (Nat.lt_of_succ_lt_succ hi) hs

theorem static_all {l : List Cxx.Text} (h : (l.all fun t => staticIsConstant (lex t)) = true) :
    ∀ t ∈ l, StaticIsConstant (lex t) :=
  fun t ht => staticIsConstant_sound (List.all_eq_true.1 h t ht)

theorem static_common : ∀ t ∈ Source.common, StaticIsConstant (lex t) := static_all (by decide +kernel)

theorem static_pieces (w : Bool) : ∀ t ∈ Source.pieces w, StaticIsConstant (lex t) := by
  intro t ht
  cases w
  · exact (List.mem_append.1 ht).elim (static_common t) (static_all (by decide +kernel) t)
  · exact (List.mem_append.1 ht).elim (static_common t) (static_all (by decide +kernel) t)

theorem static_onWindows (u : Source.Tchar) : ∀ t ∈ Source.onWindows u, StaticIsConstant (lex t) := by
  intro t ht
  refine (List.mem_append.1 ht).elim (static_pieces false t) ?_
  cases u
  · exact static_all (by decide +kernel) t
  · exact static_all (by decide +kernel) t
  · exact static_all (by decide +kernel) t

theorem own_pieces (w : Bool) : ChangesOwnOnly (Ast.allItems w) := by cases w <;> decide +kernel

theorem own_onWindows (t : Source.Tchar) : ChangesOwnOnly (Ast.allItems false ++ Ast.windowsItems t) := by
  cases t <;> decide +kernel

end Ansak.Cpp
