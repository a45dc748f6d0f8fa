import Verif.Spec.Results
import Verif.Lemmas.Cpp.Windows

/-! # What the functions of the library return -/

namespace Ansak.Cpp

open Spec (NoReferenceReturned ResultsHoldNoPointer marks calledOnTheRight)

/-- Is this what can follow one of the marks? -/
def notReturned : List Tok → Bool
  | .id n :: .sym p :: _ =>
    bif Nat.beq n (name% "operator") then false
    else bif Nat.beq p (name% "(") then calledOnTheRight.any fun m => Nat.beq m n
    else true
  | .id n :: _ => !Nat.beq n (name% "operator")
  | _ => true

/-- `NoReferenceReturned`, to be evaluated. -/
def noReferenceReturned : List Tok → Bool
  | [] => true
  | .sym m :: ts =>
    bif marks.any fun k => Nat.beq k m then (bif notReturned ts then noReferenceReturned ts else false)
    else noReferenceReturned ts
  | .id _ :: ts => noReferenceReturned ts
  | .num _ :: ts => noReferenceReturned ts
  | .chr _ :: ts => noReferenceReturned ts
  | .str _ _ :: ts => noReferenceReturned ts
  | .bad :: ts => noReferenceReturned ts

theorem beq_false_ne {m n : Nat} (h : Nat.beq m n = false) : m ≠ n := by
  rintro rfl
  rw [Nat.beq_refl] at h
  nomatch h

theorem any_beq {l : List Nat} {n : Nat} : (l.any fun m => Nat.beq m n) = true ↔ n ∈ l := by
  rw [List.any_eq_true]
  refine ⟨?_, fun h => ⟨n, h, Nat.beq_refl n⟩⟩
  rintro ⟨m, hm, h⟩
  exact Nat.eq_of_beq_eq_true h ▸ hm

theorem notReturned_sound {ts : List Tok} (h : notReturned ts = true) {n : Nat} (hn : ts[0]? = some (.id n)) :
    n ≠ name% "operator" ∧ (ts[1]? = some (.sym (name% "(")) → n ∈ calledOnTheRight) := by
  unfold notReturned at h
  split at h
  · rename_i m p l
    obtain rfl : m = n := Tok.id.inj (Option.some.inj hn)
    cases e : Nat.beq m (name% "operator") with
    | true => rw [e] at h; nomatch h
    | false =>
      rw [e, cond_false] at h
      refine ⟨beq_false_ne e, fun hp => ?_⟩
      have hp : p = name% "(" := Tok.sym.inj (Option.some.inj hp)
      rw [hp, Nat.beq_refl, cond_true] at h
      exact any_beq.1 h
  · rename_i m l hl
    cases Tok.id.inj (Option.some.inj hn)
    refine ⟨beq_false_ne (by simpa using h), fun hp => ?_⟩
    cases l with
    | nil => nomatch hp
    | cons t l => cases Option.some.inj hp; exact (hl _ _ rfl).elim
  · rename_i hx
    cases ts with
    | nil => nomatch hn
    | cons t l => cases Option.some.inj hn; exact (hx _ _ rfl).elim

theorem noReferenceReturned_step {t : Tok} {ts : List Tok} (h : noReferenceReturned (t :: ts) = true) :
    noReferenceReturned ts = true ∧ ∀ m ∈ marks, t = .sym m → notReturned ts = true := by
  cases t with
  | sym m =>
    rw [noReferenceReturned] at h
    cases e : marks.any fun k => Nat.beq k m with
    | true =>
      rw [e, cond_true] at h
      cases e' : notReturned ts with
      | true => rw [e', cond_true] at h; exact ⟨h, fun _ _ _ => rfl⟩
      | false => rw [e'] at h; nomatch h
    | false =>
      rw [e, cond_false] at h
      refine ⟨h, fun k hk he => ?_⟩
      cases Tok.sym.inj he
      rw [any_beq.2 hk] at e
      nomatch e
  | id => exact ⟨h, fun _ _ h => nomatch h⟩
  | num => exact ⟨h, fun _ _ h => nomatch h⟩
  | chr => exact ⟨h, fun _ _ h => nomatch h⟩
  | str => exact ⟨h, fun _ _ h => nomatch h⟩
  | bad => exact ⟨h, fun _ _ h => nomatch h⟩

theorem noReferenceReturned_sound : ∀ {ts : List Tok}, noReferenceReturned ts = true → NoReferenceReturned ts
  | [], _, _, hi, _, _, _, _, _ => absurd hi (Nat.not_lt_zero _)
  | _ :: _, h, 0, _, m, hm, hs, _, hn =>
    notReturned_sound ((noReferenceReturned_step h).2 m hm (Option.some.inj hs)) hn
  | _ :: _, h, i + 1, hi, m, hm, hs, n, hn =>
    noReferenceReturned_sound (noReferenceReturned_step h).1 i (Nat.lt_of_succ_lt_succ hi) m hm hs n hn

theorem returned_all {l : List Cxx.Text} (h : (l.all fun t => noReferenceReturned (lex t)) = true) :
    ∀ t ∈ l, NoReferenceReturned (lex t) :=
  fun t ht => noReferenceReturned_sound (List.all_eq_true.1 h t ht)

theorem returned_common : ∀ t ∈ Source.common, NoReferenceReturned (lex t) := returned_all (by decide +kernel)

theorem returned_pieces (w : Bool) : ∀ t ∈ Source.pieces w, NoReferenceReturned (lex t) := by
  intro t ht
  cases w
  · exact (List.mem_append.1 ht).elim (returned_common t) (returned_all (by decide +kernel) t)
  · exact (List.mem_append.1 ht).elim (returned_common t) (returned_all (by decide +kernel) t)

theorem returned_onWindows (u : Source.Tchar) : ∀ t ∈ Source.onWindows u, NoReferenceReturned (lex t) := by
  intro t ht
  refine (List.mem_append.1 ht).elim (returned_pieces false t) ?_
  cases u
  · exact returned_all (by decide +kernel) t
  · exact returned_all (by decide +kernel) t
  · exact returned_all (by decide +kernel) t

theorem results_pieces (w : Bool) : ResultsHoldNoPointer (Ast.allItems w) := by cases w <;> decide +kernel

theorem results_onWindows (t : Source.Tchar) : ResultsHoldNoPointer (Ast.allItems false ++ Ast.windowsItems t) := by
  cases t <;> decide +kernel

end Ansak.Cpp
