import Verif.Model.SplitJoin
import Verif.Lemmas.Cpp.Trim

/-! # `join`, executed from its syntax tree -/

namespace Ansak.Cpp

variable {E : Sealed} {X : Externals} {sc : Bool} {r d : Nat} {K : Val → List (Option Val) → Out} {w : Bool} {s : List Int}

theorem eachVal_cons (E : Sealed) (x : Nat) (B : Env → (End → Out) → Out) (v : Val) (vs : List Val) (ρ : Env)
    (k : End → Out) : E.eachVal x B (v :: vs) ρ k = B ((x, v) :: ρ) fun e =>
    e.leave ρ fun e =>
      match e with
      | .next ρ => E.eachVal x B vs ρ k
      | .brk ρ => k (.next ρ)
      | .ret v ρ => k (.ret v ρ) := by
  rw [E.eachVal_eq]; rfl

theorem eachVal_nil (E : Sealed) (x : Nat) (B : Env → (End → Out) → Out) (ρ : Env)
    (k : End → Out) : E.eachVal x B [] ρ k = k (.next ρ) := by
  rw [E.eachVal_eq]; rfl

/-- A loop over the strings of a vector. -/
theorem eachVal_ind {α : Type} {x : Nat} {t : Ty} {B : Env → (End → Out) → Out} {k : End → Out} (ρ : α → Env)
    (rhs : List (List Int) → α → Out) (hnil : ∀ a, k (.next (ρ a)) = rhs [] a)
    (step : ∀ (s : List Int) l a, (∀ b, E.eachVal x B (l.map (.str t)) (ρ b) k = rhs l b) →
      E.eachVal x B (.str t s :: l.map (.str t)) (ρ a) k = rhs (s :: l) a) :
    ∀ l a, E.eachVal x B (l.map (.str t)) (ρ a) k = rhs l a
  | [], a => (eachVal_nil E _ _ _ _).trans (hnil a)
  | s :: l, a => step s l a fun b => eachVal_ind ρ rhs hnil step l b

/-- What `join` appends. -/
def joined (D : List Int) : List (List Int) → Bool → List Int → List Int
  | [], _, r => r
  | s :: l, first, r => bif first then joined D l false (r ++ s) else joined D l false ((r ++ D) ++ s)

attribute [cpp_keep] joined

theorem delim_read (E : Sealed) (c : Int) (k : List Int → Out) :
    E.readString [c, 0] ((nat_lit 0 : Nat) : Int) k = k (if c = 0 then [] else [c]) := by
  rw [E.readString_eq]
  unfold readString
  rw [if_pos (by decide)]
  show (match untilZero [c, 0] with | some s => k s | none => .ub) = _
  unfold untilZero
  by_cases h : c = 0
  · rw [if_pos h, if_pos h]
  · rw [if_neg h, if_neg h]
    rfl

set_option hygiene false in
/-- The proof that a `join` is right: the type of characters. -/
macro "joins " t:term:max : tactic => `(tactic| (
  run
  · obtain rfl := List.isEmpty_iff.1 ‹L.isEmpty = true›
    rfl
  · refine eachVal_ind (fun a : Bool × List Int => (name% "first", .int .bool (bit a.1)) :: (name% "r", .str $t a.2) ::
      (name% "delimStr", .arr $t [c, 0]) :: _)
      (fun l a => K (.str $t (joined (if c = 0 then [] else [c]) l a.1 a.2)) [none, none]) ?_ ?_ L (true, [])
    · intro a
      run
      rfl
    · intro S l a IH
      run1 [eachVal_cons E]
      obtain ⟨f, a⟩ := a
      cases f with
      | true => run; exact IH (false, a ++ S)
      | false => run [delim_read E]; exact IH (false, (a ++ _) ++ S)
  · exact absurd ⟨Int.le_refl _, Int.ofNat_lt.2 (Nat.zero_lt_succ _)⟩ h))

theorem join_char (L : List (List Int)) (c : Int) :
    call% (d + 1) "join" [.vec .char L, .int .char c] K =
      K (.str .char (joined (if c = 0 then [] else [c]) L true [])) [none, none] := by
  enter Ast.join with .char
  joins .char

theorem join_c16 (L : List (List Int)) (c : Int) :
    call% (d + 1) "join" [.vec .c16 L, .int .c16 c] K =
      K (.str .c16 (joined (if c = 0 then [] else [c]) L true [])) [none, none] := by
  enter Ast.join with .c16
  joins .c16

theorem join_c32 (L : List (List Int)) (c : Int) :
    call% (d + 1) "join" [.vec .c32 L, .int .c32 c] K =
      K (.str .c32 (joined (if c = 0 then [] else [c]) L true [])) [none, none] := by
  enter Ast.join with .c32
  joins .c32

/-- Both are the same for characters that are mapped to numbers. -/
theorem joinLoop_map {n : Nat} {f : BitVec n → Int} (h0 : ∀ c, f c = 0 ↔ c = 0) (c : BitVec n) (L : List (List (BitVec n)))
    (first : Bool) (a : List (BitVec n)) : ∃ l, joinLoop [c, 0] L first a = .ok l ∧
      joined (if f c = 0 then [] else [f c]) (L.map (List.map f)) first (a.map f) = l.map f := by
  have hd : ∃ D, stringOfPtr (some [c, 0]) = .ok D ∧ (if f c = 0 then [] else [f c]) = D.map f := by
    by_cases h : c = 0
    · exact ⟨[], by subst h; rfl, by rw [if_pos ((h0 c).2 h)]; rfl⟩
    · exact ⟨[c], by simp only [stringOfPtr, stringOfPtr.go, if_neg h, if_true]; rfl, by rw [if_neg (fun e => h ((h0 c).1 e))]; rfl⟩
  obtain ⟨D, hD, hD'⟩ := hd
  rw [hD']
  induction L generalizing first a with
  | nil => exact ⟨a, rfl, rfl⟩
  | cons S L ih =>
    cases first with
    | true =>
      obtain ⟨l, h1, h2⟩ := ih false (a ++ S)
      refine ⟨l, h1, ?_⟩
      rw [List.map_append] at h2
      exact h2
    | false =>
      obtain ⟨l, h1, h2⟩ := ih false (a ++ D ++ S)
      refine ⟨l, ?_, ?_⟩
      · rw [joinLoop, hD]; exact h1
      · rw [List.map_append, List.map_append] at h2
        exact h2

theorem join_map {n : Nat} {f : BitVec n → Int} (h0 : ∀ c, f c = 0 ↔ c = 0) (c : BitVec n) (L : List (List (BitVec n)))
    {t : Ty} : (Ansak.join L c).out (fun x => K (.str t (x.map f)) [none, none]) = 
      K (.str t (joined (if f c = 0 then [] else [f c]) (L.map (List.map f)) true [])) [none, none] := by
  unfold Ansak.join
  by_cases h : L = []
  · subst h; rfl
  · rw [if_neg h]
    obtain ⟨l, h1, h2⟩ := joinLoop_map h0 c L true []
    rw [h1]
    show K (.str t (l.map f)) _ = _
    rw [← h2]
    rfl

theorem join8 (L : List (List Byte)) (c : Byte) :
    call% (d + 1) "join" [.vec .char (L.map (units8 sc)), .int .char (charVal sc c)] K =
      (Ansak.join L c).out fun x => K (.str .char (units8 sc x)) [none, none] :=
  (join_char _ _).trans (join_map (f := charVal sc) (fun c => by
    have h : charVal sc 0 = 0 := by cases sc <;> rfl
    exact ⟨fun e => charVal_inj sc _ _ (e.trans h.symm), fun e => e ▸ h⟩) c L).symm

theorem toNat_zero {n : Nat} (c : BitVec n) : (c.toNat : Int) = 0 ↔ c = 0 := by
  have h : ((0 : BitVec n).toNat : Int) = 0 := by
    rw [show (0 : BitVec n) = BitVec.ofNat n 0 from rfl, BitVec.toNat_ofNat, Nat.zero_mod]; rfl
  exact ⟨fun e => toNat_inj n _ _ (e.trans h.symm), fun e => e ▸ h⟩

theorem join16 (L : List (List U16)) (c : U16) :
    call% (d + 1) "join" [.vec .c16 (L.map units16), .int .c16 (c.toNat : Int)] K =
      (Ansak.join L c).out fun x => K (.str .c16 (units16 x)) [none, none] :=
  (join_c16 _ _).trans (join_map toNat_zero c L).symm

theorem join32 (L : List (List U32)) (c : U32) :
    call% (d + 1) "join" [.vec .c32 (L.map units32), .int .c32 (c.toNat : Int)] K =
      (Ansak.join L c).out fun x => K (.str .c32 (units32 x)) [none, none] :=
  (join_c32 _ _).trans (join_map toNat_zero c L).symm

end Ansak.Cpp
