import Verif.Lemmas.Cpp.Decode
import Verif.Lemmas.Cpp.Predicate

/-! # Loops -/

namespace Ansak.Cpp

section
variable {E : Sealed} {C : Env → (Bool → Env → Out) → Out} {S B : Env → (End → Out) → Out} {k : End → Out}

/-- One round. -/
theorem rounds_succ (E : Sealed) (C : Env → (Bool → Env → Out) → Out) (S B : Env → (End → Out) → Out) (n : Nat)
    (ρ : Env) (k : End → Out) : E.rounds C S B (n + 1) ρ k = C ρ fun b ρ =>
    E.branch b
      (B ρ fun e =>
        match e with
        | .next ρ => S ρ fun e =>
          match e with
          | .next ρ => E.rounds C S B n ρ k
          | _ => .stuck
        | .brk ρ => k (.next ρ)
        | .ret v ρ => k (.ret v ρ))
      (k (.next ρ)) := by
  rw [E.rounds_eq, E.branch_eq]; rfl

/-- Induction over the rounds of a loop in which one variable changes. -/
theorem rounds_ind1 {α : Type} (ρ : α → Env) (rhs : α → Out) (μ : α → Nat) (I : α → Prop)
    (step : ∀ n a, I a → (∀ b, I b → μ b < μ a → E.rounds C S B n (ρ b) k = rhs b) →
      E.rounds C S B (n + 1) (ρ a) k = rhs a) : ∀ n a, I a → μ a < n → E.rounds C S B n (ρ a) k = rhs a
  | 0, _, _, h => absurd h (Nat.not_lt_zero _)
  | n + 1, a, ha, h => step n a ha fun b hb hlt => rounds_ind1 ρ rhs μ I step n b hb (by omega)

/-- Two variables. -/
theorem rounds_ind2 {α β : Type} (ρ : α → β → Env) (rhs : α → β → Out) (μ : α → β → Nat) (I : α → β → Prop)
    (step : ∀ n a a', I a a' → (∀ b b', I b b' → μ b b' < μ a a' → E.rounds C S B n (ρ b b') k = rhs b b') →
      E.rounds C S B (n + 1) (ρ a a') k = rhs a a') (n : Nat) (a : α) (a' : β) (h1 : I a a') (h2 : μ a a' < n) :
    E.rounds C S B n (ρ a a') k = rhs a a' :=
  rounds_ind1 (α := α × β) (fun x => ρ x.1 x.2) (fun x => rhs x.1 x.2) (fun x => μ x.1 x.2) (fun x => I x.1 x.2)
    (fun n a h ih => step n a.1 a.2 h fun b b' => ih (b, b')) n (a, a') h1 h2

/-- Three variables. -/
theorem rounds_ind3 {α β γ : Type} (ρ : α → β → γ → Env) (rhs : α → β → γ → Out) (μ : α → β → γ → Nat)
    (I : α → β → γ → Prop) (step : ∀ n a a' a'', I a a' a'' →
      (∀ b b' b'', I b b' b'' → μ b b' b'' < μ a a' a'' → E.rounds C S B n (ρ b b' b'') k = rhs b b' b'') →
      E.rounds C S B (n + 1) (ρ a a' a'') k = rhs a a' a'') (n : Nat) (a : α) (a' : β) (a'' : γ) (h1 : I a a' a'')
    (h2 : μ a a' a'' < n) : E.rounds C S B n (ρ a a' a'') k = rhs a a' a'' :=
  rounds_ind1 (α := α × β × γ) (fun x => ρ x.1 x.2.1 x.2.2) (fun x => rhs x.1 x.2.1 x.2.2)
    (fun x => μ x.1 x.2.1 x.2.2) (fun x => I x.1 x.2.1 x.2.2)
    (fun n a h ih => step n a.1 a.2.1 a.2.2 h fun b b' b'' => ih (b, b', b'')) n (a, a', a'') h1 h2

/-- Four variables. -/
theorem rounds_ind4 {α β γ δ : Type} (ρ : α → β → γ → δ → Env) (rhs : α → β → γ → δ → Out)
    (μ : α → β → γ → δ → Nat) (I : α → β → γ → δ → Prop) (step : ∀ n a a' a'' a3, I a a' a'' a3 →
      (∀ b b' b'' b3, I b b' b'' b3 → μ b b' b'' b3 < μ a a' a'' a3 →
        E.rounds C S B n (ρ b b' b'' b3) k = rhs b b' b'' b3) →
      E.rounds C S B (n + 1) (ρ a a' a'' a3) k = rhs a a' a'' a3) (n : Nat) (a : α) (a' : β) (a'' : γ) (a3 : δ)
    (h1 : I a a' a'' a3) (h2 : μ a a' a'' a3 < n) : E.rounds C S B n (ρ a a' a'' a3) k = rhs a a' a'' a3 :=
  rounds_ind1 (α := α × β × γ × δ) (fun x => ρ x.1 x.2.1 x.2.2.1 x.2.2.2) (fun x => rhs x.1 x.2.1 x.2.2.1 x.2.2.2)
    (fun x => μ x.1 x.2.1 x.2.2.1 x.2.2.2) (fun x => I x.1 x.2.1 x.2.2.1 x.2.2.2)
    (fun n a h ih => step n a.1 a.2.1 a.2.2.1 a.2.2.2 h fun b b' b'' b3 => ih (b, b', b'', b3)) n
    (a, a', a'', a3) h1 h2

/-- Five variables. -/
theorem rounds_ind5 {α β γ δ ε : Type} (ρ : α → β → γ → δ → ε → Env) (rhs : α → β → γ → δ → ε → Out)
    (μ : α → β → γ → δ → ε → Nat) (I : α → β → γ → δ → ε → Prop) (step : ∀ n a a' a'' a3 a4, I a a' a'' a3 a4 →
      (∀ b b' b'' b3 b4, I b b' b'' b3 b4 → μ b b' b'' b3 b4 < μ a a' a'' a3 a4 →
        E.rounds C S B n (ρ b b' b'' b3 b4) k = rhs b b' b'' b3 b4) →
      E.rounds C S B (n + 1) (ρ a a' a'' a3 a4) k = rhs a a' a'' a3 a4) (n : Nat) (a : α) (a' : β) (a'' : γ) (a3 : δ)
    (a4 : ε) (h1 : I a a' a'' a3 a4) (h2 : μ a a' a'' a3 a4 < n) :
    E.rounds C S B n (ρ a a' a'' a3 a4) k = rhs a a' a'' a3 a4 :=
  rounds_ind4 (δ := δ × ε) (fun a b c x => ρ a b c x.1 x.2) (fun a b c x => rhs a b c x.1 x.2)
    (fun a b c x => μ a b c x.1 x.2) (fun a b c x => I a b c x.1 x.2)
    (fun n a b c x h ih => step n a b c x.1 x.2 h fun b b' b'' b3 b4 => ih b b' b'' (b3, b4)) n
    a a' a'' (a3, a4) h1 h2

end

end Ansak.Cpp

namespace Ansak.Follow

open Lean Meta Elab Tactic

/-- The elements of a list. -/
partial def elements (e : Expr) : MetaM (List Expr) := do
  match (← whnfR e).getAppFnArgs with
  | (``List.cons, #[_, a, l]) => return a :: (← elements l)
  | _ => return []

/-- Induction over the rounds of the loop on the left side of the goal:
`induct [values before the loop] (fun i => values of the variables that change) (fun i => right side)
(fun i => measure) (fun i => invariant)`. -/
elab "induct " "[" as:term,+ "]" ρ:term:max rhs:term:max μ:term:max inv:term:max : tactic => do
  let g ← getMainGoal
  g.withContext do
    let some (_, lhs, _) := (← instantiateMVars (← g.getType)).consumeMData.eq? | throwError "not an equation"
    unless lhs.isAppOfArity ``Cpp.Sealed.rounds 7 do throwError "not a loop"
    let env ← elements (lhs.getArg! 5)
    let elemTy ← inferType env.head!
    let f ← elabTerm ρ none
    Term.synthesizeSyntheticMVarsNoPostponing
    let f ← instantiateMVars f
    let f ← lambdaTelescope f fun xs b => do
      let new ← elements b
      let keyed ← new.mapM fun e => do
        let (``Prod.mk, #[_, _, k, v]) := (← whnfR e).getAppFnArgs | throwError "not a pair"
        return (k, v)
      let env' ← env.mapM fun e => do
        let (``Prod.mk, #[t, t', k, v]) := (← whnfR e).getAppFnArgs | throwError "not a pair"
        unless k.isRawNatLit do throwError "the names in the environment are not literals"
        let v' := (keyed.find? fun p => p.1 == k).map (·.2) |>.getD v
        mkAppOptM ``Prod.mk #[some t, some t', some k, some v']
      mkLambdaFVars xs (← mkListLit elemTy env')
    let fs ← Term.exprToSyntax f
    let r ← Term.exprToSyntax (← headNormal (lhs.getArg! 4))
    let n := as.getElems.size
    let name := mkIdent (match n with
      | 1 => ``Cpp.rounds_ind1
      | 2 => ``Cpp.rounds_ind2
      | 3 => ``Cpp.rounds_ind3
      | 4 => ``Cpp.rounds_ind4
      | _ => ``Cpp.rounds_ind5)
    let as := as.getElems
    evalTactic (← `(tactic| refine ($name $fs $rhs $μ $inv ?_ $r $as* ?_ ?_).trans ?_))

end Ansak.Follow

namespace Ansak.Cpp

/-- The type of `RangeType` values. -/
abbrev rangeType (t : Int) : Val := .int (.enum (name% "RangeType")) t

/-! ## Flags -/

theorem charFlags_le (c : Nat) : getCharEncodableRangeFlags c ≤ 65535 := by
  have : ∀ m, m ≤ 32 → k21BitFlags ||| m ≤ 65535 := by decide
  unfold getCharEncodableRangeFlags
  have := this _ (unicodeFlag_le c)
  repeat' split
  all_goals first | exact this | decide

theorem rangeFlag8_le (c : Nat) : getRangeFlag8 c ≤ 65535 := by
  unfold getRangeFlag8
  repeat' split
  all_goals decide

theorem rangeFlag16_le (c : Nat) : getRangeFlag16 c ≤ 65535 := by
  unfold getRangeFlag16
  repeat' split
  all_goals decide

theorem rangeTypeFlag_le (t : Int) : rangeTypeToRangeFlag t ≤ 32 := by
  unfold rangeTypeToRangeFlag
  repeat' split
  all_goals decide

section
variable {sc : Bool} {x y c : Nat} {t : Int} {k : Val → Out}

theorem and_flags {a : Nat} (h : a ≤ 65535) : binaryInt sc .bitAnd (.enum x) (a : Int) (.enum y)
    (rangeTypeToRangeFlag t : Nat) k = k (.int .int (a &&& rangeTypeToRangeFlag t : Nat)) :=
  bitAnd_nat k (u := .int) rfl rfl (show a < 2147483648 by omega)
    (show _ < 2147483648 by have := rangeTypeFlag_le t; omega)

@[cpp_rule] theorem and_charFlags : binaryInt sc .bitAnd (.enum x) (getCharEncodableRangeFlags c : Nat) (.enum y)
    (rangeTypeToRangeFlag t : Nat) k = k (.int .int (getCharEncodableRangeFlags c &&& rangeTypeToRangeFlag t : Nat)) :=
  and_flags (charFlags_le c)
@[cpp_rule] theorem and_rangeFlag8 : binaryInt sc .bitAnd (.enum x) (getRangeFlag8 c : Nat) (.enum y)
    (rangeTypeToRangeFlag t : Nat) k = k (.int .int (getRangeFlag8 c &&& rangeTypeToRangeFlag t : Nat)) :=
  and_flags (rangeFlag8_le c)
@[cpp_rule] theorem and_rangeFlag16 : binaryInt sc .bitAnd (.enum x) (getRangeFlag16 c : Nat) (.enum y)
    (rangeTypeToRangeFlag t : Nat) k = k (.int .int (getRangeFlag16 c &&& rangeTypeToRangeFlag t : Nat)) :=
  and_flags (rangeFlag16_le c)

end

seal_rules

/-! ## Numbers and units -/

theorem zero8 (c : Byte) : (c = 0) = (c.toNat = 0) := by
  apply propext; constructor <;> intro h
  · rw [h]; rfl
  · exact BitVec.eq_of_toNat_eq (by rw [h]; rfl)
theorem zero16 (c : U16) : (c = 0) = (c.toNat = 0) := by
  apply propext; constructor <;> intro h
  · rw [h]; rfl
  · exact BitVec.eq_of_toNat_eq (by rw [h]; rfl)
theorem zero32 (c : U32) : (c = 0) = (c.toNat = 0) := by
  apply propext; constructor <;> intro h
  · rw [h]; rfl
  · exact BitVec.eq_of_toNat_eq (by rw [h]; rfl)

/-! ## The first unit of a buffer -/

theorem readAt_some {α : Type} {l : List α} {i : Nat} {c : α} (h : l[i]? = some c) : readAt l i = .ok c := by
  unfold readAt; rw [h]
theorem readAt_none {α : Type} {l : List α} {i : Nat} (h : l.length ≤ i) : readAt l i = .ub := by
  unfold readAt; rw [List.getElem?_eq_none h]

/-- Rewrite only the right side, the model by hand. (Rewriting with `simp` would change the names in the left side.) -/
macro "by_hand" " [" ls:Lean.Parser.Tactic.simpLemma,* "]" : tactic => `(tactic| conv => rhs; simp only [$ls,*])

/-- Rewrite with what is known about the unit that a hypothesis is about. -/
macro "reads" : tactic =>
  `(tactic| first | rw [readAt_some (by assumption)] | rw [readAt_none (by assumption)])

/-- The conditions on a `RangeType` in the model by hand. -/
theorem lt_kAscii (t : Int) : (t < kAscii) = (t < (0 : Int)) := rfl
theorem gt_kUnicode (t : Int) : (t > kUnicode) = (t > (5 : Int)) := rfl

/-- The cases in which a `RangeType` is not one of its enumerators. -/
theorem rangeType_cases (t : Int) : (t < 0 ∨ t > 5) ∨ ∃ n : Nat, t = n ∧ n < 6 := by
  by_cases h : t < 0 ∨ t > 5
  · exact .inl h
  · exact .inr ⟨t.toNat, by omega, by omega⟩

/-! ## The result of `decodeUtf8` -/

/-- If a new pointer is left behind, it points into the buffer, not before `i`. -/
def Within (buf : List Byte) (i : Nat) (r : Res Decoded) : Prop :=
  ∀ c q, r = .ok (c, some q) → ∃ j, i ≤ j ∧ j < buf.length ∧ q = buf.drop j

section
variable {buf : List Byte} {i : Nat}

theorem Within.fail : Within buf i decodeFail := by
  intro c q h; simp [decodeFail] at h

theorem Within.ok {v : U32} {j : Nat} (h1 : i ≤ j) (h2 : j < buf.length) :
    Within buf i (.ok (v, some (buf.drop j))) := by
  intro c q h
  simp only [Res.ok.injEq, Prod.mk.injEq, Option.some.injEq] at h
  exact ⟨j, h1, h2, h.2.symm⟩

theorem Within.ite {P : Prop} [Decidable P] {a b : Res Decoded} (ha : Within buf i a) (hb : Within buf i b) :
    Within buf i (if P then a else b) := by
  by_cases h : P
  · rw [if_pos h]; exact ha
  · rw [if_neg h]; exact hb

theorem Within.next {lo hi j : Nat} {k : Byte → List Byte → Res Decoded} (hj : i ≤ j)
    (hk : ∀ uc, j + 1 < buf.length → Within buf i (k uc (buf.drop (j + 1)))) :
    Within buf i (nextByte lo hi (buf.drop j) k) := by
  unfold nextByte
  rw [tail_drop]
  by_cases h : j + 1 < buf.length
  · have e := drop_some (List.getElem?_eq_getElem h)
    rw [e]
    show Within buf i (if _ then .ok (0, some (buf[j + 1] :: buf.drop (j + 1 + 1))) else
      if _ then _ else k _ (buf[j + 1] :: buf.drop (j + 1 + 1)))
    rw [← e]
    exact .ite (.ok (by omega) h) (.ite .fail (hk _ h))
  · rw [drop_none (by omega)]
    intro c q h; simp at h

theorem decodeUtf8_within (buf : List Byte) (i : Nat) : Within buf i (decodeUtf8 (buf.drop i)) := by
  by_cases hi : i < buf.length
  · have e := drop_some (List.getElem?_eq_getElem hi)
    unfold decodeUtf8
    rw [e]
    dsimp only
    rw [← e]
    have h0 := Nat.le_refl i
    refine .ite (.ok h0 hi) (.ite .fail (.ite ?_ (.ite ?_ (.ite ?_ (.ite ?_ (.ite ?_ .fail))))))
    · exact .next h0 fun _ h1 => .ite .fail (.ok (by omega) h1)
    · exact .next h0 fun _ h1 => .next (by omega) fun _ h2 =>
        .ite (.next (by omega) fun _ h3 => .next (by omega) fun _ h4 => .next (by omega) fun _ h5 =>
          .ite (.ok (by omega) h5) .fail) (.ite .fail (.ok (by omega) h2))
    · exact .next h0 fun _ h1 => .next (by omega) fun _ h2 => .next (by omega) fun _ h3 =>
        .ite .fail (.ok (by omega) h3)
    · exact .next h0 fun _ h1 => .next (by omega) fun _ h2 => .next (by omega) fun _ h3 =>
        .next (by omega) fun _ h4 => .ite .fail (.ok (by omega) h4)
    · exact .next h0 fun _ h1 => .next (by omega) fun _ h2 => .next (by omega) fun _ h3 =>
        .next (by omega) fun _ h4 => .next (by omega) fun _ h5 => .ite .fail (.ok (by omega) h5)
  · rw [drop_none (by omega)]
    intro c q h; simp [decodeUtf8] at h

end

section
variable {E : Sealed} {X : Externals} {sc : Bool} {r d : Nat} {K : Val → List (Option Val) → Out} {w : Bool} {s : List Int}

/-- The cases of a call of `decodeUtf8`. -/
@[cpp_split] theorem decodeUtf8_split {buf : List Byte} {i : Nat} {R : Out}
    (h1 : Ansak.decodeUtf8 (buf.drop i) = .ub → Out.ub = R)
    (h2 : ∀ c, Ansak.decodeUtf8 (buf.drop i) = .ok (c, none) → K (.int .c32 c.toNat) [some (.ptr .char none)] = R)
    (h3 : ∀ (c : U32) (j : Nat), Ansak.decodeUtf8 (buf.drop i) = .ok (c, some (buf.drop j)) → i ≤ j → j < buf.length →
      K (.int .c32 c.toNat) [some (.ptr .char (some (units8 sc buf, (j : Int))))] = R) :
    call% (d + 2) "decodeUtf8" [.ptr .char (some (units8 sc buf, (i : Int)))] K = R := by
  rw [decodeUtf8_call]
  cases h : Ansak.decodeUtf8 (buf.drop i) with
  | ub => exact h1 h
  | ok a =>
    obtain ⟨c, q⟩ := a
    cases q with
    | none => exact h2 c h
    | some q =>
      obtain ⟨j, hij, hj, rfl⟩ := decodeUtf8_within buf i c q h
      have := h3 c j h hij hj
      rw [← ptrTo_drop (List.getElem?_eq_getElem hj)] at this
      exact this

end

end Ansak.Cpp
