import Verif.Model.Cpp.Ast
import Verif.Lemmas.Cpp.Seal

/-!
# Following an execution in a proof

`run` works on a goal `lhs = rhs` whose left side is an execution of a program. It evaluates the left side until it
comes to one of the functions in `stops`, and then rewrites with one of the theorems marked `cpp_rule` or given to
it. At a condition that is not decided by the hypotheses it splits the goal.
-/

namespace Ansak.Cpp

theorem drop_some {α : Type} {l : List α} {i : Nat} {c : α} (h : l[i]? = some c) : l.drop i = c :: l.drop (i + 1) := by
  obtain ⟨hi, rfl⟩ := List.getElem?_eq_some_iff.1 h
  exact List.drop_eq_getElem_cons hi

theorem drop_none {α : Type} {l : List α} {i : Nat} (h : l.length ≤ i) : l.drop i = [] := List.drop_eq_nil_of_le h

end Ansak.Cpp

namespace Ansak.Follow

open Lean Meta Elab Tactic

/-- Functions that `run` rewrites only with rules. -/
def stops : List Name :=
  [``Cpp.Sealed.convertTo, ``Cpp.Sealed.binaryInt, ``Cpp.Sealed.arith, ``Cpp.Sealed.complement, ``Cpp.Sealed.moved,
   ``Cpp.Sealed.movedBack, ``Cpp.Sealed.truth, ``Cpp.Sealed.read, ``Cpp.Sealed.call, ``Cpp.Sealed.rounds,
   ``Cpp.Sealed.each, ``Cpp.Sealed.eachVal, ``Cpp.Sealed.branch, ``Cpp.Sealed.readString]

/-- Functions that `run` unfolds, and the equations for it. -/
def unfolded : List (Name × Name) :=
  [(``Cpp.Sealed.exec, ``Cpp.Sealed.exec_def), (``Cpp.Sealed.eval, ``Cpp.Sealed.eval_def),
   (``Cpp.Sealed.args, ``Cpp.Sealed.args_def), (``Cpp.Sealed.bind, ``Cpp.Sealed.bind_def),
   (``Cpp.Sealed.initialise, ``Cpp.Sealed.initialise_def), (``Cpp.Sealed.run, ``Cpp.Sealed.run_def),
   (``Cpp.Sealed.binary, ``Cpp.Sealed.binary_def), (``Cpp.Sealed.coerce, ``Cpp.Sealed.coerce_def),
   (``Cpp.Sealed.assignable, ``Cpp.Sealed.assignable_def), (``Cpp.Sealed.method, ``Cpp.Sealed.method_def),
   (``Cpp.Sealed.apply, ``Cpp.Sealed.apply_def), (``Cpp.Sealed.make, ``Cpp.Sealed.make_def)]

/-- Functions that stay as they are. -/
def kept : List Name :=
  [``Cpp.untilZero, ``Cpp.convert, ``Cpp.bit, ``Cpp.Program.member, ``Cpp.resolve,
   ``Cpp.npos, ``Cpp.position, ``Cpp.without,
   `Ansak.Cpp.units8, `Ansak.Cpp.units16, `Ansak.Cpp.units32, `Ansak.Cpp.charVal, `Ansak.Cpp.ptrTo]

/-- Other functions that are unfolded by `run`. -/
def goes : List Name :=
  [``cond, ``ite, ``HAppend.hAppend, ``Append.append, ``List.append, ``List.instAppend, ``instHAppendOfAppend, ``Option.isSome,
   ``Option.map, ``instDecidableEqNat, ``Nat.decEq, ``Nat.blt, ``OfNat.ofNat, ``instOfNatNat,
   ``Cxx.oneOf]

/-- `more` and `less` are the functions marked `cpp_unfold` and `cpp_keep`. -/
def mayUnfold (more less : Array Name) (n : Name) : Bool :=
  (((`Ansak.Cpp).isPrefixOf n) && !((`Ansak.Cpp.Sealed).isPrefixOf n) && !kept.contains n && !less.contains n) ||
    goes.contains n || more.contains n || n == ``Cpp.Sealed.ctx

/-- Evaluate the head of a term. -/
def headNormal (e : Expr) : MetaM Expr := do
  let more ← labelled `cpp_unfold
  let less ← labelled `cpp_keep
  withCanUnfoldPred (fun _ i => return mayUnfold more less i.name) do whnf e

/-- Evaluate a value, a type or the like, and its parts. -/
partial def normal (e : Expr) : MetaM Expr := do
  let t ← whnfR (← inferType e)
  -- numbers that do not depend on variables
  if e.isAppOfArity ``Nat.cast 3 && !e.hasFVar then
    if e.appArg!.isAppOf ``OfNat.ofNat then return e
    let v ← withTransparency .default do whnf e.appArg!
    return (match v.rawNatLit? with | some n => mkApp e.appFn! (mkNatLit n) | none => e)
  if e.isAppOfArity ``Nat.cast 3 && e.appArg!.isAppOf ``Cpp.Ty.size then
    let v ← withTransparency .default do whnf e.appArg!
    return (match v.rawNatLit? with | some n => mkApp e.appFn! (mkNatLit n) | none => e)
  unless [``Cpp.Ty, ``Cpp.Val, ``Cpp.BinOp, ``Bool, ``Option, ``Prod, ``List].any (t.isAppOf ·) do return e
  let e ← headNormal e
  let some c ← isConstructorApp? e | return e
  let args := e.getAppArgs
  let mut new := args[:c.numParams].toArray
  for a in args[c.numParams:].toArray do new := new.push (← normal a)
  return mkAppN e.getAppFn new

/-- Evaluate the head of a term and the values that it depends on. -/
def evaluate (e : Expr) : MetaM Expr := do
  let e ← headNormal e
  if e.getAppFn.isConst && stops.contains e.getAppFn.constName! then
    return mkAppN e.getAppFn (← e.getAppArgs.mapM normal)
  return e

/-- Replace the left side of the goal by another one that is the same by definition. -/
def replaceLeft (g : MVarId) (lhs : Expr) : MetaM MVarId := do
  let some (α, _, rhs) := (← g.getType').eq? | throwError "not an equation"
  let u ← getLevel α
  let new ← mkFreshExprSyntheticOpaqueMVar (mkApp3 (.const ``Eq [u]) α lhs rhs) (← g.getTag)
  g.assign (← mkExpectedTypeHint new (← g.getType))
  return new.mvarId!

/-- Rewrite the left side of the goal with an equation. -/
def transLeft (g : MVarId) (h : Expr) (lhs : Expr) : MetaM MVarId := do
  let some (α, _, rhs) := (← g.getType').eq? | throwError "not an equation"
  let u ← getLevel α
  let new ← mkFreshExprSyntheticOpaqueMVar (mkApp3 (.const ``Eq [u]) α lhs rhs) (← g.getTag)
  g.assign (← mkEqTrans h new)
  return new.mvarId!

theorem or_le_add : ∀ (a b : Nat), a ||| b ≤ a + b := by
  intro a
  induction a using Nat.div2Induction with
  | ind a ih =>
    intro b
    by_cases h : a = 0
    · subst h; simp
    have := ih (by omega) (b / 2)
    have := Nat.or_div_two (a := a) (b := b)
    have := Nat.or_mod_two_eq_one (a := a) (b := b)
    omega

/-- The bitwise "and"s and "or"s in an expression, their operands. -/
partial def andsIn (e : Expr) (acc : Array (Bool × Expr × Expr)) : Array (Bool × Expr × Expr) :=
  match e with
  | .app f a =>
    let acc := andsIn a (andsIn f acc)
    let isAnd := e.isAppOfArity ``HAnd.hAnd 6
    if (isAnd || e.isAppOfArity ``HOr.hOr 6) && (e.getArg! 0).isConstOf ``Nat && !e.hasLooseBVars then
      let x := (isAnd, e.getArg! 4, e.getArg! 5)
      if acc.contains x then acc else acc.push x
    else acc
  | .lam _ t b _ => andsIn b (andsIn t acc)
  | .forallE _ t b _ => andsIn b (andsIn t acc)
  | .letE _ t v b _ => andsIn b (andsIn v (andsIn t acc))
  | .mdata _ e => andsIn e acc
  | .proj _ _ e => andsIn e acc
  | _ => acc

/-- `omega`, which is told that `a &&& b ≤ b` and `a ||| b ≤ a + b`. -/
elab "and_omega" : tactic => do
  let g ← getMainGoal
  g.withContext do
    let mut ands := andsIn (← instantiateMVars (← g.getType)) #[]
    for d in ← getLCtx do
      if !d.isImplementationDetail && (← isProp d.type) then ands := andsIn (← instantiateMVars d.type) ands
    let mut g := g
    for (isAnd, a, b) in ands do
      let h ← if isAnd then mkAppOptM ``Nat.and_le_right #[some a, some b] else mkAppM ``or_le_add #[a, b]
      let (_, g') ← (← g.assert `this (← inferType h) h).intro1
      g := g'
    replaceMainGoal [g]
    evalTactic (← `(tactic| omega))

/-- Prove a side condition. -/
def discharge (g : MVarId) : TacticM Bool := do
  let t ← instantiateMVars (← g.getType)
  -- an equation that defines its right side
  if let some (_, a, b) := t.eq? then
    if b.isMVar then
      let v ← withTransparency .default do whnf a
      b.mvarId!.assign (match v.rawNatLit? with | some n => mkNatLit n | none => v)
      g.assign (← mkEqRefl a)
      return true
  let s ← saveState
  try
    let gs ← Tactic.run g (evalTactic (← if t.isEq && !((t.getArg! 0).isConstOf ``Nat) then
        `(tactic| first | with_reducible assumption | rfl)
      else `(tactic| first | with_reducible assumption | exact True.intro | omega | and_omega)))
    if gs.isEmpty then return true
    s.restore; return false
  catch _ => s.restore; return false

/-- Try to rewrite the left side with a theorem. -/
def tryRule (g : MVarId) (lhs : Expr) (h : Expr) : TacticM (Option MVarId) := g.withContext do
  let s ← saveState
  let t ← inferType h
  let (xs, _, concl) ← forallMetaTelescope t
  let some (_, a, b) := concl.eq? | return none
  unless a.getAppFn.isConst && lhs.getAppFn.isConst && a.getAppFn.constName! == lhs.getAppFn.constName! do
    return none
  unless ← withTransparency .reducible (isDefEq a lhs) do
    s.restore; return none
  for x in xs do
    let m := x.mvarId!
    unless ← m.isAssigned do
      let ty ← instantiateMVars (← m.getType)
      if ← isProp ty then
        unless ← discharge m do
          s.restore; return none
  let b ← instantiateMVars b
  if b.hasExprMVar then s.restore; return none
  let pr ← instantiateMVars (mkAppN h xs)
  if pr.hasExprMVar then s.restore; return none
  return some (← transLeft g pr b.headBeta)

theorem branch_pos (E : Cpp.Sealed) {p : Prop} [Decidable p] (h : p) (a b : Cpp.Out) : E.branch (decide p) a b = a := by
  rw [E.branch_eq, decide_eq_true h]; rfl
theorem branch_neg (E : Cpp.Sealed) {p : Prop} [Decidable p] (h : ¬ p) (a b : Cpp.Out) :
    E.branch (decide p) a b = b := by
  rw [E.branch_eq, decide_eq_false h]; rfl
theorem branch_true (E : Cpp.Sealed) {c : Bool} (h : c = true) (a b : Cpp.Out) : E.branch c a b = a := by
  rw [E.branch_eq, h]; rfl
theorem branch_false (E : Cpp.Sealed) {c : Bool} (h : c = false) (a b : Cpp.Out) : E.branch c a b = b := by
  rw [E.branch_eq, h]; rfl
theorem branch_not (E : Cpp.Sealed) (c : Bool) (a b : Cpp.Out) : E.branch (!c) a b = E.branch c b a := by
  rw [E.branch_eq]; cases c <;> rfl

theorem eq_false_of_not {c : Bool} (h : ¬ c = true) : c = false := by cases c <;> simp_all

theorem or_true_left {a b : Bool} (h : a = true) : (a || b) = true := by rw [h, Bool.true_or]
theorem or_true_right {a b : Bool} (h : b = true) : (a || b) = true := by rw [h, Bool.or_true]
theorem or_false_both {a b : Bool} (h1 : a = false) (h2 : b = false) : (a || b) = false := by rw [h1, h2]; rfl
theorem and_false_left {a b : Bool} (h : a = false) : (a && b) = false := by rw [h, Bool.false_and]
theorem and_false_right {a b : Bool} (h : b = false) : (a && b) = false := by rw [h, Bool.and_false]
theorem and_true_both {a b : Bool} (h1 : a = true) (h2 : b = true) : (a && b) = true := by rw [h1, h2]; rfl
theorem not_true_of_false {a : Bool} (h : a = false) : ¬ a = true := by rw [h]; exact Bool.false_ne_true
theorem not_false_of_true {a : Bool} (h : a = true) : (!a) = false := by rw [h]; rfl
theorem not_true_of_false' {a : Bool} (h : a = false) : (!a) = true := by rw [h]; rfl

theorem not_or_intro {a b : Prop} (h1 : ¬ a) (h2 : ¬ b) : ¬ (a ∨ b) := fun h => h.elim h1 h2
theorem not_and_left {a b : Prop} (h : ¬ a) : ¬ (a ∧ b) := fun x => h x.1
theorem not_and_right {a b : Prop} (h : ¬ b) : ¬ (a ∧ b) := fun x => h x.2
theorem not_not_of {a : Prop} (h : a) : ¬ ¬ a := fun x => x h

/-- Prove a proposition from the hypotheses. -/
def proveAtom? (p : Expr) : TacticM (Option Expr) := do
  let m ← mkFreshExprMVar p
  let s ← saveState
  try
    let gs ← Tactic.run m.mvarId! (evalTactic (← `(tactic| first | with_reducible assumption | with_reducible rfl | omega | and_omega)))
    if gs.isEmpty then return some (← instantiateMVars m)
    s.restore; return none
  catch _ => s.restore; return none

/-- Prove a proposition from the hypotheses, by parts if it has parts. -/
partial def prove? (p : Expr) : TacticM (Option Expr) := do
  if let some h ← proveAtom? p then return some h
  let one (q : Expr) (f : Name) : TacticM (Option Expr) := do
    match ← prove? q with
    | some h => return some (← mkAppM f #[h])
    | none => return none
  let either (a b : Expr) (f g : Expr → MetaM Expr) : TacticM (Option Expr) := do
    if let some h ← prove? a then return some (← f h)
    if let some h ← prove? b then return some (← g h)
    return none
  let both (a b : Expr) (f : Name) : TacticM (Option Expr) := do
    let some h1 ← prove? a | return none
    let some h2 ← prove? b | return none
    return some (← mkAppM f #[h1, h2])
  match p.getAppFnArgs with
  | (``Or, #[a, b]) =>
    either a b (fun h => mkAppOptM ``Or.inl #[none, some b, some h]) (fun h => mkAppOptM ``Or.inr #[some a, none, some h])
  | (``And, #[a, b]) => both a b ``And.intro
  | (``Not, #[q]) =>
    match q.getAppFnArgs with
    | (``Or, #[a, b]) => both (mkNot a) (mkNot b) ``not_or_intro
    | (``And, #[a, b]) =>
      either (mkNot a) (mkNot b) (fun h => mkAppOptM ``not_and_left #[some a, some b, some h])
        (fun h => mkAppOptM ``not_and_right #[some a, some b, some h])
    | (``Not, #[a]) => one a ``not_not_of
    | (``Eq, #[_, c, t]) =>
      unless t.isConstOf ``Bool.true do return none
      one (← mkEq c (.const ``Bool.false [])) ``not_true_of_false
    | _ => return none
  | (``Eq, #[_, c, t]) =>
    let tt : Expr := .const ``Bool.true []
    let ff : Expr := .const ``Bool.false []
    if t.isConstOf ``Bool.true then
      match c.getAppFnArgs with
      | (``Decidable.decide, #[q, _]) => one q ``decide_eq_true
      | (``or, #[a, b]) =>
        either (← mkEq a tt) (← mkEq b tt) (fun h => mkAppOptM ``or_true_left #[some a, some b, some h])
          (fun h => mkAppOptM ``or_true_right #[some a, some b, some h])
      | (``and, #[a, b]) => both (← mkEq a tt) (← mkEq b tt) ``and_true_both
      | (``not, #[a]) => one (← mkEq a ff) ``not_true_of_false'
      | _ => return none
    else if t.isConstOf ``Bool.false then
      match c.getAppFnArgs with
      | (``Decidable.decide, #[q, _]) => one (mkNot q) ``decide_eq_false
      | (``and, #[a, b]) =>
        either (← mkEq a ff) (← mkEq b ff) (fun h => mkAppOptM ``and_false_left #[some a, some b, some h])
          (fun h => mkAppOptM ``and_false_right #[some a, some b, some h])
      | (``or, #[a, b]) => both (← mkEq a ff) (← mkEq b ff) ``or_false_both
      | (``not, #[a]) => one (← mkEq a tt) ``not_false_of_true
      | _ => return none
    else return none
  | _ => return none

/-- One step at a condition. -/
def stepCond (g : MVarId) (lhs : Expr) (split : Bool) : TacticM (Option (List MVarId)) := g.withContext do
  let args := lhs.getAppArgs
  let (E, c, a, b) := (args[0]!, args[1]!, args[2]!, args[3]!)
  if c.isConstOf ``Bool.true then
    return some [← transLeft g (← mkAppM ``branch_true #[E, ← mkEqRefl c, a, b]) a]
  if c.isConstOf ``Bool.false then
    return some [← transLeft g (← mkAppM ``branch_false #[E, ← mkEqRefl c, a, b]) b]
  if c.isAppOfArity ``Bool.not 1 then
    return some [← transLeft g (← mkAppM ``branch_not #[E, c.appArg!, a, b]) (mkApp4 lhs.getAppFn E c.appArg! b a)]
  if c.isAppOfArity ``Decidable.decide 2 then
    let p := c.appFn!.appArg!
    let np := mkNot p
    if let some h ← prove? p then
      return some [← transLeft g (← mkAppM ``branch_pos #[E, h, a, b]) a]
    if let some h ← prove? np then
      return some [← transLeft g (← mkAppM ``branch_neg #[E, h, a, b]) b]
    unless split do return none
    let (s1, s2) ← g.byCases p
    let r1 ← s1.mvarId.withContext do
      transLeft s1.mvarId (← mkAppM ``branch_pos #[E, .fvar s1.fvarId, a, b]) a
    let r2 ← s2.mvarId.withContext do
      transLeft s2.mvarId (← mkAppM ``branch_neg #[E, .fvar s2.fvarId, a, b]) b
    return some [r1, r2]
  if c.isAppOf ``Cpp.Program.member then
    let known := match variant? c with
      | some x => c.replaceFVar x (mkConst ``Bool.true)
      | none => c
    let v ← withTransparency .all do whnf known
    let r := if v.isConstOf ``Bool.true then a else b
    return some [← transLeft g (← mkAppM (if v.isConstOf ``Bool.true then ``branch_true else ``branch_false)
      #[E, ← mkExpectedTypeHint (← kernelRfl (← mkEq c v)) (← mkEq c v), a, b]) r]
  let pt ← mkEq c (.const ``Bool.true [])
  let pf ← mkEq c (.const ``Bool.false [])
  if let some h ← prove? pt then
    return some [← transLeft g (← mkAppM ``branch_true #[E, h, a, b]) a]
  if let some h ← prove? pf then
    return some [← transLeft g (← mkAppM ``branch_false #[E, h, a, b]) b]
  unless split do return none
  let (s1, s2) ← g.byCases pt
  let r1 ← s1.mvarId.withContext do
    transLeft s1.mvarId (← mkAppM ``branch_true #[E, .fvar s1.fvarId, a, b]) a
  let r2 ← s2.mvarId.withContext do
    let h ← mkAppM ``eq_false_of_not #[.fvar s2.fvarId]
    let m ← s2.mvarId.assert `h pf h
    let (f, m) ← m.intro1
    m.withContext do
      let m' ← m.tryClear s2.fvarId
      m'.withContext do transLeft m' (← mkAppM ``branch_false #[E, .fvar f, a, b]) b
  return some [r1, r2]

/-- Unfold a function. -/
def stepUnfold (g : MVarId) (lhs : Expr) (eqn : Name) : MetaM MVarId := do
  let h := mkAppN (mkConst eqn) lhs.getAppArgs
  let some (_, _, b) := (← instantiateForall (← getConstInfo eqn).type lhs.getAppArgs).eq?
    | throwError "not an equation"
  transLeft g h b.headBeta

/-- Apply a theorem that says which cases there are. -/
def trySplit (g : MVarId) (lhs : Expr) (n : Name) : TacticM (Option (List MVarId)) := g.withContext do
  let s ← saveState
  let h ← mkConstWithFreshMVarLevels n
  let (_, _, concl) ← forallMetaTelescope (← inferType h)
  let some (_, a, _) := concl.eq? | return none
  unless ← withTransparency .reducible (isDefEq a lhs) do
    s.restore; return none
  s.restore
  let gs ← withTransparency .reducible (g.apply h)
  return some (← gs.mapM fun g => do return (← g.intros).2)

/-- Evaluate the left sides of goals as far as possible. -/
partial def runAll (rules : Array Expr) (split : Bool) (fuel : Nat) (g : MVarId) : TacticM (List MVarId) :=
  g.withContext do
  if fuel = 0 then return [g]
  let some (_, lhs, _) := (← instantiateMVars (← g.getType)).consumeMData.eq? | return [g]
  let lhs' ← evaluate lhs
  let g ← if lhs' == lhs then pure g else replaceLeft g lhs'
  if lhs'.getAppFn.isFVar then return [g]
  if lhs'.isAppOfArity ``Cpp.Sealed.branch 4 then
    match ← stepCond g lhs' split with
    | some gs =>
      let rs ← gs.mapM (runAll rules split (fuel - 1))
      return rs.flatten
    | none => return [g]
  if lhs'.isAppOf ``Cpp.Sealed.exec && lhs'.getAppArgs[3]!.isAppOf ``Cpp.Stmt.array then
    for r in rules do
      if let some g' ← tryRule g lhs' r then
        return ← runAll rules split (fuel - 1) g'
  if let some n := lhs'.getAppFn.constName? then
    if let some (_, eqn) := unfolded.find? (·.1 == n) then
      return ← runAll rules split (fuel - 1) (← stepUnfold g lhs' eqn)
  for r in rules do
    if let some g' ← tryRule g lhs' r then
      return ← runAll rules split (fuel - 1) g'
  if split then
    for n in ← labelled `cpp_split do
      if let some gs ← trySplit g lhs' n then
        let rs ← gs.mapM (runAll rules split (fuel - 1))
        return rs.flatten
  return [g]

/-- The `if`s in an expression, from the outside. -/
partial def ifsIn (e : Expr) (acc : Array Expr) : Array Expr :=
  match e with
  | .app f a =>
    let acc := if e.isAppOfArity ``ite 5 && !e.hasLooseBVars && !acc.contains e then acc.push e else acc
    ifsIn a (ifsIn f acc)
  | .lam _ t b _ => ifsIn b (ifsIn t acc)
  | .mdata _ e => ifsIn e acc
  | .proj _ _ e => ifsIn e acc
  | _ => acc

/-- Decide the conditions of `if`s in the goal with the hypotheses. -/
elab "settle" : tactic => do
  if (← getUnsolvedGoals).isEmpty then return
  focus do
  let mut go := true
  while go do
    go := false
    let [g] ← getUnsolvedGoals | return
    let r ← g.withContext do
      for e in ifsIn (← instantiateMVars (← g.getType)) #[] do
        let #[α, p, i, a, b] := e.getAppArgs | return none
        let us := e.getAppFn.constLevels!
        if let some h ← prove? p then return some (mkAppN (.const ``if_pos us) #[p, i, h, α, a, b])
        if let some h ← prove? (mkNot p) then return some (mkAppN (.const ``if_neg us) #[p, i, h, α, a, b])
      return none
    if let some h := r then
      go := true
      let g' ← g.withContext do
        let r ← g.rewrite (← instantiateMVars (← g.getType)) h
        g.replaceTargetEq r.eNew r.eqProof
      replaceMainGoal [g']
  evalTactic (← `(tactic| try with_reducible rfl))

/-- Rewrite `l.drop i` with what is known about `l[i]?`. -/
elab "drops" : tactic => focus do
  let g ← getMainGoal
  let ds ← g.withContext do
    let mut ds : Array FVarId := #[]
    for d in ← getLCtx do
      if !d.isImplementationDetail && (← isProp d.type) then ds := ds.push d.fvarId
    return ds
  for f in ds do
    let g ← getMainGoal
    g.withContext do
      for n in [``Cpp.drop_some, ``Cpp.drop_none] do
        let s ← saveState
        try
          let h ← mkAppM n #[.fvar f]
          let (_, g') ← (← g.assert `dropped (← inferType h) h).intro1
          replaceMainGoal [g']
          break
        catch _ => s.restore
  let g ← getMainGoal
  let names ← g.withContext do
    let mut r : Array FVarId := #[]
    for d in ← getLCtx do
      if d.userName.eraseMacroScopes == `dropped then r := r.push d.fvarId
    return r
  let mut g := g
  let mut i := 0
  for f in names do
    g ← g.rename f (Name.mkSimple s!"dropped{i}")
    i := i + 1
  replaceMainGoal [g]
  for j in [:i] do
    let n := mkIdent (Name.mkSimple s!"dropped{j}")
    evalTactic (← `(tactic| try simp only [$n:ident]))
    evalTactic (← `(tactic| try clear $n))

def rulesOf (ids : Array Syntax) : TacticM (Array Expr) := do
  let ns ← labelled `cpp_sealed
  let mut rules : Array Expr := #[]
  for i in ids do
    let e ← instantiateMVars (← elabTerm i none (mayPostpone := true))
    rules := rules.push (← abstractMVars e).expr
  for n in ns do
    rules := rules.push (← mkConstWithFreshMVarLevels n)
  return rules

/-- Follow the execution on the left side of the goal. -/
syntax "run" (" [" term,* "]")? : tactic
/-- The same without splitting. -/
syntax "run1" (" [" term,* "]")? : tactic
/-- The same with a limit on the number of steps. -/
syntax "steps" num (" [" term,* "]")? : tactic

elab_rules : tactic
  | `(tactic| run $[[$ts,*]]?) => do
    let g ← getMainGoal
    g.withContext do
      let rules ← rulesOf (match ts with | some ts => ts.getElems | none => #[])
      let gs ← runAll rules true 100000 g
      replaceMainGoal gs
  | `(tactic| run1 $[[$ts,*]]?) => do
    let g ← getMainGoal
    g.withContext do
      let rules ← rulesOf (match ts with | some ts => ts.getElems | none => #[])
      let gs ← runAll rules false 100000 g
      replaceMainGoal gs
  | `(tactic| steps $n $[[$ts,*]]?) => do
    let g ← getMainGoal
    g.withContext do
      let rules ← rulesOf (match ts with | some ts => ts.getElems | none => #[])
      let gs ← runAll rules false n.getNat g
      replaceMainGoal gs

end Ansak.Follow

namespace Ansak.Cpp

/-- A call of a function with a body. -/
theorem call_body (E : Sealed) {P : Program} {X : Externals} {sc : Bool} {r d cls name : Nat} {vs : List Val}
    {k : Val → List (Option Val) → Out} {f : Fun} {body : Stmt} {T : Ty} (h : resolve P.funs cls name vs = some f)
    (hb : f.body = some body) (hT : deduce f.params vs = T) :
    E.call P X sc r (d + 1) cls name vs k = E.run P (E.ctx P X sc r d T) f body vs k := by
  subst hT
  rw [Sealed.ctx, E.call_eq, E.run_eq, Program.call, h]
  show (match f.body with | some body => _ | none => _) = _
  rw [hb]

/-- Enter the function that is called. -/
syntax "enter" term (" with " term)? : tactic
macro_rules
  | `(tactic| enter $f) =>
    `(tactic| refine (call_body _ (f := $f) (T := .int) (by kernel_rfl) rfl (by kernel_rfl)).trans ?_)
  | `(tactic| enter $f with $t) =>
    `(tactic| refine (call_body _ (f := $f) (T := $t) (by kernel_rfl) rfl (by kernel_rfl)).trans ?_)

end Ansak.Cpp
