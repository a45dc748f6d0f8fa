import Verif.Model.Cpp.Sem

/-!
# More functions and higher limits

If a program `P` has fewer functions than `Q`, but does not mean another one by a call, and runs with lower limits, then what
it does is what `Q` does, unless the outcome is `timeout` or `stuck`.
-/

namespace Ansak.Cpp

set_option linter.unusedSectionVars false

/-- A relation of outcomes for which a `timeout` or `stuck` can become anything. -/
structure Lifts (R : Out → Out → Prop) : Prop where
  stuck : ∀ b, R .stuck b
  timeout : ∀ b, R .timeout b
  ub : R .ub .ub

section

variable {R : Out → Out → Prop} (H : Lifts R)
include H

theorem Val.force_below {v : Val} {k k' : Val → Out} (h : ∀ v, R (k v) (k' v)) : R (v.force k) (v.force k') := by
  cases v <;> exact h _

theorem arith_below {t : Ty} {r : Int} {k k' : Val → Out} (h : ∀ v, R (k v) (k' v)) : R (arith t r k) (arith t r k') := by
  unfold arith
  cases t.signed true
  · exact h _
  · simp only [cond_true]
    split
    · exact h _
    · exact H.ub

theorem shift_below {l : Bool} {t : Ty} {a b : Int} {k k' : Val → Out} (h : ∀ v, R (k v) (k' v)) :
    R (shift l t a b k) (shift l t a b k') := by
  unfold shift
  split
  · cases l
    · exact h _
    · simp only [cond_true]
      split
      · exact arith_below H h
      · exact H.ub
  · exact H.ub

theorem binaryInt_below {sc : Bool} {op : BinOp} {s t : Ty} {a b : Int} {k k' : Val → Out} (h : ∀ v, R (k v) (k' v)) :
    R (binaryInt sc op s a t b k) (binaryInt sc op s a t b k') := by
  cases op <;> first | exact shift_below H h | exact arith_below H h | exact h _ | exact H.stuck _

theorem binary_below {sc : Bool} {op : BinOp} {v w : Val} {k k' : Val → Out} (h : ∀ v, R (k v) (k' v)) :
    R (binary sc op v w k) (binary sc op v w k') := by
  unfold binary
  split <;> first | exact binaryInt_below H h | exact H.ub | exact H.stuck _ | skip
  all_goals (split <;> first | exact h _ | exact H.ub | exact H.stuck _ | skip)
  all_goals (split <;> first | exact h _ | exact H.ub | exact H.stuck _ | skip)

theorem branch_below {b : Bool} {y n y' n' : Out} (h : R y y') (h' : R n n') : R (branch b y n) (branch b y' n') := by
  cases b
  · exact h'
  · exact h

theorem truth_below {v : Val} {k k' : Bool → Out} (h : ∀ v, R (k v) (k' v)) : R (truth v k) (truth v k') := by
  cases v <;> first | exact h _ | exact H.ub | exact H.stuck _

theorem read_below {buf : List Int} {i : Int} {k k' : Int → Out} (h : ∀ v, R (k v) (k' v)) :
    R (read buf i k) (read buf i k') := by
  unfold read
  split
  · split
    · exact h _
    · exact H.ub
  · exact H.ub

theorem readString_below {buf : List Int} {i : Int} {k k' : List Int → Out} (h : ∀ v, R (k v) (k' v)) :
    R (readString buf i k) (readString buf i k') := by
  unfold readString
  split
  · split
    · exact h _
    · exact H.ub
  · exact H.ub

theorem Env.force_below {ρ : Env} {k k' : Env → Out} (h : ∀ ρ, R (k ρ) (k' ρ)) : R (ρ.force k) (ρ.force k') := by
  induction ρ generalizing k k' with
  | nil => exact h _
  | cons x ρ ih => exact ih fun ρ => h _

theorem Env.fields_below {ρ : Env} {fs : List (Nat × Ty × Int)} {k k' : List (Nat × Ty × Int) → Out}
    (h : ∀ fs, R (k fs) (k' fs)) : R (ρ.fields fs k) (ρ.fields fs k') := by
  induction fs generalizing k k' with
  | nil => exact h _
  | cons f fs ih =>
    obtain ⟨x, t, n⟩ := f
    unfold Env.fields
    split <;> exact ih fun fs => h _

theorem Env.self_below {ρ : Env} {o o' : Out} {k k' : Nat → List (Nat × Ty × Int) → Out} (ho : R o o')
    (h : ∀ c fs, R (k c fs) (k' c fs)) : R (ρ.self o k) (ρ.self o' k') := by
  unfold Env.self
  split
  · exact Env.fields_below H fun fs => h _ fs
  · exact ho

theorem coerce_below {sc : Bool} {T : Ty} {ty : TyExpr} {v : Val} {k k' : Val → Out} (h : ∀ v, R (k v) (k' v)) :
    R (coerce sc T ty v k) (coerce sc T ty v k') := by
  have e : ∀ (b : Bool) {o o' : Out}, R o o' → R (bif b then o else .stuck) (bif b then o' else .stuck) := fun b _ _ h => by
    cases b
    · exact H.stuck _
    · exact h
  unfold coerce
  split <;> first | exact h _ | exact H.ub | exact H.stuck _ | exact e _ (h _) | skip
  all_goals (split <;> first | exact h _ | exact H.ub | exact H.stuck _ | exact e _ (h _) | exact e _ H.ub
                             | exact e _ (readString_below H fun s => h _))

theorem assignable_below {sc : Bool} {v w : Val} {k k' : Val → Out} (h : ∀ v, R (k v) (k' v)) :
    R (assignable sc v w k) (assignable sc v w k') := by
  have e : ∀ (b : Bool) (v : Val), R (bif b then k v else .stuck) (bif b then k' v else .stuck) := fun b v => by
    cases b
    · exact H.stuck _
    · exact h v
  unfold assignable
  split <;> first | exact h _ | exact H.ub | exact H.stuck _ | exact e _ _ | skip

end

/-- The surroundings of an expression in two programs. -/
structure Ctx.Below (R : Out → Out → Prop) (Γ Δ : Ctx) : Prop where
  sc : Γ.sc = Δ.sc
  rounds : Γ.rounds ≤ Δ.rounds
  globals : Γ.globals = Δ.globals
  call : ∀ c f vs k k', (∀ v rs, R (k v rs) (k' v rs)) → R (Γ.call c f vs k) (Δ.call c f vs k')
  member : Γ.member = Δ.member
  T : Γ.T = Δ.T
  wide : Γ.wide = Δ.wide

section

variable {R : Out → Out → Prop} (H : Lifts R) {Γ Δ : Ctx} (G : Ctx.Below R Γ Δ)
include H G

theorem Ctx.var_below {ρ : Env} {x : Nat} : Γ.var ρ x = Δ.var ρ x := by
  unfold Ctx.var
  rw [G.globals]

theorem Ctx.method_below {x f : Nat} {names : List Nat} {vs : List Val} {ρ : Env} {k k' : Val → Env → Out}
    (h : ∀ v ρ, R (k v ρ) (k' v ρ)) : R (Γ.method x f names vs ρ k) (Δ.method x f names vs ρ k') := by
  have e : ∀ (b : Bool) {y n y' n' : Out}, R y y' → R n n' → R (bif b then y else n) (bif b then y' else n') :=
    fun b _ _ _ _ h h' => branch_below H (b := b) h h'
  have i : ∀ (ρ : Env), R (ρ.force fun ρ => k .void ρ) (ρ.force fun ρ => k' .void ρ) := fun ρ =>
    Env.force_below H fun ρ => h _ _
  unfold Ctx.method
  rw [Ctx.var_below H G, G.sc]
  unfold convertTo
  split
  all_goals first
    | exact H.stuck _
    | (refine G.call _ _ _ _ _ fun v rs => Env.force_below H fun ρ => h _ _)
    | repeat' first
        | exact h _ _
        | exact i _
        | exact H.stuck _
        | exact readString_below H fun s => i _
        | apply e
        | apply branch_below H

theorem Ctx.make_below {ty : TyExpr} {vs : List Val} {k k' : Val → Out} (h : ∀ v, R (k v) (k' v)) :
    R (Γ.make ty vs k) (Δ.make ty vs k') := by
  have e : ∀ (b : Bool) {y n y' n' : Out}, R y y' → R n n' → R (bif b then y else n) (bif b then y' else n') :=
    fun b _ _ _ _ h h' => branch_below H (b := b) h h'
  unfold Ctx.make
  rw [G.sc, G.T]
  unfold convertTo
  split
  all_goals first
    | exact H.stuck _
    | exact H.ub
    | exact coerce_below H h
    | exact G.call _ _ _ _ _ fun v rs => h _
    | (split
       all_goals first
         | exact h _
         | exact H.stuck _
         | exact e _ (readString_below H fun s => h _) (H.stuck _))

theorem Ctx.apply_below {f : Nat} {names : List Nat} {vs : List Val} {ρ : Env} {k k' : Val → Env → Out}
    (h : ∀ v ρ, R (k v ρ) (k' v ρ)) : R (Γ.apply f names vs ρ k) (Δ.apply f names vs ρ k') := by
  unfold Ctx.apply
  rw [Ctx.var_below H G, G.sc, G.member]
  unfold convertTo
  split
  · exact Env.force_below H fun ρ => h _ _
  · exact G.call _ _ _ _ _ fun v rs => Env.force_below H fun ρ => h _ _
  · exact Ctx.make_below H G fun v => h _ _
  · refine Env.self_below H ?_ fun c fs => branch_below H ?_ ?_
    all_goals exact G.call _ _ _ _ _ fun v rs => Env.force_below H fun ρ => h _ _
  · exact H.stuck _

/-- Continuations. -/
abbrev Conts (R : Out → Out → Prop) (k k' : α → Env → Out) : Prop := ∀ v ρ, R (k v ρ) (k' v ρ)

mutual

theorem Expr.eval_below : ∀ (e : Expr) {ρ : Env} {k k' : Val → Env → Out}, Conts R k k' → R (e.eval Γ ρ k) (e.eval Δ ρ k')
  | .num n, _, _, _, h => by
    unfold Expr.eval
    exact Val.force_below H fun v => h _ _
  | .chr n, _, _, _, h => by unfold Expr.eval; exact h _ _
  | .lit t cs, _, _, _, h => by unfold Expr.eval; exact h _ _
  | .npos, _, _, _, h => by unfold Expr.eval; exact h _ _
  | .bool b, _, _, _, h => by unfold Expr.eval; exact h _ _
  | .null, _, _, _, h => by unfold Expr.eval; exact h _ _
  | .var x, _, _, _, h => by
    unfold Expr.eval
    rw [Ctx.var_below H G]
    exact Val.force_below H fun v => h _ _
  | .this, _, _, _, h => by unfold Expr.eval; exact h _ _
  | .addr x, _, _, _, h => by
    unfold Expr.eval
    rw [Ctx.var_below H G]
    split
    · exact h _ _
    · exact h _ _
    · exact H.stuck _
  | .deref e, _, _, _, h => by
    unfold Expr.eval
    refine Expr.eval_below e fun v ρ => ?_
    split
    · exact read_below H fun n => h _ _
    · exact H.ub
    · exact Env.self_below H (H.stuck _) fun c fs => h _ _
    · exact H.stuck _
  | .not e, _, _, _, h => by
    unfold Expr.eval
    exact Expr.eval_below e fun v ρ => truth_below H fun b => h _ _
  | .compl e, _, _, _, h => by
    unfold Expr.eval
    refine Expr.eval_below e fun v ρ => ?_
    rw [G.sc]
    split
    · exact h _ _
    · exact H.ub
    · exact H.stuck _
  | .neg e, _, _, _, h => by
    unfold Expr.eval
    refine Expr.eval_below e fun v ρ => ?_
    rw [G.sc]
    split
    · exact arith_below H fun v => h _ _
    · exact H.ub
    · exact H.stuck _
  | .incr x, _, _, _, h => by
    unfold Expr.eval
    rw [Ctx.var_below H G, G.sc]
    exact binary_below H fun v => assignable_below H fun v => Env.force_below H fun ρ => h _ _
  | .postIncr x, _, _, _, h => by
    unfold Expr.eval
    rw [Ctx.var_below H G, G.sc]
    exact Val.force_below H fun v => binary_below H fun v => assignable_below H fun v => Env.force_below H fun ρ => h _ _
  | .bin op a b, _, _, _, h => by
    unfold Expr.eval
    split
    · exact Expr.eval_below a fun v ρ => truth_below H fun c => branch_below H (h _ _) (Expr.eval_below b fun w ρ =>
        truth_below H fun c => h _ _)
    · exact Expr.eval_below a fun v ρ => truth_below H fun c => branch_below H (Expr.eval_below b fun w ρ =>
        truth_below H fun c => h _ _) (h _ _)
    · refine Expr.eval_below a fun v ρ => Expr.eval_below b fun w ρ => ?_
      rw [G.sc]
      split
      · exact G.call _ _ _ _ _ fun v rs => h _ _
      · exact G.call _ _ _ _ _ fun v rs => h _ _
      · exact binary_below H fun v => h _ _
  | .cond c a b, _, _, _, h => by
    unfold Expr.eval
    exact Expr.eval_below c fun v ρ => truth_below H fun t => branch_below H (Expr.eval_below a h) (Expr.eval_below b h)
  | .set x e, _, _, _, h => by
    unfold Expr.eval
    refine Expr.eval_below e fun v ρ => ?_
    rw [Ctx.var_below H G, G.sc]
    exact assignable_below H fun v => Env.force_below H fun ρ => h _ _
  | .setAt x i e, _, _, _, h => by
    unfold Expr.eval
    refine Expr.eval_below e fun v ρ => Expr.eval_below i fun w ρ => ?_
    rw [Ctx.var_below H G, G.sc]
    unfold convertTo
    split
    · exact branch_below H (Env.force_below H fun ρ => h _ _) H.ub
    · exact branch_below H (branch_below H (Env.force_below H fun ρ => h _ _) H.ub) (H.stuck _)
    · exact H.stuck _
  | .setOp op x e, _, _, _, h => by
    unfold Expr.eval
    refine Expr.eval_below e fun v ρ => ?_
    rw [Ctx.var_below H G, G.sc]
    exact binary_below H fun v => assignable_below H fun v => Env.force_below H fun ρ => h _ _
  | .comma a b, _, _, _, h => by
    unfold Expr.eval
    exact Expr.eval_below a fun v ρ => Expr.eval_below b h
  | .index e i, _, _, _, h => by
    unfold Expr.eval
    refine Expr.eval_below e fun v ρ => Expr.eval_below i fun w ρ => ?_
    split <;> first | exact read_below H fun n => h _ _ | exact H.ub | exact H.stuck _
  | .cast ty e, _, _, _, h => by
    unfold Expr.eval
    refine Expr.eval_below e fun v ρ => ?_
    rw [G.sc, G.T]
    exact coerce_below H fun v => h _ _
  | .reinterpret ty e, _, _, _, h => by
    unfold Expr.eval
    refine Expr.eval_below e fun v ρ => ?_
    have hA : ∀ t u, Γ.alike t u = Δ.alike t u := fun t u => by unfold Ctx.alike; rw [G.wide]
    rw [G.T]
    split
    · split
      · rw [hA]
        exact branch_below H (h _ _) (H.stuck _)
      · exact H.stuck _
    · exact H.stuck _
  | .sizeof ty, _, _, _, h => by
    unfold Expr.eval
    rw [G.T]
    split
    · exact h _ _
    · exact H.stuck _
  | .call f as, _, _, _, h => by
    unfold Expr.eval
    exact Args.eval_below as fun vs ρ => Ctx.apply_below H G h
  | .method x f as, _, _, _, h => by
    unfold Expr.eval
    exact Args.eval_below as fun vs ρ => Ctx.method_below H G h
  | .valueMethod e f as, _, _, _, h => by
    unfold Expr.eval
    refine Expr.eval_below e fun v ρ => Args.eval_below as fun vs ρ => ?_
    split
    · exact branch_below H (h _ _) (H.stuck _)
    · exact H.stuck _
  | .field x f, _, _, _, h => by
    unfold Expr.eval
    rw [Ctx.var_below H G]
    split
    · split
      · exact h _ _
      · exact H.stuck _
    · refine Env.self_below H (H.stuck _) fun c fs => ?_
      split
      · exact h _ _
      · exact H.stuck _
    · exact H.stuck _
  | .make ty as, _, _, _, h => by
    unfold Expr.eval
    exact Args.eval_below as fun vs ρ => Ctx.make_below H G fun v => h _ _

theorem Args.eval_below : ∀ (es : Args) {ρ : Env} {k k' : List Val → Env → Out}, Conts R k k' →
    R (es.eval Γ ρ k) (es.eval Δ ρ k')
  | .nil, _, _, _, h => by unfold Args.eval; exact h _ _
  | .cons e es, _, _, _, h => by
    unfold Args.eval
    exact Expr.eval_below e fun v ρ => Args.eval_below es fun vs ρ => h _ _

end

end

section

variable {R : Out → Out → Prop} (H : Lifts R)
include H

theorem End.leave_below {ρ : Env} {e : End} {k k' : End → Out} (h : ∀ e, R (k e) (k' e)) : R (e.leave ρ k) (e.leave ρ k') := by
  cases e <;> exact Env.force_below H fun ρ => h _

theorem rounds_below {c c' : Env → (Bool → Env → Out) → Out} {s s' b b' : Env → (End → Out) → Out}
    (hc : ∀ ρ k k', Conts R k k' → R (c ρ k) (c' ρ k'))
    (hs : ∀ ρ k k', (∀ e, R (k e) (k' e)) → R (s ρ k) (s' ρ k'))
    (hb : ∀ ρ k k', (∀ e, R (k e) (k' e)) → R (b ρ k) (b' ρ k')) {n m : Nat} (hn : n ≤ m) {ρ : Env} {k k' : End → Out}
    (h : ∀ e, R (k e) (k' e)) : R (rounds c s b n ρ k) (rounds c' s' b' m ρ k') := by
  induction n generalizing m ρ with
  | zero => exact H.timeout _
  | succ n ih =>
    obtain ⟨m, rfl⟩ : ∃ l, m = l + 1 := ⟨m - 1, by omega⟩
    unfold rounds
    refine hc _ _ _ fun x ρ => branch_below H (hb _ _ _ fun e => ?_) (h _)
    split
    · refine hs _ _ _ fun e => ?_
      split
      · exact ih (by omega)
      · exact H.stuck _
    · exact h _
    · exact h _

theorem each_below {t : Ty} {x : Nat} {b b' : Env → (End → Out) → Out}
    (hb : ∀ ρ k k', (∀ e, R (k e) (k' e)) → R (b ρ k) (b' ρ k')) {cs : List Int} {ρ : Env} {k k' : End → Out}
    (h : ∀ e, R (k e) (k' e)) : R (each t x b cs ρ k) (each t x b' cs ρ k') := by
  induction cs generalizing ρ with
  | nil => exact h _
  | cons c cs ih =>
    unfold each
    refine hb _ _ _ fun e => End.leave_below H fun e => ?_
    split
    · exact ih
    · exact h _
    · exact h _

theorem eachVal_below {x : Nat} {b b' : Env → (End → Out) → Out}
    (hb : ∀ ρ k k', (∀ e, R (k e) (k' e)) → R (b ρ k) (b' ρ k')) {cs : List Val} {ρ : Env} {k k' : End → Out}
    (h : ∀ e, R (k e) (k' e)) : R (eachVal x b cs ρ k) (eachVal x b' cs ρ k') := by
  induction cs generalizing ρ with
  | nil => exact h _
  | cons c cs ih =>
    unfold eachVal
    refine hb _ _ _ fun e => End.leave_below H fun e => ?_
    split
    · exact ih
    · exact h _
    · exact h _

variable {Γ Δ : Ctx} (G : Ctx.Below R Γ Δ)
include G

theorem cond_below (c : Expr) {ρ : Env} {k k' : Bool → Env → Out} (h : Conts R k k') :
    R (c.eval Γ ρ fun v ρ => truth v fun b => k b ρ) (c.eval Δ ρ fun v ρ => truth v fun b => k' b ρ) :=
  Expr.eval_below H G c fun _ _ => truth_below H fun _ => h _ _

theorem Stmt.exec_below {ret : TyExpr} : ∀ (s : Stmt) {ρ : Env} {k k' : End → Out}, (∀ e, R (k e) (k' e)) →
    R (s.exec Γ ret ρ k) (s.exec Δ ret ρ k')
  | .skip, _, _, _, h => by unfold Stmt.exec; exact h _
  | .seq s t, _, _, _, h => by
    unfold Stmt.exec
    refine Stmt.exec_below s fun e => ?_
    split
    · exact Stmt.exec_below t h
    · exact h _
    · exact h _
  | .expr e, _, _, _, h => by unfold Stmt.exec; exact Expr.eval_below H G e fun _ _ => h _
  | .decl ty x e, _, _, _, h => by
    unfold Stmt.exec
    rw [G.sc, G.T]
    exact Expr.eval_below H G e fun _ _ => coerce_below H fun v => h _
  | .make ty x as, _, _, _, h => by
    unfold Stmt.exec
    split
    · exact h _
    · exact h _
    · exact Args.eval_below H G as fun _ _ => Ctx.make_below H G fun v => h _
  | .array ty x as, _, _, _, h => by
    unfold Stmt.exec
    refine Args.eval_below H G as fun _ _ => ?_
    rw [G.sc, G.T]
    split
    · split
      · exact h _
      · exact H.stuck _
    · exact H.stuck _
  | .arrayOf ty x n as, _, _, _, h => by
    unfold Stmt.exec
    refine Args.eval_below H G as fun _ _ => ?_
    rw [G.sc, G.T]
    split
    · split
      · exact h _
      · exact H.stuck _
    · exact H.stuck _
  | .typedef ty x, _, _, _, h => by unfold Stmt.exec; exact h _
  | .ret e, _, _, _, h => by
    unfold Stmt.exec
    rw [G.sc, G.T]
    exact Expr.eval_below H G e fun _ _ => coerce_below H fun v => h _
  | .brk, _, _, _, h => by unfold Stmt.exec; exact h _
  | .block s, _, _, _, h => by unfold Stmt.exec; exact Stmt.exec_below s fun e => End.leave_below H h
  | .ite c t f, _, _, _, h => by
    unfold Stmt.exec
    exact Expr.eval_below H G c fun _ _ => truth_below H fun b => branch_below H
      (Stmt.exec_below t fun e => End.leave_below H h) (Stmt.exec_below f fun e => End.leave_below H h)
  | .loop c step body, _, _, _, h => by
    unfold Stmt.exec
    refine rounds_below H ?_ ?_ ?_ G.rounds h
    · exact fun _ _ _ h => cond_below H G c h
    · exact fun _ _ _ h => Stmt.exec_below step h
    · exact fun _ _ _ h => Stmt.exec_below body fun e => End.leave_below H h
  | .doWhile c body, _, _, _, h => by
    unfold Stmt.exec
    refine Stmt.exec_below body fun e => End.leave_below H fun e => ?_
    split
    · refine rounds_below H ?_ ?_ ?_ G.rounds h
      · exact fun _ _ _ h => cond_below H G c h
      · exact fun _ _ _ h => h _
      · exact fun _ _ _ h => Stmt.exec_below body fun e => End.leave_below H h
    · exact h _
    · exact h _
  | .forIn x y body, _, _, _, h => by
    unfold Stmt.exec
    rw [Ctx.var_below H G]
    split
    · refine each_below H ?_ h
      exact fun _ _ _ h => Stmt.exec_below body h
    · refine eachVal_below H ?_ h
      exact fun _ _ _ h => Stmt.exec_below body h
    · exact H.stuck _

theorem bind_below : ∀ {ps : List Param} {vs : List Val} {k k' : Env → Out}, (∀ ρ, R (k ρ) (k' ρ)) →
    R (bind Γ ps vs k) (bind Δ ps vs k')
  | [], [], _, _, h => by unfold bind; exact h _
  | ⟨ty, x, d⟩ :: ps, v :: vs, _, _, h => by
    unfold bind
    rw [G.sc, G.T]
    exact coerce_below H fun v => bind_below fun ρ => h _
  | ⟨ty, x, some e⟩ :: ps, [], _, _, h => by
    unfold bind
    rw [G.sc, G.T]
    exact Expr.eval_below H G e fun v _ => coerce_below H fun v => bind_below fun ρ => h _
  | ⟨ty, x, none⟩ :: ps, [], _, _, h => by unfold bind; exact H.stuck _
  | [], v :: vs, _, _, h => by unfold bind; exact H.stuck _

theorem initialise_below : ∀ {is : List (Nat × Expr)} {ρ : Env} {k k' : Env → Out}, (∀ ρ, R (k ρ) (k' ρ)) →
    R (initialise Γ is ρ k) (initialise Δ is ρ k')
  | [], _, _, _, h => by unfold initialise; exact h _
  | (x, e) :: is, _, _, _, h => by
    unfold initialise
    exact Expr.eval_below H G _ fun v _ => initialise_below h

omit G

theorem refs_below {ρ : Env} {ps : List Param} {k k' : List (Option Val) → Out} (h : ∀ vs, R (k vs) (k' vs)) :
    R (refs ρ ps k) (refs ρ ps k') := by
  induction ps generalizing k k' with
  | nil => exact h _
  | cons p ps ih =>
    unfold refs
    refine branch_below H (b := p.ty.back) ?_ (ih fun vs => h _)
    split
    · exact Val.force_below H fun v => ih fun vs => h _
    · exact H.stuck _

theorem Env.object_below {ρ : Env} {fs : List (Nat × Ty)} {k k' : List (Nat × Ty × Int) → Out}
    (h : ∀ fs, R (k fs) (k' fs)) : R (ρ.object fs k) (ρ.object fs k') := by
  induction fs generalizing k k' with
  | nil => exact h _
  | cons f fs ih =>
    obtain ⟨x, t⟩ := f
    unfold Env.object
    split
    · exact ih fun fs => h _
    · exact H.ub

theorem finishCall_below {ret : TyExpr} {ρ : Env} {k k' : Val → Env → Out} (h : Conts R k k') (e : End) :
    R (finishCall ret ρ k e) (finishCall ret ρ k' e) := by
  unfold finishCall
  split
  · exact Env.force_below H fun ρ => h _ _
  · split
    · exact Env.force_below H fun ρ => h _ _
    · exact H.ub
  · exact H.stuck _

include G

theorem Fun.run_below {P Q : Program} (hF : P.classes = Q.classes) {f : Fun} {body : Stmt} {vs : List Val}
    {k k' : Val → List (Option Val) → Out} (h : ∀ v rs, R (k v rs) (k' v rs)) :
    R (f.run P Γ body vs k) (f.run Q Δ body vs k') := by
  have hf : P.fields = Q.fields := by
    funext c
    unfold Program.fields
    rw [hF]
  unfold Fun.run
  rw [hf]
  refine branch_below H (b := f.hasSelf) ?_ (branch_below H (b := Nat.beq f.cls 0) ?_ ?_)
  · split
    · exact bind_below H G fun ρ => Env.force_below H fun ρ => Stmt.exec_below H G _ fun e => finishCall_below H
        (fun v ρ => refs_below H fun vs => Env.fields_below H fun fs => h _ _) e
    · exact H.stuck _
  · exact bind_below H G fun ρ => Stmt.exec_below H G _ fun e => finishCall_below H
      (fun v ρ => refs_below H fun vs => h _ _) e
  · exact bind_below H G fun ρ => Env.force_below H fun ρ => initialise_below H G fun ρ => Stmt.exec_below H G _ fun e =>
      finishCall_below H (fun v ρ => Env.object_below H fun fs => h _ _) e

omit G

theorem Fun.external_below {X : Externals} {sc : Bool} {f : Fun} {vs : List Val}
    {k k' : Val → List (Option Val) → Out} (h : ∀ v rs, R (k v rs) (k' v rs)) :
    R (f.external X sc vs k) (f.external X sc vs k') := by
  unfold Fun.external
  split
  · split
    · split
      · exact h _ _
      · exact H.stuck _
    · exact H.stuck _
  · exact H.stuck _

end

/-- The program `Q` has all functions of `P` and perhaps more. What a call means does not change. -/
structure Program.Extends (Q P : Program) : Prop where
  resolve : ∀ c f vs g, Cpp.resolve P.funs c f vs = some g → Cpp.resolve Q.funs c f vs = some g
  globals : P.globals = Q.globals
  classes : P.classes = Q.classes
  member : P.member = Q.member
  wide : P.wide = Q.wide

theorem Program.call_below {R : Out → Out → Prop} (H : Lifts R) {P Q : Program} (E : Q.Extends P) {X : Externals} {sc : Bool}
    {n m : Nat} (hn : n ≤ m) {d e : Nat} (hd : d ≤ e) {c f : Nat} {vs : List Val} {k k' : Val → List (Option Val) → Out}
    (h : ∀ v rs, R (k v rs) (k' v rs)) : R (P.call X sc n d c f vs k) (Q.call X sc m e c f vs k') := by
  induction d generalizing e c f vs k k' with
  | zero => exact H.timeout _
  | succ d ih =>
    obtain ⟨e, rfl⟩ : ∃ l, e = l + 1 := ⟨e - 1, by omega⟩
    unfold Program.call
    cases hr : Cpp.resolve P.funs c f vs with
    | none => exact H.stuck _
    | some g =>
      rw [E.resolve _ _ _ _ hr]
      simp only
      split
      · refine Fun.run_below H ?_ E.classes h
        refine ⟨rfl, hn, E.globals, ?_, E.member, rfl, E.wide⟩
        exact fun _ _ _ _ _ h => ih (by omega) h
      · exact Fun.external_below H h

/-- `a` is `ub`, and so is `b`; or `a` returns something with which `b` goes on. -/
def Then (k : Val → List (Option Val) → Out) (a b : Out) : Prop :=
  match a with
  | .done v rs => b = k v rs
  | .ub => b = .ub
  | _ => True

theorem lifts_then (k : Val → List (Option Val) → Out) : Lifts (Then k) := ⟨fun _ => trivial, fun _ => trivial, rfl⟩

/-- A call that returns a value does so in a program that has more functions, with higher limits. -/
theorem Program.call_done {P Q : Program} (E : Q.Extends P) {X : Externals} {sc : Bool} {n m : Nat} (hn : n ≤ m) {d e : Nat}
    (hd : d ≤ e) {c f : Nat} {vs : List Val} {v : Val} {rs : List (Option Val)}
    (h : P.call X sc n d c f vs .done = .done v rs) (k : Val → List (Option Val) → Out) :
    Q.call X sc m e c f vs k = k v rs := by
  have := P.call_below (lifts_then k) E (X := X) (sc := sc) hn hd (c := c) (f := f) (vs := vs) (k := .done) (k' := k) fun _ _ => rfl
  rw [h] at this
  exact this

/-- The same for undefined behaviour. -/
theorem Program.call_ub {P Q : Program} (E : Q.Extends P) {X : Externals} {sc : Bool} {n m : Nat} (hn : n ≤ m) {d e : Nat}
    (hd : d ≤ e) {c f : Nat} {vs : List Val} (h : P.call X sc n d c f vs .done = .ub) (k : Val → List (Option Val) → Out) :
    Q.call X sc m e c f vs k = .ub := by
  have := P.call_below (lifts_then k) E (X := X) (sc := sc) hn hd (c := c) (f := f) (vs := vs) (k := .done) (k' := k) fun _ _ => rfl
  rw [h] at this
  exact this

end Ansak.Cpp
