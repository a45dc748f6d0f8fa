import Verif.Model.Tool.Link
import Verif.Lemmas.Cpp.Order

/-!
# The text of the tool: a greater limit changes nothing
-/

namespace Ansak.Tool

/-- If `a` is an outcome, `b` is the same. -/
inductive Below {α : Type} : R α → R α → Prop
  | timeout (b : R α) : Below .timeout b
  | stuck (b : R α) : Below .stuck b
  | refl (a : R α) : Below a a

theorem Below.done {α : Type} {a b : R α} (h : Below a b) {x : α} (e : a = .done x) : b = .done x := by
  cases h with
  | timeout => exact nomatch e
  | stuck => exact nomatch e
  | refl => exact e

theorem Below.ub {α : Type} {a b : R α} (h : Below a b) (e : a = .ub) : b = .ub := by
  cases h with
  | timeout => exact nomatch e
  | stuck => exact nomatch e
  | refl => exact e

theorem bind_below {α β : Type} {a b : R α} (h : Below a b) {f g : α → R β} (hf : ∀ x, Below (f x) (g x)) :
    Below (a.bind f) (b.bind g) := by
  cases h with
  | timeout => exact .timeout _
  | stuck => exact .stuck _
  | refl =>
    cases a with
    | done x => exact hf x
    | ub => exact .refl _
    | timeout => exact .timeout _
    | stuck => exact .stuck _

/-- The functions of `F` have the outcomes that those of `E` have. -/
structure EnvBelow (E F : Env) : Prop where
  call : ∀ f vs σ, Below (E.call f vs σ) (F.call f vs σ)
  split : ∀ s c, Below (E.split s c) (F.split s c)

theorem builtin_below {E F : Env} (h : EnvBelow E F) (f : Nat) (vs : List Val) (σ : St) :
    Below (builtin E f vs σ) (builtin F f vs σ) := by
  unfold builtin
  by_cases h1 : f = (name% "split")
  · rw [if_pos h1, if_pos h1]
    split
    · exact bind_below (h.split _ _) fun _ => Below.refl _
    · exact .stuck _
  · rw [if_neg h1, if_neg h1]
    by_cases h2 : f = (name% "stat")
    · rw [if_pos h2, if_pos h2]
      exact Below.refl _
    · rw [if_neg h2, if_neg h2]
      exact h.call _ _ _

theorem eval_call (f : Nat) (as : Args) (σ : St) : (∃ x y, ∀ E, eval E (.call f as) σ = getline x y σ) ∨
    ∀ E, eval E (.call f as) σ = (evalArgs E as σ).bind fun (vs, σ) => builtin E f vs σ := by
  by_cases h : ∃ x y, as = .cons (.var x) (.cons (.var y) .nil)
  · obtain ⟨x, y, rfl⟩ := h
    by_cases hf : f = (name% "getline")
    · refine .inl ⟨x, y, fun E => ?_⟩
      rw [eval, if_pos hf]
    · refine .inr fun E => ?_
      rw [eval, if_neg hf]
  · refine .inr fun E => ?_
    rw [eval]
    exact fun x y e => h ⟨x, y, e⟩

mutual

theorem eval_below {E F : Env} (h : EnvBelow E F) : ∀ (e : Expr) (σ : St), Below (eval E e σ) (eval F e σ)
  | .num n, σ => by unfold eval; exact Below.refl _
  | .chr n, σ => by unfold eval; exact Below.refl _
  | .lit cs, σ => by unfold eval; exact Below.refl _
  | .bool b, σ => by unfold eval; exact Below.refl _
  | .var x, σ => by unfold eval; exact Below.refl _
  | .addr x, σ => by unfold eval; exact Below.refl _
  | .incr x, σ => by unfold eval; exact Below.refl _
  | .not e, σ => by unfold eval; exact bind_below (eval_below h e σ) fun _ => Below.refl _
  | .set x e, σ => by unfold eval; exact bind_below (eval_below h e σ) fun _ => Below.refl _
  | .index a i, σ => by
    unfold eval
    exact bind_below (eval_below h a σ) fun (_, σ) => bind_below (eval_below h i σ) fun _ => Below.refl _
  | .method e f as, σ => by
    unfold eval
    exact bind_below (eval_below h e σ) fun (_, σ) => bind_below (evalArgs_below h as σ) fun _ => Below.refl _
  | .call f as, σ => by
    have ha := evalArgs_below h as σ
    rcases eval_call f as σ with ⟨x, y, e⟩ | e
    · rw [e, e]
      exact Below.refl _
    · rw [e, e]
      exact bind_below ha fun (vs, σ) => builtin_below h f vs σ
  | .bin op a b, σ => by
    have h1 := eval_below h a σ
    have h2 := fun σ => eval_below h b σ
    cases op with
    | or =>
      unfold eval
      refine bind_below h1 fun (v, σ) => ?_
      dsimp only
      split
      · exact .refl _
      · exact bind_below (h2 σ) fun _ => Below.refl _
      · exact .stuck _
    | and =>
      unfold eval
      refine bind_below h1 fun (v, σ) => ?_
      dsimp only
      split
      · exact .refl _
      · exact bind_below (h2 σ) fun _ => Below.refl _
      · exact .stuck _
    | _ =>
      unfold eval
      exact bind_below h1 fun (_, σ) => bind_below (h2 σ) fun _ => Below.refl _

theorem evalArgs_below {E F : Env} (h : EnvBelow E F) : ∀ (es : Args) (σ : St), Below (evalArgs E es σ) (evalArgs F es σ)
  | .nil, σ => by unfold evalArgs; exact Below.refl _
  | .cons e es, σ => by
    unfold evalArgs
    exact bind_below (eval_below h e σ) fun (_, σ) => bind_below (evalArgs_below h es σ) fun _ => Below.refl _

end

theorem iterate_below {c c' : St → R (Val × St)} {b b' : St → R (Flow × St)} (hc : ∀ σ, Below (c σ) (c' σ))
    (hb : ∀ σ, Below (b σ) (b' σ)) : ∀ {n m : Nat}, n ≤ m → ∀ σ, Below (iterate c b n σ) (iterate c' b' m σ)
  | 0, _, _, _ => .timeout _
  | n + 1, m + 1, h, σ => by
    unfold iterate
    refine bind_below (hc σ) fun (v, σ) => ?_
    dsimp only
    split
    · exact Below.refl _
    · refine bind_below (hb σ) fun (fl, σ) => ?_
      dsimp only
      split
      · exact Below.refl _
      · exact iterate_below hc hb (Nat.le_of_succ_le_succ h) σ
    · exact .stuck _

theorem exec_below {E F : Env} (h : EnvBelow E F) {n m : Nat} (hn : n ≤ m) : ∀ (s : Stmt) (σ : St),
    Below (exec E n s σ) (exec F m s σ)
  | .skip, σ => by unfold exec; exact Below.refl _
  | .cont, σ => by unfold exec; exact Below.refl _
  | .seq s t, σ => by
    unfold exec
    refine bind_below (exec_below h hn s σ) fun (fl, σ) => ?_
    dsimp only
    split
    · exact exec_below h hn t σ
    · exact Below.refl _
  | .expr e, σ => by unfold exec; exact bind_below (eval_below h e σ) fun _ => Below.refl _
  | .decl ty x e, σ => by unfold exec; exact bind_below (eval_below h e σ) fun _ => Below.refl _
  | .make ty x as, σ => by unfold exec; exact bind_below (evalArgs_below h as σ) fun _ => Below.refl _
  | .ret e, σ => by unfold exec; exact bind_below (eval_below h e σ) fun _ => Below.refl _
  | .block s, σ => by unfold exec; exact bind_below (exec_below h hn s σ) fun _ => Below.refl _
  | .ite c s t, σ => by
    unfold exec
    refine bind_below (eval_below h c σ) fun (v, σ) => ?_
    dsimp only
    split
    · exact exec_below h hn s σ
    · exact exec_below h hn t σ
    · exact .stuck _
  | .loop c s, σ => by
    unfold exec
    exact iterate_below (eval_below h c) (exec_below h hn s) hn σ
  | .tryCatch s _, σ => by
    unfold exec
    exact exec_below h hn s σ

theorem program_below {sp sp' : List Byte → Byte → R (List (List Byte))} (h : ∀ s c, Below (sp s c) (sp' s c)) {n m : Nat}
    (hn : n ≤ m) : ∀ (fs : List Fun) (f : Nat) (vs : List Val) (σ : St),
    Below (program sp n fs f vs σ) (program sp' m fs f vs σ)
  | [], _, _, _ => .stuck _
  | g :: fs, f, vs, σ => by
    unfold program
    split
    · unfold callFun
      split
      · exact .stuck _
      · exact bind_below (exec_below ⟨program_below h hn fs, h⟩ hn _ _) fun _ => Below.refl _
    · exact program_below h hn fs f vs σ

theorem run_below {sp sp' : List Byte → Byte → R (List (List Byte))} (h : ∀ s c, Below (sp s c) (sp' s c)) {n m : Nat}
    (hn : n ≤ m) (text : Cxx.Text) (args : List (List Byte)) (d : Disk) : Below (run text sp n args d) (run text sp' m args d) := by
  unfold run
  split
  · exact .stuck _
  · exact bind_below (program_below h hn _ _ _ _) fun _ => Below.refl _

theorem librarySplit_below (w : Bool) (v : Version) (sc : Bool) {n m : Nat} (hn : n ≤ m) (s : List Byte) (c : Byte) :
    Below (librarySplit w v sc n s c) (librarySplit w v sc m s c) := by
  unfold librarySplit Cpp.callText
  cases Cpp.parseAll (Cpp.Source.pieces w) with
  | none => exact .stuck _
  | some is =>
    dsimp only
    cases Cpp.program (Cpp.link v sc) sc (Cpp.wideType w) is with
    | none => exact .stuck _
    | some P =>
      dsimp only
      have hP : P.Extends P := ⟨fun _ _ _ _ h => h, rfl, rfl, rfl, rfl⟩
      cases e : P.call (Cpp.link v sc) sc n n (nat_lit 0) (name% "split")
          [.str .char (Cpp.units8 sc s), .int .char (Cpp.charVal sc c)] .done with
      | done x rs => rw [P.call_done hP hn hn e]; exact Below.refl _
      | ub => rw [P.call_ub hP hn hn e]; exact Below.refl _
      | timeout => exact .timeout _
      | stuck => exact .stuck _

/-- An outcome of the tool is its outcome with every greater limit. -/
theorem runTool_below (w : Bool) (v : Version) (sc : Bool) {n m : Nat} (hn : n ≤ m) (args : List (List Byte)) (d : Disk) :
    Below (runTool w v sc n args d) (runTool w v sc m args d) := by
  have h := librarySplit_below w v sc hn
  exact run_below (sp := librarySplit w v sc n) (sp' := librarySplit w v sc m) h hn source args d

end Ansak.Tool
