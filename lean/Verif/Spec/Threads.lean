import Verif.Spec.Library

/-!
# Specification: threads that call the library

Several threads share the variables of a program. Each executes a list of statements, which are calls of the library. The calls of
different threads overlap: between the beginning and the end of a call of one thread, the others can begin and end calls, in every
order (a schedule). The arguments of a call are read, and the object it changes is changed, at any time while it runs; so two calls
that run at the same time must not use the same variable if one of them changes it (a data race, which is undefined behaviour).

`w` says whether `wchar_t` has 32 bits or 16, `v` is the version of Unicode.
-/

namespace Ansak.Spec

/-- The variables of a program. -/
abbrev Store := Nat → Arg

/-- Give a variable a value. -/
def Store.set (σ : Store) (x : Nat) (a : Arg) : Store := fun y => if y = x then a else σ y

/-- A statement. -/
inductive LibCall where
  /-- `x = f(args);` -/
  | call (x f : Nat) (args : List Nat)
  /-- `f(x, args);`, a function that changes `x`, such as `trim` -/
  | change (x f : Nat) (args : List Nat)
  /-- `y.f(args);`, a member function of the predicate `y`, which may change it -/
  | member (y f : Nat) (args : List Nat)
  /-- `x = y.f(args);` -/
  | query (x y f : Nat) (args : List Nat)

/-- The variables that a statement uses. -/
def LibCall.uses : LibCall → List Nat
  | .call x _ as => x :: as
  | .change x _ as => x :: as
  | .member y _ as => y :: as
  | .query x y _ as => x :: y :: as

/-- The variables that a statement changes. -/
def LibCall.changes : LibCall → List Nat
  | .call x _ _ => [x]
  | .change x _ _ => [x]
  | .member y _ _ => [y]
  | .query x y _ _ => [x, y]

/-- A statement takes the variables from `σ` to `σ'`. -/
inductive Does (w : Bool) (v : Version) (σ : Store) : LibCall → Store → Prop
  | call {x f : Nat} {as : List Nat} {r : Arg} : ReturnsOn w v f (as.map σ) r → Does w v σ (.call x f as) (σ.set x r)
  | change {x f : Nat} {as : List Nat} {r : Arg} : Changes v f (σ x) (as.map σ) (.ok r) →
      Does w v σ (.change x f as) (σ.set x r)
  | member {y f : Nat} {as : List Nat} {p q : Pred} {r : Arg} : σ y = .pred p → RunsMember v f p (as.map σ) r q →
      Does w v σ (.member y f as) (σ.set y (.pred q))
  | query {x y f : Nat} {as : List Nat} {p q : Pred} {r : Arg} : σ y = .pred p → RunsMember v f p (as.map σ) r q →
      Does w v σ (.query x y f as) ((σ.set y (.pred q)).set x r)

/-- One thread alone executes these statements. -/
inductive Alone (w : Bool) (v : Version) (σ : Store) : List LibCall → Store → Prop
  | nothing : Alone w v σ [] σ
  | then {ss : List LibCall} {σ' σ'' : Store} {s : LibCall} : Alone w v σ ss σ' → Does w v σ' s σ'' →
      Alone w v σ (ss ++ [s]) σ''

/-- Two statements that must not run at the same time: one changes what the other uses. -/
def Conflict (s t : LibCall) : Prop :=
  (∃ x ∈ s.changes, x ∈ t.uses) ∨ ∃ x ∈ t.changes, x ∈ s.uses

/-- What a thread has to do yet, and whether it is inside the first of these calls. -/
structure Thread where
  todo : List LibCall
  inside : Bool

/-- The variables, and the threads by number. -/
structure Threads where
  store : Store
  thread : Nat → Thread

/-- Before anything is done. -/
def Threads.start (σ : Store) (P : Nat → List LibCall) : Threads := ⟨σ, fun i => ⟨P i, false⟩⟩

/-- The thread number `i` is now `t`. -/
def Threads.put (T : Threads) (i : Nat) (t : Thread) (σ : Store) : Threads := ⟨σ, fun j => if j = i then t else T.thread j⟩

/-- Something that can happen next: the thread `i` begins a call, or a call that it is inside of ends. -/
inductive Happens (w : Bool) (v : Version) (T : Threads) : Threads → Prop
  | begins (i : Nat) {s : LibCall} {ss : List LibCall} : T.thread i = ⟨s :: ss, false⟩ →
      Happens w v T (T.put i ⟨s :: ss, true⟩ T.store)
  | ends (i : Nat) {s : LibCall} {ss : List LibCall} {σ : Store} : T.thread i = ⟨s :: ss, true⟩ → Does w v T.store s σ →
      Happens w v T (T.put i ⟨ss, false⟩ σ)

/-- What can be reached, with some schedule. -/
inductive Reached (w : Bool) (v : Version) (T : Threads) : Threads → Prop
  | here : Reached w v T T
  | next {U V : Threads} : Reached w v T U → Happens w v U V → Reached w v T V

/-- Two threads are inside of calls that must not run at the same time. -/
def Race (T : Threads) : Prop :=
  ∃ i j s t, i ≠ j ∧ (T.thread i).inside ∧ (T.thread j).inside ∧
    (T.thread i).todo.head? = some s ∧ (T.thread j).todo.head? = some t ∧ Conflict s t

/-- All threads have done everything. -/
def Threads.Finished (T : Threads) : Prop := ∀ i, (T.thread i).todo = []

/-- How many times a thread still has to begin or end a call. -/
def Thread.left (t : Thread) : Nat := if t.inside then 2 * t.todo.length - 1 else 2 * t.todo.length

/-- How many times the first `n` threads still have to begin or end a call. -/
def Threads.left (T : Threads) : Nat → Nat
  | 0 => 0
  | n + 1 => T.left n + (T.thread n).left

/-- No thread changes a variable that another one uses. -/
def Separate (P : Nat → List LibCall) : Prop :=
  ∀ i j, i ≠ j → ∀ s ∈ P i, ∀ t ∈ P j, ∀ x ∈ s.changes, x ∉ t.uses

end Ansak.Spec
