import Verif.Model.ToLower
import Verif.Lemmas.Cpp.CodePage

/-! # `toLower`, executed from its syntax tree -/

namespace Ansak.Cpp

variable {E : Sealed} {X : Externals} {sc : Bool} {r d : Nat} {K : Val → List (Option Val) → Out} {w : Bool} {s : List Int}

theorem beq_lit (b : Byte) (c : Char) : (b == lit c) = decide (b.toNat = (lit c).toNat) := by
  rw [Bool.eq_iff_iff, beq_iff_eq, decide_eq_true_eq, BitVec.toNat_inj]

theorem isTurkicLang_null : call% (d + 1) "isTurkicLang" [.ptr .char none] K =
    (Ansak.isTurkicLang none).out fun b => K (.int .bool (bit b)) [none] := by
  enter Ast.isTurkicLang_8
  run
  leaf

theorem isTurkicLang_call (buf : List Byte) :
    call% (d + 1) "isTurkicLang" [.ptr .char (some (units8 sc buf, ((0 : Nat) : Int)))] K =
    (Ansak.isTurkicLang (some buf)).out fun b => K (.int .bool (bit b)) [none] := by
  enter Ast.isTurkicLang_8
  by_hand [Ansak.isTurkicLang]
  run
  all_goals repeat (first | rw [readAt_some (by assumption)] | rw [readAt_none (by assumption)]); simp only [Res.bind, zero8]; settle
  all_goals first | done | rfl | skip
  all_goals
    simp only [beq_lit, *, show (lit 't').toNat = 116 from rfl, show (lit 'r').toNat = 114 from rfl,
      show (lit 'a').toNat = 97 from rfl, show (lit 'z').toNat = 122 from rfl, show (lit 'k').toNat = 107 from rfl,
      show (lit 'u').toNat = 117 from rfl, show (lit 'e').toNat = 101 from rfl, show (lit 'b').toNat = 98 from rfl,
      show (lit 'j').toNat = 106 from rfl]
    try rfl

theorem each_cons (E : Sealed) (t : Ty) (x : Nat) (B : Env → (End → Out) → Out) (c : Int) (cs : List Int) (ρ : Env)
    (k : End → Out) : E.each t x B (c :: cs) ρ k = B ((x, .int t c) :: ρ) fun e =>
    e.leave ρ fun e =>
      match e with
      | .next ρ => E.each t x B cs ρ k
      | .brk ρ => k (.next ρ)
      | .ret v ρ => k (.ret v ρ) := by
  rw [E.each_eq]; rfl

theorem each_nil (E : Sealed) (t : Ty) (x : Nat) (B : Env → (End → Out) → Out) (ρ : Env)
    (k : End → Out) : E.each t x B [] ρ k = k (.next ρ) := by
  rw [E.each_eq]; rfl

theorem out_ok {α : Type} (a : α) (k : α → Out) : (Res.ok a).out k = k a := rfl

/-- Induction over the elements of a string. -/
theorem each_ind {α : Type} {x : Nat} {B : Env → (End → Out) → Out} {k : End → Out} (ρ : α → Env)
    (rhs : List U32 → α → Out) (hnil : ∀ a, k (.next (ρ a)) = rhs [] a)
    (step : ∀ (c : U32) cs a, (∀ b, E.each .c32 x B (units32 cs) (ρ b) k = rhs cs b) →
      E.each .c32 x B ((c.toNat : Int) :: units32 cs) (ρ a) k = rhs (c :: cs) a) :
    ∀ cs a, E.each .c32 x B (units32 cs) (ρ a) k = rhs cs a
  | [], a => (each_nil E _ _ _ _ _).trans (hnil a)
  | c :: cs, a => step c cs a fun b => each_ind ρ rhs hnil step cs b

theorem toLower_32_of {v : Version} (hX : X.Are sc U (Unicode.toLowerChar v) (Unicode.turkicToLowerChar v))
    (src : List U32) (buf : Ptr Byte) (p : Option (List Int × Int)) (h : ∀ K : Val → List (Option Val) → Out,
      call% (d + 1) "isTurkicLang" [.ptr .char p] K =
      (Ansak.isTurkicLang buf).out fun b => K (.int .bool (bit b)) [none]) :
    call% (d + 2) "toLower" [.str .c32 (units32 src), .ptr .char p] K =
    (Ansak.toLower32S v src buf).out fun l => K (.str .c32 (units32 l)) [none, none] := by
  enter Ast.toLower_S32_8
  run [h]
  unfold toLower32S
  cases isTurkicLang buf with
  | ub => rfl
  | ok b =>
    run [out_ok]
    · subst b
      refine each_ind (fun res => (name% "adder", .alias (name% "result")) :: (name% "result", .str .c32 (units32 res)) :: _)
        (fun cs res => K (.str .c32 (units32 (toLowerLoop (Unicode.turkicToLowerChar v) cs res))) [none, none]) ?_ ?_ src []
      · intro res
        run
        rfl
      · intro c cs res IH
        run [each_cons, turkicToLower_c32 hX]
        rw [push32, IH]
        rfl
    · subst b
      refine each_ind (fun res => (name% "adder", .alias (name% "result")) :: (name% "result", .str .c32 (units32 res)) :: _)
        (fun cs res => K (.str .c32 (units32 (toLowerLoop (Unicode.toLowerChar v) cs res))) [none, none]) ?_ ?_ src []
      · intro res
        run
        rfl
      · intro c cs res IH
        run [each_cons, toLower_c32 hX]
        rw [push32, IH]
        rfl

end Ansak.Cpp
