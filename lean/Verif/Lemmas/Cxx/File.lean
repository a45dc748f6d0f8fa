import Verif.Lemmas.Cxx.Sound3

/-!
# The check of a source file

`checkFile` compares a source file with translated functions; if it succeeds, calls of the functions of the file
return what the translated functions return.
-/

namespace Ansak.Cxx

open CExpr

def Tree.beq : Tree → Tree → Bool
  | .b s, .b t => B.beq s t
  | .v s, .v t => V.beq s t
  | _, _ => false

theorem Tree.beq_sound {s t : Tree} (h : Tree.beq s t = true) : s = t := by
  cases s <;> cases t
  · rw [B.beq_sound h]
  · cases h
  · cases h
  · rw [V.beq_sound h]

/-- A function of a file: its name, its types, and its translation. -/
structure Query where
  name : Nat
  arg : Ty
  ret : Ty
  tree : Tree

def Query.check (fs : List CFun) (q : Query) : Bool :=
  match fs.find? fun f => Nat.beq f.name q.name && f.arg.beq q.arg with
  | some f => f.ret.beq q.ret && Tree.beq f.tree q.tree
  | none => false

def allQueries (fs : List CFun) : List Query → Bool
  | [] => true
  | q :: qs => q.check fs && allQueries fs qs

/-- Constants with their values. -/
def allConstants (is : List Item) : List (Nat × Nat) → Bool
  | [] => true
  | (x, v) :: cs =>
    match constantOf x is with
    | some v' => Nat.beq v' v && allConstants is cs
    | none => false

/-- The functions of the file are the trees `ts`, among them those asked for; its constants are `cs`. -/
def checkFile (pieces : List Text) (ts : List Tree) (qs : List Query) (cs : List (Nat × Nat)) : Bool :=
  match parseAll pieces with
  | some is =>
    match checkItems is ts [] with
    | some fs => allQueries fs qs && allConstants is cs
    | none => false
  | none => false

theorem Ty.beq_sound {s t : Ty} (h : s.beq t = true) : s = t := by
  cases s <;> cases t <;> first | rfl | cases h

theorem allQueries_mem {fs : List CFun} {qs : List Query} (h : allQueries fs qs = true) {q : Query} (hq : q ∈ qs) :
    q.check fs = true := by
  induction qs with
  | nil => cases hq
  | cons p qs ih =>
    rw [allQueries, Bool.and_eq_true] at h
    cases hq with
    | head => exact h.1
    | tail _ hq => exact ih h.2 hq

theorem checkFile_sound {pieces : List Text} {ts : List Tree} {qs : List Query} {cs : List (Nat × Nat)}
    (h : checkFile pieces ts qs cs = true)
    (sc : Bool) {q : Query} (hq : q ∈ qs) : ∃ g f, Contract sc g f ∧ f.arg = q.arg ∧ f.ret = q.ret ∧ f.tree = q.tree ∧
      ∀ a, call sc pieces q.name q.arg a = g.run a := by
  unfold checkFile at h
  cases hp : parseAll pieces with
  | none => rw [hp] at h; cases h
  | some is =>
    rw [hp] at h
    simp only at h
    cases hc : checkItems is ts [] with
    | none => rw [hc] at h; cases h
    | some fs =>
      rw [hc] at h
      simp only [Bool.and_eq_true] at h
      have hpairs := checkItems_sound (sc := sc) is .nil hc
      have hqc := allQueries_mem h.1 hq
      unfold Query.check at hqc
      cases hf : fs.find? fun f => Nat.beq f.name q.name && f.arg.beq q.arg with
      | none => rw [hf] at hqc; cases hqc
      | some f =>
        rw [hf] at hqc
        simp only [Bool.and_eq_true] at hqc
        obtain ⟨g, hg, hgf⟩ := hpairs.find? (p := fun g => Nat.beq g.name q.name && g.arg.beq q.arg)
          (fun a b hab => by rw [hab.name, hab.arg]) hf
        have harg := List.find?_some hf
        rw [Bool.and_eq_true] at harg
        refine ⟨g, f, hgf, Ty.beq_sound harg.2, Ty.beq_sound hqc.1, Tree.beq_sound hqc.2, fun a => ?_⟩
        unfold call
        rw [hp, Option.bind_some, hg, Option.bind_some]

/-- A function that returns `bool`. -/
theorem call_bool {pieces : List Text} {ts : List Tree} {qs : List Query} {cs : List (Nat × Nat)}
    (h : checkFile pieces ts qs cs = true) (sc : Bool)
    {name : Nat} {arg : Ty} {t : B} (hq : ⟨name, arg, .bool, .b t⟩ ∈ qs) (w : Word) :
    call sc pieces name arg (convert sc w arg) =
      some (if t.eval (w.toNat % 2 ^ width arg) = true then 1 else 0) := by
  obtain ⟨g, f, hc, ha, hret, ht, hr⟩ := checkFile_sound h sc hq
  obtain ⟨_, hrun⟩ := hc.bool t ht
  have hw := hc.width
  rw [ha] at hrun hw
  rw [hr, hrun, repr_convert sc w hw]
  rfl

/-- A conversion depends only on the bits of the type. -/
theorem convert_congr {sc : Bool} {u v : Word} {ty : Ty} (hw : width ty ≤ 32)
    (h : u.toNat % 2 ^ width ty = v.toNat % 2 ^ width ty) : convert sc u ty = convert sc v ty := by
  have h8 : width ty = 8 → u.setWidth 8 = v.setWidth 8 := by
    intro hty
    apply BitVec.eq_of_toNat_eq
    rw [BitVec.toNat_setWidth, BitVec.toNat_setWidth, ← hty, h]
  have h16 : width ty = 16 → u.setWidth 16 = v.setWidth 16 := by
    intro hty
    apply BitVec.eq_of_toNat_eq
    rw [BitVec.toNat_setWidth, BitVec.toNat_setWidth, ← hty, h]
  have h32 : width ty = 32 → u = v := by
    intro hty
    apply BitVec.eq_of_toNat_eq
    have := u.isLt
    have := v.isLt
    rw [hty] at h
    omega
  cases ty with
  | bool => exact absurd hw (by decide)
  | int => exact absurd hw (by decide)
  | char => unfold convert; rw [h8 rfl]
  | uchar => unfold convert; rw [h8 rfl]
  | c16 => unfold convert; rw [h16 rfl]
  | c32 => exact h32 rfl
  | uint => exact h32 rfl

/-- A function that returns a character. -/
theorem call_char {pieces : List Text} {ts : List Tree} {qs : List Query} {cs : List (Nat × Nat)}
    (h : checkFile pieces ts qs cs = true) (sc : Bool)
    {name : Nat} {arg ret : Ty} {t : V} (hq : ⟨name, arg, ret, .v t⟩ ∈ qs) (w : Word) :
    call sc pieces name arg (convert sc w arg) =
      some (convert sc (BitVec.ofNat 32 (t.eval (w.toNat % 2 ^ width arg))) ret) := by
  obtain ⟨g, f, hc, ha, hret, ht, hr⟩ := checkFile_sound h sc hq
  obtain ⟨hwr, hrun⟩ := hc.char t ht
  have hw := hc.width
  rw [ha] at hrun hw
  rw [hret] at hrun hwr
  obtain ⟨r, ⟨u, hu⟩, h1, h2, h3⟩ := hrun w
  rw [hr, h1, hu]
  congr 1
  apply convert_congr hwr
  rw [hu, repr_convert sc _ hwr, repr_convert sc _ hw] at h2
  rw [h2, BitVec.toNat_ofNat, mod_mod_two_pow _ hwr, ← h2]
  exact (Nat.mod_mod _ _).symm

theorem allConstants_mem {is : List Item} {cs : List (Nat × Nat)} (h : allConstants is cs = true) {x v : Nat}
    (hx : (x, v) ∈ cs) : constantOf x is = some v := by
  induction cs with
  | nil => cases hx
  | cons c cs ih =>
    obtain ⟨y, w⟩ := c
    rw [allConstants] at h
    cases hc : constantOf y is with
    | none => rw [hc] at h; cases h
    | some w' =>
      rw [hc] at h
      simp only [Bool.and_eq_true] at h
      cases hx with
      | head => rw [hc, Nat.eq_of_beq_eq_true h.1]
      | tail _ hx => exact ih h.2 hx

/-- A constant. -/
theorem constant_eq {pieces : List Text} {ts : List Tree} {qs : List Query} {cs : List (Nat × Nat)}
    (h : checkFile pieces ts qs cs = true) {x v : Nat} (hx : (x, v) ∈ cs) : constant pieces x = some v := by
  unfold checkFile at h
  cases hp : parseAll pieces with
  | none => rw [hp] at h; cases h
  | some is =>
    rw [hp] at h
    simp only at h
    cases hc : checkItems is ts [] with
    | none => rw [hc] at h; cases h
    | some fs =>
      rw [hc] at h
      simp only [Bool.and_eq_true] at h
      unfold constant
      rw [hp, Option.bind_some]
      exact allConstants_mem h.2 hx

end Ansak.Cxx
