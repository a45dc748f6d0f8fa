import Verif.Lemmas.Cpp.Tactic

/-! # Rules for executions -/

namespace Ansak.Cpp

/-- All natural numbers below this one are values of the type (but for `char` there are other rules). -/
def Ty.bound : Ty → Nat
  | .bool => 2
  | .char => 0
  | .uchar => 256
  | .c16 => 65536
  | .c32 => 4294967296
  | .wchar => 4294967296
  | .int => 2147483648
  | .uint => 4294967296
  | .long => 9223372036854775808
  | .ulong => 18446744073709551616
  | .enum _ => 2147483648

theorem bmod_nat {a m : Nat} (h : 2 * a < m) : Int.bmod (a : Int) m = a := by
  rw [Int.bmod_def]
  have e : (a : Int) % m = a := Int.emod_eq_of_lt (by omega) (by omega)
  rw [e, if_pos (by omega)]

theorem mod_nat {a : Nat} {m : Int} (h : (a : Int) < m) : (a : Int) % m = a :=
  Int.emod_eq_of_lt (by omega) h

theorem wrap_nat {t : Ty} {a : Nat} (sc : Bool) (h : a < t.bound) : t.wrap sc (a : Int) = a := by
  cases t with
  | bool =>
    simp only [Ty.bound] at h
    show (if (a : Int) = 0 then (0 : Int) else 1) = a
    split <;> omega
  | char =>
    simp only [Ty.bound] at h
    omega
  | uchar =>
    rw [Ty.wrap, Ty.signed, cond_false]
    · exact mod_nat (show _ < ((256 : Nat) : Int) from Int.ofNat_lt.2 h)
    · simp
    all_goals simp
  | c16 =>
    rw [Ty.wrap, Ty.signed, cond_false]
    · exact mod_nat (show _ < ((65536 : Nat) : Int) from Int.ofNat_lt.2 h)
    · simp
    all_goals simp
  | c32 =>
    rw [Ty.wrap, Ty.signed, cond_false]
    · exact mod_nat (show _ < ((4294967296 : Nat) : Int) from Int.ofNat_lt.2 h)
    · simp
    all_goals simp
  | wchar =>
    rw [Ty.wrap, Ty.signed, cond_false]
    · exact mod_nat (show _ < ((4294967296 : Nat) : Int) from Int.ofNat_lt.2 h)
    · simp
    all_goals simp
  | int =>
    rw [Ty.wrap, Ty.signed, cond_true]
    · exact bmod_nat (show _ < 4294967296 by simp only [Ty.bound] at h; omega)
    · simp
  | uint =>
    rw [Ty.wrap, Ty.signed, cond_false]
    · exact mod_nat (show _ < ((4294967296 : Nat) : Int) from Int.ofNat_lt.2 h)
    · simp
    all_goals simp
  | long =>
    rw [Ty.wrap, Ty.signed, cond_true]
    · exact bmod_nat (show _ < 18446744073709551616 by simp only [Ty.bound] at h; omega)
    · simp
  | ulong =>
    rw [Ty.wrap, Ty.signed, cond_false]
    · exact mod_nat (show _ < ((18446744073709551616 : Nat) : Int) from Int.ofNat_lt.2 h)
    · simp
    all_goals simp
  | enum n =>
    rw [Ty.wrap, Ty.signed, cond_true]
    · exact bmod_nat (show _ < 4294967296 by simp only [Ty.bound] at h; omega)
    · simp

theorem convert_nat {sc : Bool} {s t : Ty} {a : Nat} (h : a < t.bound) : convert sc s t (a : Int) = a := by
  unfold convert
  rw [wrap_nat sc h]
  cases t.includes sc s <;> rfl

theorem includes_refl (sc : Bool) (t : Ty) : t.includes sc t = true := by
  unfold Ty.includes
  exact decide_eq_true ⟨Int.le_refl _, Int.le_refl _⟩

theorem convert_self (sc : Bool) (t : Ty) (n : Int) : convert sc t t n = n := by
  unfold convert
  rw [includes_refl]; rfl

@[cpp_rule] theorem convertTo_self (sc : Bool) (t : Ty) (n : Int) (k : Int → Out) : convertTo sc t t n k = k n := by
  unfold convertTo; rw [convert_self]

@[cpp_rule] theorem convertTo_nat {sc : Bool} {s t : Ty} {a m : Nat} (k : Int → Out) (hm : t.bound = m) (h : a < m) :
    convertTo sc s t (a : Int) k = k a := by
  subst hm; unfold convertTo; rw [convert_nat h]

section
variable {sc : Bool} {s t u : Ty} {a b m : Nat} (k : Val → Out)

theorem binaryInt_nat {op : BinOp} (h : common (promote s) (promote t) = u) (hm : u.bound = m) (ha : a < m)
    (hb : b < m) (h1 : op ≠ .shl) (h2 : op ≠ .shr) :
    binaryInt sc op s (a : Int) t (b : Int) k = arithmetic op u (a : Int) (b : Int) k := by
  subst hm
  subst h
  unfold binaryInt
  rw [convert_nat ha, convert_nat hb]
  cases op <;> first | rfl | exact absurd rfl h1 | exact absurd rfl h2

@[cpp_rule] theorem eq_nat (h : common (promote s) (promote t) = u) (hm : u.bound = m) (ha : a < m)
    (hb : b < m) : binaryInt sc .eq s (a : Int) t (b : Int) k = k (ofBool (decide (a = b))) := by
  rw [binaryInt_nat k h hm ha hb (by decide) (by decide)]
  show k (ofBool (decide ((a : Int) = b))) = _
  simp only [Int.natCast_inj]

@[cpp_rule] theorem ne_nat (h : common (promote s) (promote t) = u) (hm : u.bound = m) (ha : a < m)
    (hb : b < m) : binaryInt sc .ne s (a : Int) t (b : Int) k = k (ofBool (!decide (a = b))) := by
  rw [binaryInt_nat k h hm ha hb (by decide) (by decide)]
  show k (ofBool (decide ((a : Int) ≠ b))) = _
  simp only [ne_eq, Int.natCast_inj, decide_not]

@[cpp_rule] theorem lt_nat (h : common (promote s) (promote t) = u) (hm : u.bound = m) (ha : a < m)
    (hb : b < m) : binaryInt sc .lt s (a : Int) t (b : Int) k = k (ofBool (decide (a < b))) := by
  rw [binaryInt_nat k h hm ha hb (by decide) (by decide)]
  show k (ofBool (decide ((a : Int) < b))) = _
  simp only [Int.ofNat_lt]

@[cpp_rule] theorem gt_nat (h : common (promote s) (promote t) = u) (hm : u.bound = m) (ha : a < m)
    (hb : b < m) : binaryInt sc .gt s (a : Int) t (b : Int) k = k (ofBool (decide (a > b))) := by
  rw [binaryInt_nat k h hm ha hb (by decide) (by decide)]
  show k (ofBool (decide ((a : Int) > b))) = _
  simp only [gt_iff_lt, Int.ofNat_lt]

@[cpp_rule] theorem le_nat (h : common (promote s) (promote t) = u) (hm : u.bound = m) (ha : a < m)
    (hb : b < m) : binaryInt sc .le s (a : Int) t (b : Int) k = k (ofBool (decide (a ≤ b))) := by
  rw [binaryInt_nat k h hm ha hb (by decide) (by decide)]
  show k (ofBool (decide ((a : Int) ≤ b))) = _
  simp only [Int.ofNat_le]

@[cpp_rule] theorem ge_nat (h : common (promote s) (promote t) = u) (hm : u.bound = m) (ha : a < m)
    (hb : b < m) : binaryInt sc .ge s (a : Int) t (b : Int) k = k (ofBool (decide (a ≥ b))) := by
  rw [binaryInt_nat k h hm ha hb (by decide) (by decide)]
  show k (ofBool (decide ((a : Int) ≥ b))) = _
  simp only [ge_iff_le, Int.ofNat_le]

/-- The common type of two types is one of these. -/
def Ty.wide (t : Ty) : Bool :=
  match t with
  | .int => true
  | .uint => true
  | .long => true
  | .ulong => true
  | _ => false

theorem common_wide (s t : Ty) : (common (promote s) (promote t)).wide = true := by
  cases s <;> cases t <;> rfl

theorem promote_wide (s : Ty) : (promote s).wide = true := by
  cases s <;> rfl

theorem wide_cases {P : Ty → Prop} (h1 : P .int) (h2 : P .uint) (h3 : P .long) (h4 : P .ulong) {t : Ty}
    (h : t.wide = true) : P t := by
  cases t <;> first | assumption | exact absurd h Bool.false_ne_true

theorem bits_nat {t : Ty} (h : t.wide = true) : a < t.bound → (t.bits (a : Int)).toNat = a := by
  have e : ∀ n, a < 2 ^ n → (BitVec.ofInt n (a : Int)).toNat = a := fun n h => by
    rw [BitVec.ofInt_natCast, BitVec.toNat_ofNat, Nat.mod_eq_of_lt h]
  refine wide_cases (P := fun t => a < t.bound → (t.bits (a : Int)).toNat = a) ?_ ?_ ?_ ?_ h <;>
    simp only [Ty.bound] <;> intro h
  · exact e 32 (by omega)
  · exact e 32 (by omega)
  · exact e 64 (by omega)
  · exact e 64 (by omega)

theorem ofBits_nat {t : Ty} (h : t.wide = true) :
    ∀ x : BitVec (8 * t.size), x.toNat < t.bound → t.ofBits x = x.toNat := by
  have e : ∀ n (x : BitVec n), 2 * x.toNat < 2 ^ n → x.toInt = x.toNat := fun n x h => by
    rw [BitVec.toInt_eq_toNat_bmod, bmod_nat h]
  refine wide_cases (P := fun t => ∀ x : BitVec (8 * t.size), x.toNat < t.bound → t.ofBits x = x.toNat)
    ?_ ?_ ?_ ?_ h <;> simp only [Ty.bound] <;> intro x h
  · exact e 32 x (show 2 * x.toNat < 2 ^ 32 by omega)
  · rfl
  · exact e 64 x (show 2 * x.toNat < 2 ^ 64 by omega)
  · rfl

@[cpp_rule] theorem bitAnd_nat (h : common (promote s) (promote t) = u) (hm : u.bound = m) (ha : a < m)
    (hb : b < m) : binaryInt sc .bitAnd s (a : Int) t (b : Int) k = k (.int u (a &&& b : Nat)) := by
  rw [binaryInt_nat k h hm ha hb (by decide) (by decide)]
  subst hm
  have hw := common_wide s t
  rw [h] at hw
  show k (.int u (u.ofBits (u.bits (a : Int) &&& u.bits (b : Int)))) = _
  have e : (u.bits (a : Int) &&& u.bits (b : Int)).toNat = a &&& b := by
    rw [BitVec.toNat_and, bits_nat hw ha, bits_nat hw hb]
  rw [ofBits_nat hw _ (by rw [e]; exact Nat.lt_of_le_of_lt Nat.and_le_left ha), e]

theorem or_bound {u : Ty} (hw : u.wide = true) : a < u.bound → b < u.bound → a ||| b < u.bound :=
  wide_cases (P := fun u => a < u.bound → b < u.bound → a ||| b < u.bound)
    (Nat.or_lt_two_pow (n := 31)) (Nat.or_lt_two_pow (n := 32)) (Nat.or_lt_two_pow (n := 63))
    (Nat.or_lt_two_pow (n := 64)) hw

@[cpp_rule] theorem bitOr_nat (h : common (promote s) (promote t) = u) (hm : u.bound = m) (ha : a < m)
    (hb : b < m) : binaryInt sc .bitOr s (a : Int) t (b : Int) k = k (.int u (a ||| b : Nat)) := by
  rw [binaryInt_nat k h hm ha hb (by decide) (by decide)]
  subst hm
  have hw := common_wide s t
  rw [h] at hw
  show k (.int u (u.ofBits (u.bits (a : Int) ||| u.bits (b : Int)))) = _
  have e : (u.bits (a : Int) ||| u.bits (b : Int)).toNat = a ||| b := by
    rw [BitVec.toNat_or, bits_nat hw ha, bits_nat hw hb]
  rw [ofBits_nat hw _ (by rw [e]; exact or_bound hw ha hb), e]

theorem arith_nat {u : Ty} (hw : u.wide = true) : a < u.bound → arith u (a : Int) k = k (.int u a) := by
  have e : ∀ (t : Ty) (p q : Int), p ≤ a → a ≤ q →
      (if p ≤ (a : Int) ∧ (a : Int) ≤ q then k (.int t a) else .ub) = k (.int t a) :=
    fun t p q h1 h2 => if_pos ⟨h1, h2⟩
  refine wide_cases (P := fun u => a < u.bound → arith u (a : Int) k = k (.int u a)) ?_ ?_ ?_ ?_ hw <;>
    simp only [Ty.bound] <;> intro h
  · exact e .int (-2 ^ 31) (2 ^ 31 - 1) (by omega) (by omega)
  · exact congrArg (fun n => k (.int .uint n)) (mod_nat (m := (4294967296 : Nat)) (by omega))
  · exact e .long (-2 ^ 63) (2 ^ 63 - 1) (by omega) (by omega)
  · exact congrArg (fun n => k (.int .ulong n)) (mod_nat (m := (18446744073709551616 : Nat)) (by omega))

@[cpp_rule] theorem add_nat (h : common (promote s) (promote t) = u) (hm : u.bound = m) (ha : a < m)
    (hb : b < m) (hab : a + b < m) : binaryInt sc .add s (a : Int) t (b : Int) k = k (.int u (a + b : Nat)) := by
  rw [binaryInt_nat k h hm ha hb (by decide) (by decide)]
  subst hm
  have hw := common_wide s t
  rw [h] at hw
  show arith u ((a : Int) + b) k = _
  rw [← Int.natCast_add, arith_nat k hw hab]

@[cpp_rule] theorem sub_nat (h : common (promote s) (promote t) = u) (hm : u.bound = m) (ha : a < m)
    (hb : b ≤ a) : binaryInt sc .sub s (a : Int) t (b : Int) k = k (.int u (a - b : Nat)) := by
  rw [binaryInt_nat k h hm ha (Nat.lt_of_le_of_lt hb ha) (by decide) (by decide)]
  subst hm
  have hw := common_wide s t
  rw [h] at hw
  show arith u ((a : Int) - b) k = _
  rw [← Int.natCast_sub hb, arith_nat k hw (by omega)]

/-- The number of bits of the values in which a number may be shifted. -/
theorem size_wide {u : Ty} (hw : u.wide = true) (hb : b < 32) : (0 : Int) ≤ b ∧ (b : Int) < 8 * (u.size : Int) := by
  refine wide_cases (P := fun u => (0 : Int) ≤ b ∧ (b : Int) < 8 * (u.size : Int)) ?_ ?_ ?_ ?_ hw <;>
    simp only [Ty.size] <;> omega

theorem bound_wide {u : Ty} (hw : u.wide = true) (hb : b < 32) : b < u.bound := by
  refine wide_cases (P := fun u => b < u.bound) ?_ ?_ ?_ ?_ hw <;> simp only [Ty.bound] <;> omega

@[cpp_rule] theorem shl_nat (h : promote s = u) (hm : u.bound = m) (hb : b < 32) (ha : a < m)
    (hab : a <<< b < m) : binaryInt sc .shl s (a : Int) t (b : Int) k = k (.int u (a <<< b : Nat)) := by
  have hw := promote_wide s
  rw [h] at hw
  subst hm
  show shift true (promote s) (convert sc s (promote s) (a : Int)) (convert sc t (promote t) (b : Int)) k = _
  have hp : b < (promote t).bound := bound_wide (promote_wide t) hb
  rw [h, convert_nat ha, convert_nat hp]
  unfold shift
  rw [if_pos (size_wide hw hb), cond_true, if_pos (by omega), Int.toNat_natCast]
  rw [show ((a : Int) * 2 ^ b) = ((a <<< b : Nat) : Int) by rw [Nat.shiftLeft_eq]; simp, arith_nat k hw hab]

@[cpp_rule] theorem shr_nat (h : promote s = u) (hm : u.bound = m) (hb : b < 32) (ha : a < m) :
    binaryInt sc .shr s (a : Int) t (b : Int) k = k (.int u (a >>> b : Nat)) := by
  have hw := promote_wide s
  rw [h] at hw
  subst hm
  show shift false (promote s) (convert sc s (promote s) (a : Int)) (convert sc t (promote t) (b : Int)) k = _
  have hp : b < (promote t).bound := bound_wide (promote_wide t) hb
  rw [h, convert_nat ha, convert_nat hp]
  unfold shift
  rw [if_pos (size_wide hw hb), cond_false, Int.toNat_natCast]
  rw [show ((a : Int) / 2 ^ b) = ((a >>> b : Nat) : Int) by rw [Nat.shiftRight_eq_div_pow]; simp]

end

@[cpp_rule] theorem truth_bit (t : Ty) (b : Bool) (k : Bool → Out) : truth (.int t (bit b)) k = k b := by
  cases b <;> rfl

@[cpp_rule] theorem truth_ofBool (b : Bool) (k : Bool → Out) : truth (ofBool b) k = k b := by
  cases b <;> rfl

@[cpp_rule] theorem truth_nat (t : Ty) (a : Nat) (k : Bool → Out) :
    truth (.int t (a : Int)) k = k (!decide (a = 0)) := by
  show k (decide ((a : Int) ≠ 0)) = _
  simp only [ne_eq, decide_not, Int.natCast_eq_zero]

@[cpp_rule] theorem truth_some (t : Ty) (p : List Int × Int) (k : Bool → Out) :
    truth (.ptr t (some p)) k = k true := rfl
@[cpp_rule] theorem truth_none (t : Ty) (k : Bool → Out) : truth (.ptr t none) k = k false := rfl

@[cpp_rule] theorem moved_nat (i n : Nat) (k : Int → Out) : moved (i : Int) (n : Int) k = k ((i + n : Nat) : Int) := by
  unfold moved; rw [Int.natCast_add]

@[cpp_rule] theorem movedBack_nat {i n : Nat} (k : Int → Out) (h : n ≤ i) :
    movedBack (i : Int) (n : Int) k = k ((i - n : Nat) : Int) := by
  unfold movedBack; rw [Int.natCast_sub h]

seal_rules

end Ansak.Cpp
