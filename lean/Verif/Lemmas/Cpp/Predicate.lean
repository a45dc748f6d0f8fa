import Verif.Lemmas.Cpp.Internal
import Verif.Model.StringIs

/-! # `EncodingCheckPredicate`, executed from its syntax trees -/

namespace Ansak.Cpp

variable {E : Sealed} {X : Externals} {sc : Bool} {r d : Nat} {K : Val → List (Option Val) → Out} {w : Bool} {s : List Int}

/-! ## Rules for numbers that can be negative -/

section
variable {k : Val → Out}

theorem convert_enum_int (sc : Bool) (x : Nat) (t : Int) : convert sc (.enum x) .int t = t := by
  unfold convert
  rw [show Ty.includes sc .int (.enum x) = true from decide_eq_true ⟨Int.le_refl _, Int.le_refl _⟩]; rfl

@[cpp_rule] theorem lt_enum (x y : Nat) (a b : Int) :
    binaryInt sc .lt (.enum x) a (.enum y) b k = k (ofBool (decide (a < b))) := by
  show arithmetic .lt .int (convert sc (.enum x) .int a) (convert sc (.enum y) .int b) k = _
  rw [convert_enum_int, convert_enum_int]; rfl

@[cpp_rule] theorem gt_enum (x y : Nat) (a b : Int) :
    binaryInt sc .gt (.enum x) a (.enum y) b k = k (ofBool (decide (a > b))) := by
  show arithmetic .gt .int (convert sc (.enum x) .int a) (convert sc (.enum y) .int b) k = _
  rw [convert_enum_int, convert_enum_int]; rfl

@[cpp_rule] theorem complement_uint {a : Nat} (h : a < 4294967296) :
    complement sc .uint (a : Int) k = k (.int .uint (4294967295 - a : Nat)) := by
  unfold complement
  have e : convert sc .long .uint (-(a : Int) - 1) = ((4294967295 - a : Nat) : Int) := by
    unfold convert
    rw [show Ty.includes sc .uint .long = false from by cases sc <;> decide +kernel]
    show (-(a : Int) - 1) % ((4294967296 : Nat) : Int) = _
    omega
  rw [show promote .uint = .uint from rfl, convert_self, e]

theorem read_encodingFlags {k : Int → Out} {t : Nat} (h : t < 5) :
    read [0, 1, 2, 4, 8] (t : Int) k = k ((Ansak.encodingTypeToEncodingFlag t : Nat) : Int) := by
  have : t = 0 ∨ t = 1 ∨ t = 2 ∨ t = 3 ∨ t = 4 := by omega
  rcases this with rfl | rfl | rfl | rfl | rfl <;> rfl

theorem read_rangeFlags {k : Int → Out} {t : Nat} (h : t < 6) :
    read [1, 2, 4, 8, 16, 32] (t : Int) k = k ((Ansak.rangeTypeToRangeFlag t : Nat) : Int) := by
  have : t = 0 ∨ t = 1 ∨ t = 2 ∨ t = 3 ∨ t = 4 ∨ t = 5 := by omega
  rcases this with rfl | rfl | rfl | rfl | rfl | rfl <;> rfl

attribute [cpp_rule] read_encodingFlags read_rangeFlags

end

seal_rules

/-! ## Functions that are defined elsewhere -/

/-- A call of a function that is defined elsewhere. -/
theorem call_external (E : Sealed) {P : Program} {cls name : Nat} {f : Fun} {t q : Ty} {x : Nat} {e : Option Expr}
    {n m : Int} (h : resolve P.funs cls name [.int t n] = some f) (hb : f.body = none)
    (hp : f.params = [⟨.prim t, x, e⟩]) (hr : f.ret = .prim q) (hx : X.fn f.name t n = some m) :
    E.call P X sc r (d + 1) cls name [.int t n] K = K (.int q m) [none] := by
  rw [E.call_eq, Program.call, h]
  show (match f.body with | some body => _ | none => _) = _
  rw [hb]
  show f.external X sc [.int t n] K = _
  unfold Fun.external
  rw [hp, hr]
  show (match X.fn f.name t (convert sc t t n) with | some m => _ | none => _) = _
  rw [convert_self, hx]

/-- What is known about the functions that are defined elsewhere: the classification of characters and the lower
case. -/
structure Externals.Are (X : Externals) (sc : Bool) (U : CharClass) (lower turkic : U32 → U32) : Prop where
  assigned16 : ∀ c : U16, X.fn (name% "isUnicodeAssigned") .c16 c.toNat = some (bit (U.assigned16 c.toNat))
  assigned32 : ∀ c : U32, X.fn (name% "isUnicodeAssigned") .c32 c.toNat = some (bit (U.assigned32 c.toNat))
  private16 : ∀ c : U16, X.fn (name% "isUnicodePrivate") .c16 c.toNat = some (bit (U.private16 c.toNat))
  private32 : ∀ c : U32, X.fn (name% "isUnicodePrivate") .c32 c.toNat = some (bit (U.private32 c.toNat))
  control8 : ∀ c : Byte, X.fn (name% "isControlChar") .char (charVal sc c) = some (bit (U.control8 c.toNat))
  control16 : ∀ c : U16, X.fn (name% "isControlChar") .c16 c.toNat = some (bit (U.control16 c.toNat))
  control32 : ∀ c : U32, X.fn (name% "isControlChar") .c32 c.toNat = some (bit (U.control32 c.toNat))
  white8 : ∀ c : Byte, X.fn (name% "isWhitespaceChar") .char (charVal sc c) = some (bit (U.white8 c.toNat))
  white16 : ∀ c : U16, X.fn (name% "isWhitespaceChar") .c16 c.toNat = some (bit (U.white16 c.toNat))
  white32 : ∀ c : U32, X.fn (name% "isWhitespaceChar") .c32 c.toNat = some (bit (U.white32 c.toNat))
  lower : ∀ c : U32, X.fn (name% "toLower") .c32 c.toNat = some ((lower c).toNat : Int)
  turkic : ∀ c : U32, X.fn (name% "turkicToLower") .c32 c.toNat = some ((turkic c).toNat : Int)

variable {U : CharClass} {lower turkic : U32 → U32}

theorem isUnicodeAssigned_c16 (hX : X.Are sc U lower turkic) (c : U16) :
    call% (d + 1) "isUnicodeAssigned" [.int .c16 c.toNat] K = K (ofBool (U.assigned16 c.toNat)) [none] :=
  call_external E (f := Ast.isUnicodeAssigned_16) (by kernel_rfl) rfl rfl rfl (hX.assigned16 c)

theorem isUnicodeAssigned_c32 (hX : X.Are sc U lower turkic) (c : U32) :
    call% (d + 1) "isUnicodeAssigned" [.int .c32 c.toNat] K = K (ofBool (U.assigned32 c.toNat)) [none] :=
  call_external E (f := Ast.isUnicodeAssigned_32) (by kernel_rfl) rfl rfl rfl (hX.assigned32 c)

theorem isUnicodePrivate_c16 (hX : X.Are sc U lower turkic) (c : U16) :
    call% (d + 1) "isUnicodePrivate" [.int .c16 c.toNat] K = K (ofBool (U.private16 c.toNat)) [none] :=
  call_external E (f := Ast.isUnicodePrivate_16) (by kernel_rfl) rfl rfl rfl (hX.private16 c)

theorem isUnicodePrivate_c32 (hX : X.Are sc U lower turkic) (c : U32) :
    call% (d + 1) "isUnicodePrivate" [.int .c32 c.toNat] K = K (ofBool (U.private32 c.toNat)) [none] :=
  call_external E (f := Ast.isUnicodePrivate_32) (by kernel_rfl) rfl rfl rfl (hX.private32 c)

theorem isControlChar_char (hX : X.Are sc U lower turkic) (c : Byte) :
    call% (d + 1) "isControlChar" [.int .char (charVal sc c)] K = K (ofBool (U.control8 c.toNat)) [none] :=
  call_external E (f := Ast.isControlChar_8) (by kernel_rfl) rfl rfl rfl (hX.control8 c)

theorem isControlChar_c16 (hX : X.Are sc U lower turkic) (c : U16) :
    call% (d + 1) "isControlChar" [.int .c16 c.toNat] K = K (ofBool (U.control16 c.toNat)) [none] :=
  call_external E (f := Ast.isControlChar_16) (by kernel_rfl) rfl rfl rfl (hX.control16 c)

theorem isControlChar_c32 (hX : X.Are sc U lower turkic) (c : U32) :
    call% (d + 1) "isControlChar" [.int .c32 c.toNat] K = K (ofBool (U.control32 c.toNat)) [none] :=
  call_external E (f := Ast.isControlChar_32) (by kernel_rfl) rfl rfl rfl (hX.control32 c)

theorem isWhitespaceChar_char (hX : X.Are sc U lower turkic) (c : Byte) :
    call% (d + 1) "isWhitespaceChar" [.int .char (charVal sc c)] K = K (ofBool (U.white8 c.toNat)) [none] :=
  call_external E (f := Ast.isWhitespaceChar_8) (by kernel_rfl) rfl rfl rfl (hX.white8 c)

theorem isWhitespaceChar_c16 (hX : X.Are sc U lower turkic) (c : U16) :
    call% (d + 1) "isWhitespaceChar" [.int .c16 c.toNat] K = K (ofBool (U.white16 c.toNat)) [none] :=
  call_external E (f := Ast.isWhitespaceChar_16) (by kernel_rfl) rfl rfl rfl (hX.white16 c)

theorem isWhitespaceChar_c32 (hX : X.Are sc U lower turkic) (c : U32) :
    call% (d + 1) "isWhitespaceChar" [.int .c32 c.toNat] K = K (ofBool (U.white32 c.toNat)) [none] :=
  call_external E (f := Ast.isWhitespaceChar_32) (by kernel_rfl) rfl rfl rfl (hX.white32 c)

theorem toLower_c32 (hX : X.Are sc U lower turkic) (c : U32) :
    call% (d + 1) "toLower" [.int .c32 c.toNat] K = K (.int .c32 (lower c).toNat) [none] :=
  call_external E (f := Ast.toLower_32) (by kernel_rfl) rfl rfl rfl (hX.lower c)

theorem turkicToLower_c32 (hX : X.Are sc U lower turkic) (c : U32) :
    call% (d + 1) "turkicToLower" [.int .c32 c.toNat] K = K (.int .c32 (turkic c).toNat) [none] :=
  call_external E (f := Ast.turkicToLower_32) (by kernel_rfl) rfl rfl rfl (hX.turkic c)

/-! ## Classes of characters -/

theorem isUnicodeAssigned_char (c : Byte) :
    call% (d + 1) "isUnicodeAssigned" [.int .char (charVal sc c)] K = K (ofBool true) [none] := by
  enter Ast.isUnicodeAssigned_8
  run
  rfl

theorem isUnicodePrivate_char (c : Byte) :
    call% (d + 1) "isUnicodePrivate" [.int .char (charVal sc c)] K = K (ofBool false) [none] := by
  enter Ast.isUnicodePrivate_8
  run
  rfl

theorem charToEncodingTypeMask_c16 (hX : X.Are sc U lower turkic) (c : U16) :
    call% (d + 2) "charToEncodingTypeMask" [.int .c16 c.toNat] K =
    K (.int .uint (charToEncodingTypeMask16 U c.toNat).toNat) [none] := by
  enter Ast.charToEncodingTypeMask with .c16
  run [isUnicodeAssigned_c16 hX, isUnicodePrivate_c16 hX, isControlChar_c16 hX, isWhitespaceChar_c16 hX]
  all_goals
    simp only [charToEncodingTypeMask16, *]
    rfl

theorem charToEncodingTypeMask_c32 (hX : X.Are sc U lower turkic) (c : U32) :
    call% (d + 2) "charToEncodingTypeMask" [.int .c32 c.toNat] K =
    K (.int .uint (charToEncodingTypeMask32 U c.toNat).toNat) [none] := by
  enter Ast.charToEncodingTypeMask with .c32
  run [isUnicodeAssigned_c32 hX, isUnicodePrivate_c32 hX, isControlChar_c32 hX, isWhitespaceChar_c32 hX]
  all_goals
    simp only [charToEncodingTypeMask32, *]
    rfl

theorem charToEncodingTypeMask_char (hX : X.Are sc U lower turkic) (c : Byte) :
    call% (d + 2) "charToEncodingTypeMask" [.int .char (charVal sc c)] K =
    K (.int .uint (charToEncodingTypeMask8 U c.toNat).toNat) [none] := by
  enter Ast.charToEncodingTypeMask with .char
  run [isUnicodeAssigned_char, isUnicodePrivate_char, isControlChar_char hX, isWhitespaceChar_char hX]
  all_goals
    simp only [charToEncodingTypeMask8, *]
    rfl

/-! ## Predicates -/

/-- A predicate as an object. -/
abbrev predVal (p : Pred) : Val :=
  .obj (name% "EncodingCheckPredicate") [(name% "m_mask", .uint, p.mask.toNat), (name% "m_value", .uint, p.value.toNat)]

set_option hygiene false in
/-- A call of a member function of `EncodingCheckPredicate`. -/
macro "pcall% " d:term:max n:str vs:term:max K:term:max : term =>
  `(E.call (Ast.program w s) X sc r $d (name% "EncodingCheckPredicate") (name% $n) $vs $K)

/-- The type of `EncodingType` values. -/
abbrev encodingType (t : Int) : Val := .int (.enum (name% "EncodingType")) t

theorem pred_eq (p q : Pred) :
    p.eq q = (decide (p.mask.toNat = q.mask.toNat) && decide (p.value.toNat = q.value.toNat)) := by
  rw [Bool.eq_iff_iff]
  simp [Pred.eq, BitVec.toNat_eq]

theorem pred_test (p : Pred) (m : U32) :
    p.test m = if p.mask.toNat = 0 then true else decide (m.toNat &&& p.mask.toNat = p.value.toNat) := by
  have : (p.mask = 0) = (p.mask.toNat = 0) := by simp [BitVec.toNat_eq]
  rw [Pred.test]
  simp only [this]
  split
  · rfl
  · rw [Bool.eq_iff_iff]; simp [BitVec.toNat_eq, BitVec.toNat_and]

theorem construct_default : pcall% (d + 1) "EncodingCheckPredicate" [] K = K (predVal Pred.none) [] := by
  enter Ast.construct
  run
  rfl

theorem construct_check (t : Int) (b : Bool) :
    pcall% (d + 1) "EncodingCheckPredicate" [encodingType t, .int .bool (bit b)] K = K (predVal (Pred.mk' t b)) [] := by
  enter Ast.construct_E
  by_cases h1 : t > 0 ∧ t < 5
  · obtain ⟨n, rfl⟩ : ∃ n : Nat, t = n := ⟨t.toNat, by omega⟩
    have hn : n = 1 ∨ n = 2 ∨ n = 3 ∨ n = 4 := by omega
    have hf : Ansak.encodingTypeToEncodingFlag n < 4294967296 := by
      rcases hn with rfl | rfl | rfl | rfl <;> decide
    run
    all_goals
      simp only [*]
      rcases hn with rfl | rfl | rfl | rfl <;> rfl
  · run
    all_goals
      rw [Pred.mk', if_neg (show ¬ (t > kIsNone ∧ t < kFirstInvalidEncoding) from h1)]
      rfl

theorem construct_checkFor (t : Int) :
    pcall% (d + 1) "EncodingCheckPredicate" [encodingType t] K = K (predVal (Pred.mk' t)) [] := by
  enter Ast.construct_E
  by_cases h1 : t > 0 ∧ t < 5
  · obtain ⟨n, rfl⟩ : ∃ n : Nat, t = n := ⟨t.toNat, by omega⟩
    have hn : n = 1 ∨ n = 2 ∨ n = 3 ∨ n = 4 := by omega
    have hf : Ansak.encodingTypeToEncodingFlag n < 4294967296 := by
      rcases hn with rfl | rfl | rfl | rfl <;> decide
    run
    all_goals
      rcases hn with rfl | rfl | rfl | rfl <;> rfl
  · run
    all_goals
      rw [Pred.mk', if_neg (show ¬ (t > kIsNone ∧ t < kFirstInvalidEncoding) from h1)]
      rfl

theorem andIf_call (p : Pred) (t : Int) :
    pcall% (d + 2) "andIf" [predVal p, encodingType t] K =
    K (predVal (p.andIf t)) [some (predVal (p.andIf t)), none] := by
  enter Ast.andIf_E
  run [construct_checkFor]
  simp only [Pred.andIf, predVal, BitVec.toNat_or]

theorem andIfNot_call (p : Pred) (t : Int) :
    pcall% (d + 2) "andIfNot" [predVal p, encodingType t] K =
    K (predVal (p.andIfNot t)) [some (predVal (p.andIfNot t)), none] := by
  enter Ast.andIfNot_E
  run [construct_check]
  simp only [Pred.andIfNot, predVal, BitVec.toNat_or]

theorem equals_call (p q : Pred) :
    pcall% (d + 1) "operator==" [predVal p, predVal q] K = K (ofBool (p.eq q)) [some (predVal p), none] := by
  enter Ast.equals_Pred
  run
  · rw [pred_eq, decide_eq_true h]; rfl
  · rw [pred_eq, decide_eq_false h]; rfl

/-- An object is compared with itself. -/
theorem equals_itself (p : Pred) :
    pcall% (d + 1) "operator==" [predVal p, .self] K = K (ofBool true) [some (predVal p), none] := by
  enter Ast.equals_Pred
  run
  rfl

/-- The same for the predicate that asks for nothing. -/
theorem equals_none (p : Pred) :
    pcall% (d + 1) "operator==" [predVal p, .obj (name% "EncodingCheckPredicate")
      [(name% "m_mask", .uint, ((0 : Nat) : Int)), (name% "m_value", .uint, ((0 : Nat) : Int))]] K =
    K (ofBool (p.eq Pred.none)) [some (predVal p), none] :=
  equals_call p Pred.none

theorem apply_char (hX : X.Are sc U lower turkic) (p : Pred) (c : Byte) :
    pcall% (d + 3) "operator()" [predVal p, .int .char (charVal sc c)] K =
    K (ofBool (p.call8 U c.toNat)) [some (predVal p), none] := by
  enter Ast.apply_8
  run [charToEncodingTypeMask_char hX]
  · rw [Pred.call8, pred_test, if_pos (by assumption)]; rfl
  · rw [Pred.call8, pred_test, if_neg (by assumption)]; rfl

theorem apply_c16 (hX : X.Are sc U lower turkic) (p : Pred) (c : U16) :
    pcall% (d + 3) "operator()" [predVal p, .int .c16 c.toNat] K =
    K (ofBool (p.call16 U c.toNat)) [some (predVal p), none] := by
  enter Ast.apply_16
  run [charToEncodingTypeMask_c16 hX]
  · rw [Pred.call16, pred_test, if_pos (by assumption)]; rfl
  · rw [Pred.call16, pred_test, if_neg (by assumption)]; rfl

theorem apply_c32 (hX : X.Are sc U lower turkic) (p : Pred) (c : U32) :
    pcall% (d + 3) "operator()" [predVal p, .int .c32 c.toNat] K =
    K (ofBool (p.call32 U c.toNat)) [some (predVal p), none] := by
  enter Ast.apply_32
  run [charToEncodingTypeMask_c32 hX]
  · rw [Pred.call32, pred_test, if_pos (by assumption)]; rfl
  · rw [Pred.call32, pred_test, if_neg (by assumption)]; rfl

/-! ## `validIf` and `validIfNot` -/

theorem checkIf_call (t : Int) : call% (d + 2) "checkIf" [encodingType t] K = K (predVal (Pred.validIf t)) [none] := by
  enter Ast.checkIf_E
  run [construct_checkFor]
  rfl

theorem checkIfNot_call (t : Int) :
    call% (d + 2) "checkIfNot" [encodingType t] K = K (predVal (Pred.validIfNot t)) [none] := by
  enter Ast.checkIfNot_E
  run [construct_check]
  rfl

theorem validIf_call (t : Int) : call% (d + 3) "validIf" [encodingType t] K = K (predVal (Pred.validIf t)) [none] := by
  enter Ast.validIf_E
  run [checkIf_call]
  rfl

theorem validIfNot_call (t : Int) :
    call% (d + 3) "validIfNot" [encodingType t] K = K (predVal (Pred.validIfNot t)) [none] := by
  enter Ast.validIfNot_E
  run [checkIfNot_call]
  rfl

end Ansak.Cpp
