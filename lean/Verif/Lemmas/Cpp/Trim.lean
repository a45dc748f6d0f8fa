import Verif.Model.Trim
import Verif.Lemmas.Cpp.Api

/-! # `trim`, executed from its syntax tree -/

namespace Ansak.Cpp

variable {E : Sealed} {X : Externals} {sc : Bool} {r d : Nat} {K : Val → List (Option Val) → Out} {w : Bool} {s : List Int}

/-- The types of characters of strings. -/
def Ty.isChar : Ty → Bool
  | .char => true
  | .c16 => true
  | .c32 => true
  | _ => false

theorem isChar_cases {P : Ty → Prop} (h1 : P .char) (h2 : P .c16) (h3 : P .c32) {t : Ty} (h : t.isChar = true) : P t := by
  cases t <;> first | assumption | exact absurd h Bool.false_ne_true

/-- Two characters are equal if their numbers are. -/
theorem eq_chars (E : Sealed) {t : Ty} (ht : t.isChar = true) (a b : Int) (k : Val → Out) :
    E.binaryInt sc .eq t a t b k = k (ofBool (decide (a = b))) := by
  rw [E.binaryInt_eq]
  refine isChar_cases (P := fun t => binaryInt sc .eq t a t b k = k (ofBool (decide (a = b)))) ?_ ?_ ?_ ht
  · show k (ofBool (decide (convert sc .char .int a = convert sc .char .int b))) = _
    rw [convert_char_int, convert_char_int]
  · rfl
  · rfl

theorem space_to (E : Sealed) {t : Ty} (ht : t.isChar = true) (k : Int → Out) :
    E.convertTo sc .char t ((32 : Nat) : Int) k = k ((32 : Nat) : Int) := by
  rw [E.convertTo_eq]
  refine isChar_cases (P := fun t => convertTo sc .char t ((32 : Nat) : Int) k = k ((32 : Nat) : Int)) ?_ ?_ ?_ ht
  · exact convertTo_self sc .char _ k
  · exact convertTo_nat (m := 65536) k rfl (by decide)
  · exact convertTo_nat (m := 4294967296) k rfl (by decide)

theorem same_self (t : Ty) : t.same t = true := by
  cases t <;> first | rfl | exact Nat.beq_refl _

theorem read_at (E : Sealed) {buf : List Int} {i : Nat} {c : Int} (h : buf[i]? = some c) (k : Int → Out) :
    E.read buf (i : Int) k = k c := by
  rw [E.read_eq]
  exact read_some k h

/-- The last character of a string, and what is left without it. -/
theorem last_char {L : List Int} (h : L.isEmpty = false) : ∃ c, (L.append [0])[L.length - 1]? = some c ∧
    L.getLast? = some c ∧ 1 ≤ L.length ∧ L.take ((L.length - 1 : Nat) : Int).toNat = L.dropLast := by
  rcases List.eq_nil_or_concat L with rfl | ⟨L, c, rfl⟩
  · nomatch h
  · rw [List.concat_eq_append]
    refine ⟨c, ?_, by simp, by simp, ?_⟩
    · show ((L ++ [c]) ++ [0])[(L ++ [c]).length - 1]? = _
      simp
    · rw [Int.toNat_natCast, List.dropLast_eq_take]

/-- The first character of a string, and what is left without it. -/
theorem first_char {L : List Int} (h : L.isEmpty = false) : ∃ c L', (L.append [0])[(0 : Nat)]? = some c ∧
    L = c :: L' ∧ without L ((0 : Nat) : Int).toNat ((1 : Nat) : Int).toNat = L' := by
  cases L with
  | nil => nomatch h
  | cons c L => exact ⟨c, L, rfl, rfl, rfl⟩

theorem trimBack_last {α : Type} {p : α → Bool} {L : List α} {c : α} (h : L.getLast? = some c) :
    trimBack p L = if p c then trimBack p L.dropLast else L := by
  rw [trimBack]
  split
  · rename_i h'; rw [h] at h'; nomatch h'
  · rename_i h'; rw [h] at h'; cases h'; rfl

theorem trimBack_nil {α : Type} {p : α → Bool} : trimBack p [] = [] := by rw [trimBack]; rfl

set_option hygiene false in
/-- The proof that a `trim` is right: the type of characters, the condition, other rules. -/
macro "trims " q:term:max t:term:max b:term:max "[" ts:term,* "]" : tactic => `(tactic| (
  obtain ⟨r, rfl⟩ : ∃ q, r = q + 1 := ⟨r - 1, by omega⟩
  run
  induct [L] (fun L => [(name% "victim", Val.str $t L)])
    (fun L => K .void (some (.str $t (trimFront (fun c : Int => $q) (trimBack (fun c : Int => $q) L))) ::  $b))
    (fun L => L.length) (fun L => L.length < 18446744073709551615 ∧ L.length < r + 1)
  · intro n L h IH
    cases he : L.isEmpty with
    | true =>
      run1 [rounds_succ E]
      show E.rounds _ _ _ (r + 1) _ _ = _
      run1 [rounds_succ E]
      rw [List.isEmpty_iff] at he
      subst he
      rw [trimBack_nil]
      rfl
    | false =>
      obtain ⟨c, hc, hl, h1, hd⟩ := last_char he
      run1 [rounds_succ E, eq_chars E (t := $t) rfl, space_to E (t := $t) rfl, read_at E, $ts,*]
      rw [trimBack_last hl]
      by_cases hp : $q = true
      · rw [hp, if_pos rfl, Follow.branch_true E rfl]
        run1
        rw [hd]
        exact IH _ ⟨by rw [List.length_dropLast]; omega, by rw [List.length_dropLast]; omega⟩
          (by rw [List.length_dropLast]; omega)
      · rw [if_neg hp, Follow.eq_false_of_not hp, Follow.branch_false E rfl]
        run
        induct [L] (fun L => [(name% "victim", Val.str $t L)])
          (fun L => K .void (some (.str $t (trimFront (fun c : Int => $q) L)) ::  $b))
          (fun L => L.length) (fun L => L.length < 18446744073709551615)
        · intro n L h IH
          cases he : L.isEmpty with
          | true =>
            run1 [rounds_succ E]
            rw [List.isEmpty_iff] at he
            subst he
            rfl
          | false =>
            obtain ⟨c, L', hc, hl, hd⟩ := first_char he
            run1 [rounds_succ E, eq_chars E (t := $t) rfl, space_to E (t := $t) rfl, read_at E, $ts,*]
            by_cases hp : $q = true
            · rw [hp, Follow.branch_true E rfl]
              run1
              rw [hd]
              subst hl
              rw [trimFront, if_pos hp]
              simp only [List.length_cons] at h IH
              exact IH _ (by omega) (by omega)
            · rw [Follow.eq_false_of_not hp, Follow.branch_false E rfl]
              run
              rw [hl, trimFront, if_neg hp]
        · exact h.1
        · exact h.2
        · rfl
  · exact ⟨h, hr⟩
  · exact hr
  · rfl))

/-- `spaces.find_first_of(c) != npos` -/
theorem found (E : Sealed) {S : List Int} (h : S.length < 18446744073709551615) (c : Int) (k : Val → Out) :
    E.binaryInt sc .ne .ulong ((position S c (nat_lit 0) : Nat) : Int) .ulong
        ((nat_lit 18446744073709551615 : Nat) : Int) k = k (ofBool (decide (c ∈ S))) := by
  rw [E.binaryInt_eq]
  show k (ofBool (decide (((position S c 0 : Nat) : Int) ≠ ((npos : Nat) : Int)))) = _
  refine congrArg (fun b => k (ofBool b)) ?_
  rw [decide_eq_decide]
  unfold position
  rw [List.drop_zero]
  split
  · rename_i j hj
    rw [List.findIdx?_eq_some_iff_getElem] at hj
    obtain ⟨hl, hp, _⟩ := hj
    refine ⟨fun _ => ?_, fun _ => ?_⟩
    · rw [← of_decide_eq_true hp]; exact List.getElem_mem hl
    · rw [npos]; omega
  · rename_i hj
    rw [List.findIdx?_eq_none_iff] at hj
    refine ⟨fun h => absurd rfl h, fun hm _ => ?_⟩
    exact absurd (hj c hm) (by simp)

theorem trim_char (L : List Int) (h : L.length < 18446744073709551615) (hr : L.length < r) :
    call% (d + 1) "trim" [.str .char L] K =
      K .void [some (.str .char (trimFront (fun c => decide (c = 32)) (trimBack (fun c => decide (c = 32)) L)))] := by
  enter Ast.trim_V with .char
  trims (decide (c = ((nat_lit 32 : Nat) : Int))) .char [] []

theorem trimOf_char (L S : List Int) (h : L.length < 18446744073709551615) (hs : S.length < 18446744073709551615)
    (hr : L.length < r) :
    call% (d + 1) "trim" [.str .char L, .str .char S] K =
      K .void [some (.str .char (trimFront (fun c => decide (c ∈ S)) (trimBack (fun c => decide (c ∈ S)) L))), none] := by
  enter Ast.trim_V_S with .char
  trims (decide (c ∈ S)) .char [none] [found E hs]

theorem trim_c16 (L : List Int) (h : L.length < 18446744073709551615) (hr : L.length < r) :
    call% (d + 1) "trim" [.str .c16 L] K =
      K .void [some (.str .c16 (trimFront (fun c => decide (c = 32)) (trimBack (fun c => decide (c = 32)) L)))] := by
  enter Ast.trim_V with .c16
  trims (decide (c = ((nat_lit 32 : Nat) : Int))) .c16 [] []

theorem trimOf_c16 (L S : List Int) (h : L.length < 18446744073709551615) (hs : S.length < 18446744073709551615)
    (hr : L.length < r) :
    call% (d + 1) "trim" [.str .c16 L, .str .c16 S] K =
      K .void [some (.str .c16 (trimFront (fun c => decide (c ∈ S)) (trimBack (fun c => decide (c ∈ S)) L))), none] := by
  enter Ast.trim_V_S with .c16
  trims (decide (c ∈ S)) .c16 [none] [found E hs]

theorem trim_c32 (L : List Int) (h : L.length < 18446744073709551615) (hr : L.length < r) :
    call% (d + 1) "trim" [.str .c32 L] K =
      K .void [some (.str .c32 (trimFront (fun c => decide (c = 32)) (trimBack (fun c => decide (c = 32)) L)))] := by
  enter Ast.trim_V with .c32
  trims (decide (c = ((nat_lit 32 : Nat) : Int))) .c32 [] []

theorem trimOf_c32 (L S : List Int) (h : L.length < 18446744073709551615) (hs : S.length < 18446744073709551615)
    (hr : L.length < r) :
    call% (d + 1) "trim" [.str .c32 L, .str .c32 S] K =
      K .void [some (.str .c32 (trimFront (fun c => decide (c ∈ S)) (trimBack (fun c => decide (c ∈ S)) L))), none] := by
  enter Ast.trim_V_S with .c32
  trims (decide (c ∈ S)) .c32 [none] [found E hs]

theorem trimBack_map {α β : Type} (f : α → β) {p : β → Bool} {q : α → Bool} (h : ∀ c, p (f c) = q c) (L : List α) :
    trimBack p (L.map f) = (trimBack q L).map f := by
  induction hn : L.length using Nat.strongRecOn generalizing L with
  | ind n ih =>
    rcases List.eq_nil_or_concat L with rfl | ⟨L, c, rfl⟩
    · rw [List.map_nil, trimBack_nil, trimBack_nil, List.map_nil]
    · rw [List.concat_eq_append] at hn ⊢
      rw [List.map_append, List.map_singleton, trimBack_last (c := f c) (by simp), trimBack_last (c := c) (by simp), h]
      split
      · rw [List.dropLast_concat, List.dropLast_concat]
        exact ih L.length (by simp at hn; omega) L rfl
      · simp

theorem trimFront_map {α β : Type} (f : α → β) {p : β → Bool} {q : α → Bool} (h : ∀ c, p (f c) = q c) (L : List α) :
    trimFront p (L.map f) = (trimFront q L).map f := by
  induction L with
  | nil => rfl
  | cons c L ih =>
    rw [List.map_cons, trimFront, trimFront, h]
    split
    · exact ih
    · rfl

theorem mem_map_iff {α β : Type} [DecidableEq α] [DecidableEq β] {f : α → β} (hf : ∀ a b, f a = f b → a = b) (S : List α)
    (c : α) : decide (f c ∈ S.map f) = decide (c ∈ S) := by
  rw [decide_eq_decide, List.mem_map]
  exact ⟨fun ⟨a, ha, he⟩ => hf _ _ he ▸ ha, fun h => ⟨c, h, rfl⟩⟩

theorem charVal_inj (sc : Bool) (a b : Byte) (h : charVal sc a = charVal sc b) : a = b := by
  cases sc
  · exact BitVec.eq_of_toNat_eq (Int.ofNat.inj h)
  · exact BitVec.eq_of_toInt_eq h

theorem charVal_space (sc : Bool) (c : Byte) : decide (charVal sc c = 32) = decide (c = 0x20) := by
  rw [decide_eq_decide]
  have h : charVal sc 0x20 = 32 := by cases sc <;> rfl
  exact ⟨fun e => charVal_inj sc _ _ (e.trans h.symm), fun e => e ▸ h⟩

theorem toNat_inj (w : Nat) (a b : BitVec w) (h : (a.toNat : Int) = (b.toNat : Int)) : a = b :=
  BitVec.eq_of_toNat_eq (Int.ofNat.inj h)

theorem toNat_space {w : Nat} (hw : 6 ≤ w) (c : BitVec w) : decide ((c.toNat : Int) = 32) = decide (c = 0x20) := by
  rw [decide_eq_decide]
  have h : ((0x20 : BitVec w).toNat : Int) = 32 := by
    have : 2 ^ 6 ≤ 2 ^ w := Nat.pow_le_pow_right (by decide) hw
    rw [show (0x20 : BitVec w) = BitVec.ofNat w 32 from rfl, BitVec.toNat_ofNat, Nat.mod_eq_of_lt (by omega)]; rfl
  exact ⟨fun e => toNat_inj w _ _ (e.trans h.symm), fun e => e ▸ h⟩

theorem trim8 (L : List Byte) (h : L.length < 18446744073709551615) (hr : L.length < r) :
    call% (d + 1) "trim" [.str .char (units8 sc L)] K = K .void [some (.str .char (units8 sc (trim L)))] := by
  rw [trim_char _ (by rw [units8, List.length_map]; exact h) (by rw [units8, List.length_map]; exact hr)]
  unfold units8
  rw [trimBack_map _ (charVal_space sc), trimFront_map _ (charVal_space sc)]
  rfl

theorem trim16 (L : List U16) (h : L.length < 18446744073709551615) (hr : L.length < r) :
    call% (d + 1) "trim" [.str .c16 (units16 L)] K = K .void [some (.str .c16 (units16 (trim L)))] := by
  rw [trim_c16 _ (by rw [units16, List.length_map]; exact h) (by rw [units16, List.length_map]; exact hr)]
  unfold units16
  rw [trimBack_map _ (toNat_space (by decide)), trimFront_map _ (toNat_space (by decide))]
  rfl

theorem trim32 (L : List U32) (h : L.length < 18446744073709551615) (hr : L.length < r) :
    call% (d + 1) "trim" [.str .c32 (units32 L)] K = K .void [some (.str .c32 (units32 (trim L)))] := by
  rw [trim_c32 _ (by rw [units32, List.length_map]; exact h) (by rw [units32, List.length_map]; exact hr)]
  unfold units32
  rw [trimBack_map _ (toNat_space (by decide)), trimFront_map _ (toNat_space (by decide))]
  rfl

theorem trimOf8 (L S : List Byte) (h : L.length < 18446744073709551615) (hs : S.length < 18446744073709551615)
    (hr : L.length < r) :
    call% (d + 1) "trim" [.str .char (units8 sc L), .str .char (units8 sc S)] K =
      K .void [some (.str .char (units8 sc (trimOf L S))), none] := by
  rw [trimOf_char _ _ (by rw [units8, List.length_map]; exact h) (by rw [units8, List.length_map]; exact hs)
    (by rw [units8, List.length_map]; exact hr)]
  unfold units8
  rw [trimBack_map _ (mem_map_iff (charVal_inj sc) S), trimFront_map _ (mem_map_iff (charVal_inj sc) S)]
  rfl

theorem trimOf16 (L S : List U16) (h : L.length < 18446744073709551615) (hs : S.length < 18446744073709551615)
    (hr : L.length < r) :
    call% (d + 1) "trim" [.str .c16 (units16 L), .str .c16 (units16 S)] K =
      K .void [some (.str .c16 (units16 (trimOf L S))), none] := by
  rw [trimOf_c16 _ _ (by rw [units16, List.length_map]; exact h) (by rw [units16, List.length_map]; exact hs)
    (by rw [units16, List.length_map]; exact hr)]
  unfold units16
  rw [trimBack_map _ (mem_map_iff (toNat_inj 16) S), trimFront_map _ (mem_map_iff (toNat_inj 16) S)]
  rfl

theorem trimOf32 (L S : List U32) (h : L.length < 18446744073709551615) (hs : S.length < 18446744073709551615)
    (hr : L.length < r) :
    call% (d + 1) "trim" [.str .c32 (units32 L), .str .c32 (units32 S)] K =
      K .void [some (.str .c32 (units32 (trimOf L S))), none] := by
  rw [trimOf_c32 _ _ (by rw [units32, List.length_map]; exact h) (by rw [units32, List.length_map]; exact hs)
    (by rw [units32, List.length_map]; exact hr)]
  unfold units32
  rw [trimBack_map _ (mem_map_iff (toNat_inj 32) S), trimFront_map _ (mem_map_iff (toNat_inj 32) S)]
  rfl

/-- A string from a literal without NUL. -/
theorem readString_lit (E : Sealed) {cs : List Nat} {L : List Int} (h : 0 ∉ cs) (hl : cs.map Int.ofNat = L)
    (k : List Int → Out) : E.readString ((cs.map Int.ofNat).append [0]) 0 k = k L := by
  rw [E.readString_eq]
  unfold readString
  rw [if_pos (by decide), Int.toNat_zero, List.drop_zero]
  have : untilZero ((cs.map Int.ofNat).append [0]) = some (cs.map Int.ofNat) := by
    clear hl
    induction cs with
    | nil => rfl
    | cons c cs ih =>
      show untilZero (Int.ofNat c :: ((cs.map Int.ofNat).append [0])) = _
      rw [untilZero, if_neg (fun e => h (by rw [Int.ofNat.inj e]; exact List.mem_cons_self)), 
        ih (fun e => h (List.mem_cons_of_mem _ e))]
      rfl
  rw [this, hl]

theorem ascii_spaces (sc : Bool) : [9, 10, 13, 32].map Int.ofNat = units8 sc [0x09, 0x0a, 0x0d, 0x20] := by
  cases sc <;> rfl

theorem trimAscii7 (L : List Byte) (h : L.length < 18446744073709551615) (hr : L.length < r) :
    call% (d + 2) "trimAscii7WhiteSpace" [.str .char (units8 sc L)] K =
      K .void [some (.str .char (units8 sc (trimAscii7WhiteSpace L)))] := by
  enter Ast.trimAscii7WhiteSpace_S8
  have h1 (K) := trimOf8 (E := E) (X := X) (sc := sc) (r := r) (d := d) (K := K) (w := w) (s := s) L [0x09, 0x0a, 0x0d, 0x20] h
    (Nat.lt_of_le_of_lt (by decide : _ ≤ 20) (by decide)) hr
  run
  rw [readString_lit E (by decide) (ascii_spaces sc)]
  run [h1]
  rfl

theorem trimWhite32 (L : List U32) (h : L.length < 18446744073709551615) (hr : L.length < r) :
    call% (d + 2) "trimWhiteSpace" [.str .c32 (units32 L)] K =
      K .void [some (.str .c32 (units32 (trimWhiteSpace32 L)))] := by
  enter Ast.trimWhiteSpace_S32
  have h1 (K) := trimOf32 (E := E) (X := X) (sc := sc) (r := r) (d := d) (K := K) (w := w) (s := s) L spaces32 h
    (Nat.lt_of_le_of_lt (by decide : _ ≤ 20) (by decide)) hr
  run
  rw [readString_lit E (L := units32 spaces32) (by decide) rfl]
  run [h1]
  rfl

theorem trimWhite16 (L : List U16) (h : L.length < 18446744073709551615) (hr : L.length < r) :
    call% (d + 2) "trimWhiteSpace" [.str .c16 (units16 L)] K =
      K .void [some (.str .c16 (units16 (trimWhiteSpace16 L)))] := by
  enter Ast.trimWhiteSpace_S16
  have h1 (K) := trimOf16 (E := E) (X := X) (sc := sc) (r := r) (d := d) (K := K) (w := w) (s := s) L spaces16 h
    (Nat.lt_of_le_of_lt (by decide : _ ≤ 20) (by decide)) hr
  run
  rw [readString_lit E (L := units16 spaces16) (by decide) rfl]
  run [h1]
  rfl

/-! ## `trimWhiteSpace` of UTF-8 -/

theorem nextByte_left {t : List Byte} {lo hi : Nat} {b : Byte} {k : Byte → List Byte → Res Decoded}
    (hk : ∀ uc q, q.length ≤ t.length → LeftWithin t.length (k uc q)) : LeftWithin t.length (nextByte lo hi (b :: t) k) := by
  unfold nextByte
  rw [List.tail_cons]
  cases t with
  | nil => intro c q h; simp at h
  | cons uc q => exact .ite (.ok (Nat.le_refl _)) (.ite .fail (hk _ _ (Nat.le_refl _)))

/-- Every character but those of ASCII takes two bytes or more. -/
theorem decodeUtf8_two {b : Byte} {t : List Byte} {c : U32} {q : List Byte} (h : decodeUtf8 (b :: t) = .ok (c, some q))
    (hc : 0x80 ≤ c.toNat) : q.length ≤ t.length := by
  have : LeftWithin t.length (if b.toNat ≤ 0x7f then decodeFail else decodeUtf8 (b :: t)) := by
    refine if e : b.toNat ≤ 0x7f then by rw [if_pos e]; exact .fail else ?_
    rw [if_neg e]
    unfold decodeUtf8
    dsimp only
    rw [if_neg e]
    refine .ite .fail (.ite ?_ (.ite ?_ (.ite ?_ (.ite ?_ (.ite ?_ .fail)))))
    · exact nextByte_left fun _ _ h1 => .ite .fail (.ok h1)
    · exact nextByte_left fun _ _ h1 => .next h1 fun _ _ h2 =>
        .ite (.next h2 fun _ _ h3 => .next h3 fun _ _ h4 => .next h4 fun _ _ h5 =>
          .ite (.ok h5) .fail) (.ite .fail (.ok h2))
    · exact nextByte_left fun _ _ h1 => .next h1 fun _ _ h2 => .next h2 fun _ _ h3 =>
        .ite .fail (.ok h3)
    · exact nextByte_left fun _ _ h1 => .next h1 fun _ _ h2 => .next h2 fun _ _ h3 =>
        .next h3 fun _ _ h4 => .ite .fail (.ok h4)
    · exact nextByte_left fun _ _ h1 => .next h1 fun _ _ h2 => .next h2 fun _ _ h3 =>
        .next h3 fun _ _ h4 => .next h4 fun _ _ h5 => .ite .fail (.ok h5)
  by_cases e : b.toNat ≤ 0x7f
  · unfold decodeUtf8 at h
    dsimp only at h
    rw [if_pos e] at h
    cases h
    rw [BitVec.toNat_ofNat, Nat.mod_eq_of_lt (by have := b.isLt; omega)] at hc
    omega
  · rw [if_neg e] at this
    exact this c q h

theorem rawEncodeUtf16_length (c : Nat) : (rawEncodeUtf16 c).length = if c < 0x10000 then 1 else 2 := by
  unfold rawEncodeUtf16
  split <;> rfl

theorem toUtf16From8Loop_length (p : List Byte) (res l : List U16) (h : toUtf16From8Loop p res = .ok l) :
    l.length ≤ res.length + (p.length - 1) := by
  match p with
  | [] => rw [toUtf16From8Loop] at h; cases h
  | b :: t =>
    rw [toUtf16From8Loop] at h
    split at h
    · cases h; omega
    · split at h
      · cases h
      · cases h; exact Nat.zero_le _
      · rename_i c q e
        have h1 := decodeUtf8_tail_lt e
        have h2 := decodeUtf8_two e
        split at h
        · cases h; exact Nat.zero_le _
        · split at h
          · cases h; omega
          · have h3 := toUtf16From8Loop_length q.tail _ l h
            have h4 : q.tail ≠ [] := by
              intro h4
              rw [h4, toUtf16From8Loop] at h
              cases h
            have h4 := List.length_pos_iff.2 h4
            rw [List.length_append, rawEncodeUtf16_length] at h3
            rw [List.length_tail] at h1 h3 h4
            rw [List.length_cons] at h1 ⊢
            split at h3 <;> omega
termination_by p.length
decreasing_by exact decodeUtf8_tail_lt (by assumption)

theorem toUtf16From8S_length (src : List Byte) (l : List U16) (h : toUtf16From8S src = .ok l) :
    l.length ≤ src.length := by
  unfold toUtf16From8S toUtf16From8 ifNonEmpty cStr at h
  dsimp only at h
  cases e : readAt (src ++ [0]) 0 with
  | ub => rw [e] at h; cases h
  | ok b =>
    rw [e, Res.bind] at h
    split at h
    · cases h; exact Nat.zero_le _
    · have := toUtf16From8Loop_length _ _ _ h
      rw [List.length_append] at this
      simpa using this

theorem trimBack_length {α : Type} (p : α → Bool) (L : List α) : (trimBack p L).length ≤ L.length := by
  induction hn : L.length using Nat.strongRecOn generalizing L with
  | ind n ih =>
    rcases List.eq_nil_or_concat L with rfl | ⟨L, c, rfl⟩
    · rw [trimBack_nil]; exact Nat.zero_le _
    · rw [List.concat_eq_append] at hn ⊢
      rw [trimBack_last (c := c) (by simp)]
      split
      · rw [List.dropLast_concat]
        rw [List.length_append] at hn
        have : [c].length = 1 := rfl
        have := ih L.length (by omega) L rfl
        omega
      · omega

theorem trimFront_length {α : Type} (p : α → Bool) (L : List α) : (trimFront p L).length ≤ L.length := by
  induction L with
  | nil => exact Nat.le_refl _
  | cons c L ih =>
    rw [trimFront]
    split
    · exact Nat.le_succ_of_le ih
    · exact Nat.le_refl _

theorem trimWhiteSpace16_length (L : List U16) : (trimWhiteSpace16 L).length ≤ L.length :=
  Nat.le_trans (trimFront_length _ _) (trimBack_length _ _)

theorem trimWhite8 (L : List Byte) (h : L.length < 18446744073709551615) (hr : L.length + 1 < r) :
    call% (d + 6) "trimWhiteSpace" [.str .char (units8 sc L)] K =
      (trimWhiteSpace8 L).out fun x => K .void [some (.str .char (units8 sc x))] := by
  have h1 (K) := toUtf16_S8 (E := E) (X := X) (sc := sc) (r := r) (d := d) (K := K) (w := w) (s := s) L (by omega)
  have h2 (l : List U16) (hl : l.length < 18446744073709551615) (hl' : l.length < r) (K) :=
    trimWhite16 (E := E) (X := X) (sc := sc) (r := r) (d := d + 3) (K := K) (w := w) (s := s) l hl hl'
  have h3 (l : List U16) (hl : l.length + 1 < r) (K) :=
    toUtf8_S16 (E := E) (X := X) (sc := sc) (r := r) (d := d) (K := K) (w := w) (s := s) l hl
  unfold Ansak.trimWhiteSpace8
  enter Ast.trimWhiteSpace_S8
  run [h1]
  cases e : toUtf16From8S L with
  | ub => rfl
  | ok l =>
    have := toUtf16From8S_length L l e
    have := trimWhiteSpace16_length l
    have h2 := h2 l (by omega) (by omega)
    have h3 := h3 (trimWhiteSpace16 l) (by omega)
    by_hand [Res.bind]
    run [out_ok]
    rw [h2]
    run
    rw [h3]
    refine out_congr fun x => ?_
    run
    rfl

end Ansak.Cpp
