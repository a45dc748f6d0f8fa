import Verif.Lemmas.Cpp.Join

/-! # `split`, executed from its syntax tree -/

namespace Ansak.Cpp

variable {E : Sealed} {X : Externals} {sc : Bool} {r d : Nat} {K : Val → List (Option Val) → Out} {w : Bool} {s : List Int}

/-- What `find` returns. -/
def spot : Option Nat → Nat
  | some n => n
  | none => npos

attribute [cpp_keep] spot

theorem position_eq (L : List Int) (c : Int) (i : Nat) : position L c i = spot (findFrom L c i) := by
  unfold position findFrom
  cases (L.drop i).findIdx? (fun d => decide (d = c)) with
  | none => rfl
  | some j => exact Nat.add_comm _ _

theorem position_some {L : List Int} {c : Int} {i n : Nat} (h : findFrom L c i = some n) : position L c i = n := by
  rw [position_eq, h]; rfl

theorem position_none {L : List Int} {c : Int} {i : Nat} (h : findFrom L c i = none) : position L c i = npos := by
  rw [position_eq, h]; rfl

/-- The positions of the delimiter that are still to be found. -/
def breaksAt (L : List Int) (c : Int) : Option Nat → List Nat
  | some n => breaksFrom L c n
  | none => []

/-- What `split` does when it knows the positions of the delimiter. -/
def filled (L : List Int) (bs : List Nat) : Res (List (List Int)) :=
  (substr L 0 (bs.headD 0)).bind fun s =>
    (setAt (List.replicate (bs.length + 1) []) 0 s).bind fun result => splitFill L bs result 1

attribute [cpp_keep] breaksAt filled

theorem breaksFrom_eq (L : List Int) (c : Int) (n : Nat) :
    breaksFrom L c n = n :: breaksAt L c (findFrom L c (n + 1)) := by
  rw [breaksFrom]
  congr 1
  cases findFrom L c (n + 1) <;> rfl

/-- The numbers of a list. -/
def ints (l : List Nat) : List Int := l.map Int.ofNat

attribute [cpp_keep] ints

/-- Positions that are found, and the next one. -/
structure Breaks (L : List Int) (m : Option Nat) (acc : List Nat) : Prop where
  some : acc ≠ []
  sorted : acc.Pairwise (· < ·)
  within : ∀ a ∈ acc, a < L.length
  few : acc.length ≤ L.length
  after : ∀ n, m = Option.some n → n < L.length ∧ acc.length ≤ n ∧ ∀ a ∈ acc, a < n

theorem Breaks.next {L : List Int} {c : Int} {n : Nat} {acc : List Nat} (h : Breaks L (.some n) acc) :
    Breaks L (findFrom L c (n + 1)) (acc ++ [n]) := by
  obtain ⟨h1, h2, h3⟩ := h.after n rfl
  refine ⟨by simp, ?_, ?_, ?_, ?_⟩
  · rw [List.pairwise_append]
    exact ⟨h.sorted, List.pairwise_singleton _ _, fun a ha b hb => by rw [List.mem_singleton.1 hb]; exact h3 a ha⟩
  · intro a ha
    rcases List.mem_append.1 ha with ha | ha
    · exact h.within a ha
    · rw [List.mem_singleton.1 ha]; exact h1
  · rw [List.length_append]; exact Nat.lt_of_le_of_lt h2 h1
  · intro m e
    obtain ⟨h4, h5⟩ := findFrom_bounds e
    refine ⟨h5, by rw [List.length_append]; show acc.length + 1 ≤ m; omega, fun a ha => ?_⟩
    rcases List.mem_append.1 ha with ha | ha
    · have := h3 a ha; omega
    · rw [List.mem_singleton.1 ha]; omega

theorem Breaks.first {L : List Int} {c : Int} {i n : Nat} (h : findFrom L c i = .some n) :
    Breaks L (findFrom L c (n + 1)) [n] := by
  obtain ⟨_, h1⟩ := findFrom_bounds h
  refine ⟨by simp, List.pairwise_singleton _ _, ?_, ?_, ?_⟩
  · intro a ha; rw [List.mem_singleton.1 ha]; exact h1
  · show 1 ≤ L.length; omega
  · intro m e
    obtain ⟨h4, h5⟩ := findFrom_bounds e
    refine ⟨h5, ?_, fun a ha => ?_⟩
    · show 1 ≤ m; omega
    · rw [List.mem_singleton.1 ha]; omega

theorem ints_length (l : List Nat) : (ints l).length = l.length := List.length_map _

theorem split_some {L : List Int} {c : Int} {n : Nat} (hl : L ≠ []) (e : findFrom L c 0 = .some n) :
    Ansak.split L c = filled L (breaksFrom L c n) := by
  unfold Ansak.split filled
  rw [if_neg hl, e]
  have : (breaksFrom L c n).headD 0 = n := by rw [breaksFrom_eq]; rfl
  rw [this]

theorem split_none {L : List Int} {c : Int} (hl : L ≠ []) (e : findFrom L c 0 = .none) :
    Ansak.split L c = .ok [L] := by
  unfold Ansak.split
  rw [if_neg hl, e]

theorem spot_some (n : Nat) : spot (.some n) = n := rfl

theorem read_ints (E : Sealed) {bs : List Nat} {i a : Nat} (h : bs[i]? = .some a) (k : Int → Out) :
    E.read (ints bs) (i : Int) k = k (a : Int) :=
  read_at E (by rw [ints, List.getElem?_map, h]; rfl) k

theorem sorted_at {l : List Nat} {i a b : Nat} (h : l.Pairwise (· < ·)) (ha : l[i]? = .some a) (hb : l[i + 1]? = .some b) :
    a < b := by
  obtain ⟨hi, rfl⟩ := List.getElem?_eq_some_iff.1 ha
  obtain ⟨hj, rfl⟩ := List.getElem?_eq_some_iff.1 hb
  exact List.pairwise_iff_getElem.1 h i (i + 1) hi hj (Nat.lt_succ_self _)

theorem fill_last {L : List Int} {b x : Nat} {res : List (List Int)} (hb : b < L.length) (hx : x < res.length) :
    splitFill L [b] res x = splitFill L [] (res.set x (L.drop (b + 1))) x := by
  rw [splitFill, splitFill, substr, if_neg (by omega), List.take_of_length_le (by rw [List.length_drop]; exact Nat.le_refl _)]
  show Ansak.setAt _ _ _ = _
  rw [Ansak.setAt, if_pos hx]

theorem fill_more {L : List Int} {b b' x : Nat} {l : List Nat} {res : List (List Int)} (hb : b < L.length)
    (hx : x < res.length) (hi : x < 2147483647) : splitFill L (b :: b' :: l) res x =
      splitFill L (b' :: l) (res.set x ((L.drop (b + 1)).take (b' - (b + 1)))) (x + 1) := by
  rw [splitFill, substr, if_neg (by omega)]
  show (incInt x).bind _ = _
  rw [incInt, if_pos hi]
  show (Ansak.setAt _ _ _).bind _ = _
  rw [Ansak.setAt, if_pos hx]
  rfl

theorem fill_over {L : List Int} {b b' x : Nat} {l : List Nat} {res : List (List Int)} (hb : b < L.length)
    (hi : ¬ x < 2147483647) : splitFill L (b :: b' :: l) res x = .ub := by
  rw [splitFill, substr, if_neg (by omega)]
  show (incInt x).bind _ = _
  rw [incInt, if_neg hi]
  rfl

theorem int_overflow (E : Sealed) {x : Nat} (h : x < 2147483648) (h' : ¬ x < 2147483647) (k : Val → Out) :
    E.binaryInt sc .add .int (x : Int) .int ((nat_lit 1 : Nat) : Int) k = .ub := by
  obtain rfl : x = 2147483647 := by omega
  rw [E.binaryInt_eq]
  rfl

set_option hygiene false in
/-- The proof that a `split` is right: the type of characters. -/
macro "splits " t:term:max : tactic => `(tactic| (
  obtain ⟨r, rfl⟩ : ∃ q, r = q + 1 := ⟨r - 1, by omega⟩
  run
  · obtain rfl := List.isEmpty_iff.1 ‹L.isEmpty = true›
    rfl
  · have hl : L ≠ [] := fun e => by subst e; exact Bool.noConfusion ‹[].isEmpty = false›
    cases e : findFrom L c 0 with
    | none => 
      rw [position_none e, split_none hl e]
      run
      rfl
    | some n => 
      have := findFrom_bounds e
      rw [position_some e, split_some hl e]
      run
      rw [position_eq]
      induct [findFrom L c (n + 1), [n]] (fun m acc => [(name% "n", Val.int .ulong (spot m : Nat)), (name% "breaks", Val.list .ulong (ints acc))])
        (fun m acc => (filled L (acc ++ breaksAt L c m)).out fun x => K (.vec $t x) [none, none])
        (fun m acc => match m with | some n => L.length - n | none => 0)
        (fun m acc => Breaks L m acc)
      · intro f m acc hi IH
        have hlen := ints_length acc
        cases m with
        | some n => 
          have := (hi.after n rfl).1
          rw [spot_some]
          run [rounds_succ E]
          rw [position_eq]
          have IH := IH (findFrom L c (n + 1)) (acc ++ [n]) hi.next (by
            cases e : findFrom L c (n + 1) with
            | none => dsimp only; omega
            | some m => dsimp only; have := findFrom_bounds e; omega)
          rw [breaksAt, breaksFrom_eq, List.append_cons]
          rw [ints, List.map_append] at IH
          exact IH
        | none => 
          have := hi.few
          obtain ⟨a, bs, rfl⟩ := List.exists_cons_of_ne_nil hi.some
          have h0 : (a :: bs)[(0 : Nat)]? = some a := rfl
          run1 [rounds_succ E, read_ints E]
          rw [Follow.branch_true E (decide_eq_true ⟨Int.le_refl _, by
            rw [List.length_replicate, Int.toNat_natCast]; omega⟩)]
          run1
          rw [hlen, Int.toNat_natCast]
          induct [(0 : Nat), (List.replicate (bs.length + 2) []).set 0 (L.take a), (1 : Nat)]
            (fun (i : Nat) (res : List (List Int)) (x : Nat) => [(name% "iBreak", Val.ptr .ulong (some (ints (a :: bs), (i : Int)))),
              (name% "result", Val.vec $t res), (name% "iResX", Val.int .int (x : Int))])
            (fun i res x => (splitFill L ((a :: bs).drop i) res x).out fun x => K (.vec $t x) [none, none])
            (fun i _ _ => bs.length + 1 - i)
            (fun i res x => i ≤ bs.length + 1 ∧ res.length = bs.length + 2 ∧ x ≤ i + 1 ∧ x < 2147483648)
          · clear IH
            intro f i res x hi2 IH
            obtain ⟨h1, h2, h3, h4⟩ := hi2
            have hlen' : (a :: bs).length = bs.length + 1 := rfl
            by_cases hlast : i = bs.length + 1
            · have hd : (a :: bs).drop i = [] := List.drop_eq_nil_of_le (by rw [hlen', hlast]; exact Nat.le_refl _)
              rw [hd]
              run1 [rounds_succ E]
              rfl
            · obtain ⟨b, hb⟩ : ∃ b, (a :: bs)[i]? = some b := ⟨_, List.getElem?_eq_getElem (by omega)⟩
              have hbl := hi.within b (List.mem_of_getElem? hb)
              rw [drop_some hb]
              run1 [rounds_succ E, read_ints E]
              by_cases hnext : i = bs.length
              · rw [Follow.branch_true E (decide_eq_true (by rw [hlen, hlen']; omega))]
                run1
                have hd : (a :: bs).drop (i + 1) = [] := List.drop_eq_nil_of_le (by rw [hlen', hnext]; exact Nat.le_refl _)
                have IH := IH (i + 1) (res.set x (L.drop (b + 1))) x
                  ⟨by omega, by rw [List.length_set]; exact h2, by omega, h4⟩ (by omega)
                rw [hd] at IH ⊢
                rw [fill_last (by omega) (by omega)]
                exact IH
              · rw [Follow.branch_false E (decide_eq_false (by rw [hlen, hlen']; omega))]
                obtain ⟨b', hb'⟩ : ∃ b, (a :: bs)[i + 1]? = some b := ⟨_, List.getElem?_eq_getElem (by omega)⟩
                have hbl' := hi.within b' (List.mem_of_getElem? hb')
                have hbb := sorted_at hi.sorted hb hb'
                by_cases hx : x < 2147483647
                · run1 [read_ints E]
                  have IH := IH (i + 1) (res.set x ((L.drop (b + 1)).take (b' - (b + 1)))) (x + 1)
                    ⟨by omega, by rw [List.length_set]; exact h2, by omega, by omega⟩ (by omega)
                  rw [drop_some hb'] at IH ⊢
                  rw [fill_more (by omega) (by omega) hx]
                  exact IH
                · run1 [read_ints E]
                  rw [int_overflow E h4 hx]
                  rw [drop_some hb', fill_over (by omega) hx]
                  rfl
          · exact ⟨Nat.zero_le _, by simp, Nat.le_refl _, by decide⟩
          · have : (a :: bs).length = bs.length + 1 := rfl
            omega
          · refine congrArg (fun o : Res _ => o.out _) ?_
            rw [breaksAt, List.append_nil, filled, substr, if_neg (by omega)]
            show _ = (Ansak.setAt (List.replicate (bs.length + 2) []) 0 (L.take a)).bind fun result =>
              splitFill L (a :: bs) result 1
            rw [Ansak.setAt, if_pos (by rw [List.length_replicate]; omega)]
            rfl
      · exact Breaks.first e
      · split <;> omega
      · rw [List.singleton_append, ← breaksFrom_eq]))

theorem split_char (L : List Int) (c : Int) (h : L.length < 18446744073709551615) (hr : L.length < r) :
    call% (d + 1) "split" [.str .char L, .int .char c] K =
      (Ansak.split L c).out fun x => K (.vec .char x) [none, none] := by
  enter Ast.split_S with .char
  splits .char

theorem split_c16 (L : List Int) (c : Int) (h : L.length < 18446744073709551615) (hr : L.length < r) :
    call% (d + 1) "split" [.str .c16 L, .int .c16 c] K =
      (Ansak.split L c).out fun x => K (.vec .c16 x) [none, none] := by
  enter Ast.split_S with .c16
  splits .c16

theorem split_c32 (L : List Int) (c : Int) (h : L.length < 18446744073709551615) (hr : L.length < r) :
    call% (d + 1) "split" [.str .c32 L, .int .c32 c] K =
      (Ansak.split L c).out fun x => K (.vec .c32 x) [none, none] := by
  enter Ast.split_S with .c32
  splits .c32

/-! ## Characters -/

section
variable {α β : Type} [DecidableEq α] [DecidableEq β] {f : α → β}

theorem findFrom_map (hf : ∀ a b, f a = f b → a = b) (L : List α) (c : α) (i : Nat) :
    findFrom (L.map f) (f c) i = findFrom L c i := by
  unfold findFrom
  rw [← List.map_drop, List.findIdx?_map]
  congr 2
  funext d
  show decide (f d = f c) = decide (d = c)
  rw [decide_eq_decide]
  exact ⟨hf _ _, fun e => e ▸ rfl⟩

theorem breaksFrom_map (hf : ∀ a b, f a = f b → a = b) (L : List α) (c : α) (n : Nat) :
    breaksFrom (L.map f) (f c) n = breaksFrom L c n := by
  induction hn : L.length - n using Nat.strongRecOn generalizing n with
  | ind k ih =>
    rw [breaksFrom, breaksFrom]
    congr 1
    have e := findFrom_map hf L c (n + 1)
    split
    · rename_i h
      rw [e] at h
      split
      · rfl
      · rename_i h'; rw [h] at h'; cases h'
    · rename_i m h
      rw [e] at h
      split
      · rename_i h'; rw [h] at h'; cases h'
      · rename_i m' h'
        have hb := findFrom_bounds h
        obtain rfl : m = m' := Option.some.inj (h.symm.trans h')
        exact ih _ (by omega) m rfl

omit [DecidableEq α] [DecidableEq β] in
theorem substr_map (f : α → β) (L : List α) (i n : Nat) : substr (L.map f) i n = (substr L i n).map (List.map f) := by
  unfold substr
  rw [List.length_map]
  split
  · rfl
  · rw [← List.map_drop, ← List.map_take]; rfl

omit [DecidableEq α] [DecidableEq β] in
theorem setAt_map (f : α → β) (L : List α) (i : Nat) (a : α) : setAt (L.map f) i (f a) = (setAt L i a).map (List.map f) := by
  unfold setAt
  rw [List.length_map]
  split
  · rw [← List.map_set]; rfl
  · rfl

omit [DecidableEq α] [DecidableEq β] in
theorem splitFill_map (f : α → β) (L : List α) (bs : List Nat) (res : List (List α)) (x : Nat) :
    splitFill (L.map f) bs (res.map (List.map f)) x = (splitFill L bs res x).map (List.map (List.map f)) := by
  match bs with
  | [] => rfl
  | [n] =>
    rw [splitFill, splitFill, substr_map, List.length_map]
    cases substr L (n + 1) (L.length - (n + 1)) with
    | ub => rfl
    | ok S => exact setAt_map (List.map f) res x S
  | n :: m :: bs =>
    rw [splitFill, splitFill, substr_map]
    cases substr L (n + 1) (m - (n + 1)) with
    | ub => rfl
    | ok S =>
      show (incInt x).bind _ = Res.map _ ((incInt x).bind _)
      cases incInt x with
      | ub => rfl
      | ok y =>
        show (setAt (res.map (List.map f)) x (S.map f)).bind _ = Res.map _ ((setAt res x S).bind _)
        rw [setAt_map]
        cases setAt res x S with
        | ub => rfl
        | ok res => exact splitFill_map f L (m :: bs) res y

theorem split_map (hf : ∀ a b, f a = f b → a = b) (L : List α) (c : α) :
    Ansak.split (L.map f) (f c) = (Ansak.split L c).map (List.map (List.map f)) := by
  unfold Ansak.split
  by_cases h : L = []
  · subst h; rfl
  · rw [if_neg h, if_neg (by simpa using h), findFrom_map hf]
    cases findFrom L c 0 with
    | none => rfl
    | some n =>
      dsimp only
      rw [breaksFrom_map hf, substr_map]
      cases substr L 0 n with
      | ub => rfl
      | ok S =>
        simp only [Res.map, Res.bind]
        have : (List.replicate ((breaksFrom L c n).length + 1) ([] : List β)) =
          (List.replicate ((breaksFrom L c n).length + 1) ([] : List α)).map (List.map f) := by
          rw [List.map_replicate]; rfl
        rw [this, setAt_map]
        cases setAt (List.replicate ((breaksFrom L c n).length + 1) ([] : List α)) 0 S with
        | ub => rfl
        | ok res => exact splitFill_map f L _ res 1

end

theorem out_map {α β : Type} {f : α → β} (o : Res α) (k : β → Out) : (o.map f).out k = o.out fun x => k (f x) := by
  cases o <;> rfl

theorem split8 (L : List Byte) (c : Byte) (h : L.length < 18446744073709551615) (hr : L.length < r) :
    call% (d + 1) "split" [.str .char (units8 sc L), .int .char (charVal sc c)] K =
      (Ansak.split L c).out fun x => K (.vec .char (x.map (units8 sc))) [none, none] := by
  rw [split_char _ _ (by rw [units8, List.length_map]; exact h) (by rw [units8, List.length_map]; exact hr)]
  rw [show units8 sc L = L.map (charVal sc) from rfl, split_map (charVal_inj sc), out_map]
  rfl

theorem split16 (L : List U16) (c : U16) (h : L.length < 18446744073709551615) (hr : L.length < r) :
    call% (d + 1) "split" [.str .c16 (units16 L), .int .c16 (c.toNat : Int)] K =
      (Ansak.split L c).out fun x => K (.vec .c16 (x.map units16)) [none, none] := by
  rw [split_c16 _ _ (by rw [units16, List.length_map]; exact h) (by rw [units16, List.length_map]; exact hr)]
  unfold units16
  rw [split_map (f := fun c : U16 => (c.toNat : Int)) (toNat_inj 16), out_map]

theorem split32 (L : List U32) (c : U32) (h : L.length < 18446744073709551615) (hr : L.length < r) :
    call% (d + 1) "split" [.str .c32 (units32 L), .int .c32 (c.toNat : Int)] K =
      (Ansak.split L c).out fun x => K (.vec .c32 (x.map units32)) [none, none] := by
  rw [split_c32 _ _ (by rw [units32, List.length_map]; exact h) (by rw [units32, List.length_map]; exact hr)]
  unfold units32
  rw [split_map (f := fun c : U32 => (c.toNat : Int)) (toNat_inj 32), out_map]

end Ansak.Cpp
