import Verif.Model.SplitJoin

namespace Ansak

section
variable {α : Type} [DecidableEq α]

/-- What `split` computes, by recursion on the string. -/
def pieces (d : α) : List α → List (List α)
  | [] => [[]]
  | c :: s =>
    if c = d then [] :: pieces d s
    else
      match pieces d s with
      | [] => [[c]]
      | p :: ps => (c :: p) :: ps

theorem pieces_cons (d c : α) (s : List α) : pieces d (c :: s) =
    if c = d then [] :: pieces d s
    else match pieces d s with
      | [] => [[c]]
      | p :: ps => (c :: p) :: ps := rfl

theorem pieces_ne_nil (d : α) (s : List α) : pieces d s ≠ [] := by
  cases s with
  | nil => simp [pieces]
  | cons c s =>
    rw [pieces_cons]
    split
    · simp
    · split <;> simp

theorem pieces_free {d : α} {a : List α} (h : d ∉ a) : pieces d a = [a] := by
  induction a with
  | nil => rfl
  | cons c a ih =>
    rw [List.mem_cons, not_or] at h
    rw [pieces_cons, if_neg (Ne.symm h.1), ih h.2]

theorem pieces_append {d : α} {a : List α} (h : d ∉ a) (t : List α) :
    pieces d (a ++ d :: t) = a :: pieces d t := by
  induction a with
  | nil => rw [List.nil_append, pieces_cons, if_pos rfl]
  | cons c a ih =>
    rw [List.mem_cons, not_or] at h
    rw [List.cons_append, pieces_cons, if_neg (Ne.symm h.1), ih h.2]

theorem pieces_length (d : α) (s : List α) : (pieces d s).length = s.count d + 1 := by
  induction s with
  | nil => rfl
  | cons c s ih =>
    rw [pieces_cons, List.count_cons]
    by_cases h : c = d
    · rw [if_pos h, List.length_cons, ih]; simp [h]
    · rw [if_neg h]
      obtain ⟨p, ps, e⟩ := List.exists_cons_of_ne_nil (pieces_ne_nil d s)
      rw [e] at ih ⊢
      simp only [List.length_cons] at ih ⊢
      rw [ih, if_neg (by simpa using h)]

theorem pieces_not_mem (d : α) (s : List α) : ∀ p ∈ pieces d s, d ∉ p := by
  induction s with
  | nil => simp [pieces]
  | cons c s ih =>
    rw [pieces_cons]
    by_cases h : c = d
    · rw [if_pos h, List.forall_mem_cons]
      exact ⟨by simp, ih⟩
    · rw [if_neg h]
      obtain ⟨p, ps, e⟩ := List.exists_cons_of_ne_nil (pieces_ne_nil d s)
      rw [e] at ih ⊢
      rw [List.forall_mem_cons] at ih ⊢
      refine ⟨?_, ih.2⟩
      rw [List.mem_cons, not_or]
      exact ⟨Ne.symm h, ih.1⟩

omit [DecidableEq α] in
theorem intercalate_cons_cons (d : List α) (p q : List α) (ps : List (List α)) :
    d.intercalate (p :: q :: ps) = p ++ d ++ d.intercalate (q :: ps) := by
  simp [List.intercalate, List.intersperse]

omit [DecidableEq α] in
theorem intercalate_one (d p : List α) : d.intercalate [p] = p := by
  simp [List.intercalate, List.intersperse]

omit [DecidableEq α] in
theorem intercalate_cons_unit (d : List α) (c : α) (p : List α) (ps : List (List α)) :
    d.intercalate ((c :: p) :: ps) = c :: d.intercalate (p :: ps) := by
  cases ps with
  | nil => rw [intercalate_one, intercalate_one]
  | cons q ps => rw [intercalate_cons_cons, intercalate_cons_cons]; rfl

theorem intercalate_pieces (d : α) (s : List α) : List.intercalate [d] (pieces d s) = s := by
  induction s with
  | nil => rfl
  | cons c s ih =>
    rw [pieces_cons]
    obtain ⟨p, ps, e⟩ := List.exists_cons_of_ne_nil (pieces_ne_nil d s)
    by_cases h : c = d
    · rw [if_pos h, e, intercalate_cons_cons, ← e, ih, h]; rfl
    · rw [if_neg h, e]
      show List.intercalate [d] ((c :: p) :: ps) = _
      rw [intercalate_cons_unit, ← e, ih]

theorem pieces_intercalate {d : α} {v : List (List α)} (hne : v ≠ []) (h : ∀ p ∈ v, d ∉ p) :
    pieces d (List.intercalate [d] v) = v := by
  induction v with
  | nil => exact absurd rfl hne
  | cons p v ih =>
    rw [List.forall_mem_cons] at h
    cases v with
    | nil => rw [intercalate_one, pieces_free h.1]
    | cons q v =>
      rw [intercalate_cons_cons, List.append_assoc]
      show pieces d (p ++ d :: List.intercalate [d] (q :: v)) = _
      rw [pieces_append h.1, ih (by simp) h.2]

/-! ## The loops -/

theorem findFrom_none {src : List α} {d : α} {pos : Nat} :
    findFrom src d pos = none ↔ d ∉ src.drop pos := by
  unfold findFrom
  rw [Option.map_eq_none_iff, List.findIdx?_eq_none_iff]
  simp only [decide_eq_false_iff_not]
  exact ⟨fun h hm => h d hm rfl, fun h x hx e => h (e ▸ hx)⟩

theorem findFrom_some {src : List α} {d : α} {pos n : Nat} (h : findFrom src d pos = some n) :
    d ∉ (src.drop pos).take (n - pos) ∧ src.drop pos = (src.drop pos).take (n - pos) ++ d :: src.drop (n + 1) := by
  have hb := findFrom_bounds h
  unfold findFrom at h
  rw [Option.map_eq_some_iff] at h
  obtain ⟨k, hk, rfl⟩ := h
  rw [List.findIdx?_eq_some_iff_getElem] at hk
  obtain ⟨hk, hd, hlt⟩ := hk
  rw [Nat.add_sub_cancel]
  constructor
  · intro hm
    obtain ⟨i, hi, e⟩ := List.getElem_of_mem hm
    rw [List.length_take] at hi
    have := hlt i (by omega)
    rw [List.getElem_take] at e
    rw [e] at this
    simp at this
  · have hd : (src.drop pos)[k] = d := by simpa using hd
    have e2 : src.drop (k + pos + 1) = (src.drop pos).drop (k + 1) := by
      rw [List.drop_drop]; congr 1; omega
    rw [e2]
    conv => lhs; rw [← List.take_append_drop k (src.drop pos)]
    rw [List.drop_eq_getElem_cons hk, hd]

theorem breaksFrom_eq (src : List α) (d : α) (n : Nat) : breaksFrom src d n =
    n :: match findFrom src d (n + 1) with
      | none => []
      | some m => breaksFrom src d m := by
  rw [breaksFrom]
  split <;> rename_i h <;> simp only [h]

/-- Filling the result: the pieces of the text after the break at `n`. -/
theorem splitFill_breaks (src : List α) (d : α) (n : Nat) (hn : n < src.length) (done : List (List α))
    (hdone : done.length ≤ 0x7FFFFFFF) (rest : List (List α))
    (hrest : rest.length = (breaksFrom src d n).length) :
    splitFill src (breaksFrom src d n) (done ++ rest) done.length =
      if done.length + rest.length ≤ 0x80000000 then .ok (done ++ pieces d (src.drop (n + 1)))
      else .ub := by
  induction hk : src.length - n using Nat.strongRecOn generalizing n done rest with
  | _ k ih =>
  rw [breaksFrom_eq] at hrest ⊢
  cases hf : findFrom src d (n + 1) with
  | none =>
    rw [hf] at hrest
    have hno := findFrom_none.1 hf
    match rest, hrest with
    | [x], _ =>
      show (substr src (n + 1) (src.length - (n + 1))).bind _ = _
      rw [if_pos (by rw [List.length_singleton]; omega)]
      unfold substr
      rw [if_neg (by omega), Res.bind_ok]
      unfold setAt
      rw [if_pos (by simp), pieces_free hno]
      congr 1
      rw [List.set_append_right _ _ (Nat.le_refl _), Nat.sub_self]
      show done ++ [_] = _
      congr 2
      rw [List.take_of_length_le]
      rw [List.length_drop]; exact Nat.le_refl _
  | some m =>
    rw [hf] at hrest
    have hb := findFrom_bounds hf
    have ⟨hno, hsplit⟩ := findFrom_some hf
    match rest, hrest with
    | x :: rest, hrest =>
      have hrest : rest.length = (breaksFrom src d m).length := by
        simpa using hrest
      have hr0 : 0 < rest.length := by rw [hrest, breaksFrom_eq]; simp
      show splitFill src (n :: breaksFrom src d m) _ _ = _
      by_cases hinc : done.length < 0x7FFFFFFF
      · have ih := ih (src.length - m) (by omega) m (by omega)
          (done ++ [(src.drop (n + 1)).take (m - (n + 1))])
          (by rw [List.length_append, List.length_singleton]; omega) rest hrest rfl
        rw [breaksFrom_eq] at ih ⊢
        show (substr src (n + 1) (m - (n + 1))).bind _ = _
        unfold substr
        rw [if_neg (by omega), Res.bind_ok]
        unfold incInt
        rw [if_pos hinc, Res.bind_ok]
        unfold setAt
        rw [if_pos (by simp), Res.bind_ok]
        rw [List.set_append_right _ _ (Nat.le_refl _), Nat.sub_self]
        have e : done ++ (x :: rest).set 0 ((src.drop (n + 1)).take (m - (n + 1))) =
            done ++ [(src.drop (n + 1)).take (m - (n + 1))] ++ rest := by simp
        have el : (done ++ [(src.drop (n + 1)).take (m - (n + 1))]).length = done.length + 1 := by simp
        rw [el] at ih
        have en : done.length + 1 + rest.length = done.length + (x :: rest).length := by
          rw [List.length_cons]; omega
        rw [e, ih, en]
        have ep : pieces d (src.drop (n + 1)) =
            (src.drop (n + 1)).take (m - (n + 1)) :: pieces d (src.drop (m + 1)) := by
          have := pieces_append hno (src.drop (m + 1))
          rw [← hsplit] at this
          exact this
        rw [ep, List.append_assoc]
        rfl
      · rw [if_neg (by rw [List.length_cons]; omega), breaksFrom_eq]
        show (substr src (n + 1) (m - (n + 1))).bind _ = _
        unfold substr
        rw [if_neg (by omega), Res.bind_ok]
        unfold incInt
        rw [if_neg hinc]
        rfl

theorem breaksFrom_length (src : List α) (d : α) (n : Nat) (hn : n < src.length) :
    (breaksFrom src d n).length = (src.drop (n + 1)).count d + 1 := by
  induction hk : src.length - n using Nat.strongRecOn generalizing n with
  | _ k ih =>
  rw [breaksFrom_eq, List.length_cons]
  cases hf : findFrom src d (n + 1) with
  | none =>
    rw [List.count_eq_zero.2 (findFrom_none.1 hf)]; rfl
  | some m =>
    have hb := findFrom_bounds hf
    have ⟨hno, hsplit⟩ := findFrom_some hf
    show (breaksFrom src d m).length + 1 = _
    have hc : (src.drop (n + 1)).count d = (src.drop (m + 1)).count d + 1 := by
      conv => lhs; rw [hsplit]
      rw [List.count_append, List.count_eq_zero.2 hno, List.count_cons_self]
      omega
    rw [ih (src.length - m) (by omega) m (by omega) rfl, hc]

/-- `split` in closed form. -/
theorem split_eq (src : List α) (d : α) : split src d =
    if src = [] then .ok []
    else if src.count d ≤ 0x7FFFFFFF then .ok (pieces d src) else .ub := by
  unfold split
  split
  · rfl
  cases hf : findFrom src d 0 with
  | none =>
    have := findFrom_none.1 hf
    rw [List.drop_zero] at this
    show Res.ok [src] = _
    rw [List.count_eq_zero.2 this, if_pos (by decide), pieces_free this]
  | some n =>
    have hb := findFrom_bounds hf
    have ⟨hno, hsplit⟩ := findFrom_some hf
    rw [List.drop_zero, Nat.sub_zero] at hno hsplit
    have hc : src.count d = (src.drop (n + 1)).count d + 1 := by
      conv => lhs; rw [hsplit]
      rw [List.count_append, List.count_eq_zero.2 hno, List.count_cons_self]
      omega
    have hp : pieces d src = src.take n :: pieces d (src.drop (n + 1)) := by
      have := pieces_append hno (src.drop (n + 1))
      rwa [← hsplit] at this
    have hl := breaksFrom_length src d n hb.2
    show (substr src 0 n).bind _ = _
    unfold substr
    rw [if_neg (by omega), Res.bind_ok]
    unfold setAt
    rw [if_pos (by simp), Res.bind_ok, List.replicate_succ, List.drop_zero]
    have := splitFill_breaks src d n hb.2 [src.take n] (by simp) (List.replicate (breaksFrom src d n).length [])
      (by simp)
    show splitFill src (breaksFrom src d n) ([src.take n] ++ _) 1 = _
    rw [List.length_singleton, List.length_replicate] at this
    rw [this, hl, hc, hp]
    by_cases h : (src.drop (n + 1)).count d + 1 ≤ 0x7FFFFFFF
    · rw [if_pos h, if_pos (by omega)]; rfl
    · rw [if_neg h, if_neg (by omega)]

end

/-! ## Joining -/

theorem joinLoop_false {w : Nat} {d : BitVec w} (hd : d ≠ 0) (v : List (List (BitVec w))) (r : List (BitVec w)) :
    joinLoop [d, 0] v false r = .ok (r ++ (v.map (d :: ·)).flatten) := by
  have hs : stringOfPtr (some [d, 0]) = .ok [d] := by
    show (if d = 0 then Res.ok [] else
      Res.map (d :: ·) (if (0 : BitVec w) = 0 then Res.ok [] else _)) = _
    rw [if_neg hd, if_pos rfl]; rfl
  induction v generalizing r with
  | nil => simp [joinLoop]
  | cons s v ih =>
    unfold joinLoop
    rw [if_neg (by decide), hs, Res.bind_ok, ih]
    simp

theorem joinLoop_nul {w : Nat} (v : List (List (BitVec w))) (b : Bool) (r : List (BitVec w)) :
    joinLoop [0, 0] v b r = .ok (r ++ v.flatten) := by
  have hs : stringOfPtr (some [(0 : BitVec w), 0]) = .ok [] := by
    unfold stringOfPtr
    exact if_pos rfl
  induction v generalizing r b with
  | nil => simp [joinLoop]
  | cons s v ih =>
    unfold joinLoop
    split
    · rw [ih]; simp
    · rw [hs, Res.bind_ok, ih]; simp

theorem intercalate_cons {α : Type} (d : List α) (p : List α) (ps : List (List α)) :
    d.intercalate (p :: ps) = p ++ (ps.map (d ++ ·)).flatten := by
  induction ps generalizing p with
  | nil => rw [intercalate_one]; simp
  | cons q ps ih => rw [intercalate_cons_cons, ih]; simp

/-- `join` in closed form. -/
theorem join_eq {w : Nat} (v : List (List (BitVec w))) (d : BitVec w) :
    join v d = .ok (if d = 0 then v.flatten else List.intercalate [d] v) := by
  unfold join
  cases v with
  | nil => rw [if_pos rfl]; split <;> rfl
  | cons s v =>
    rw [if_neg (by simp)]
    by_cases hd : d = 0
    · rw [if_pos hd, hd, joinLoop_nul]; simp
    · rw [if_neg hd, intercalate_cons]
      unfold joinLoop
      rw [if_pos rfl, joinLoop_false hd]
      rfl

end Ansak
