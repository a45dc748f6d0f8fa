import Verif.Model.Tool.Sem
import Verif.Model.Tool.Ast
import Verif.Model.MkTestDataMain
import Verif.Lemmas.SplitJoin

/-!
# The text of the tool: `process`
-/

namespace Ansak.Tool

/-- The outcomes of the hand-written model. -/
def ofRes {α : Type} : Res α → R α
  | .ok a => .done a
  | .ub => .ub

/-! ## Strings -/

theorem find_le {w : List Byte} : ∀ {s : List Byte} {i j : Nat}, find w s i = some j → j ≤ i + s.length
  | [], i, j, h => by
    unfold find at h
    split at h
    · injection h with h; subst h; exact Nat.le_refl _
    · exact nomatch h
  | c :: s, i, j, h => by
    unfold find at h
    split at h
    · injection h with h; subst h; exact Nat.le_add_right ..
    · have := find_le h
      rw [List.length_cons]
      omega

theorem find_isSome (w : List Byte) : ∀ (s : List Byte) (i : Nat), (find w s i).isSome = MkTestData.contains w s
  | [], i => by
    unfold find MkTestData.contains
    cases w <;> rfl
  | c :: s, i => by
    unfold find MkTestData.contains
    by_cases h : w.isPrefixOf (c :: s) = true
    · rw [if_pos h, h]; rfl
    · rw [if_neg h, Bool.eq_false_iff.2 h, find_isSome w s (i + 1)]; rfl

theorem find_npos (w : List Byte) {s : List Byte} (h : s.length < 0xFFFFFFFFFFFFFFFF) :
    decide ((find w s 0).getD 0xFFFFFFFFFFFFFFFF ≠ 0xFFFFFFFFFFFFFFFF) = MkTestData.contains w s := by
  rw [← find_isSome w s 0]
  cases e : find w s 0 with
  | none => rfl
  | some j =>
    have := find_le e
    exact decide_eq_true (by show j ≠ _; omega)

theorem pieces_lengths (c : Byte) : ∀ (s : List Byte), ∀ p ∈ pieces c s, p.length ≤ s.length
  | [], p, hp => by
    rw [List.mem_singleton.1 hp]
    exact Nat.le_refl _
  | a :: s, p, hp => by
    have ih := pieces_lengths c s
    rw [pieces_cons] at hp
    rw [List.length_cons]
    split at hp
    · rcases List.mem_cons.1 hp with rfl | hp
      · exact Nat.zero_le _
      · exact Nat.le_succ_of_le (ih p hp)
    · split at hp
      · rw [List.mem_singleton.1 hp]
        exact Nat.succ_le_succ (Nat.zero_le _)
      · next e =>
        rw [e] at ih
        rcases List.mem_cons.1 hp with rfl | hp
        · exact Nat.succ_le_succ (ih _ (List.mem_cons_self ..))
        · exact Nat.le_succ_of_le (ih p (List.mem_cons_of_mem _ hp))

theorem split_lengths {s : List Byte} {c : Byte} {l : List (List Byte)} (h : split s c = .ok l) :
    ∀ p ∈ l, p.length ≤ s.length := by
  rw [split_eq] at h
  split at h
  · injection h with h
    subst h
    exact fun p hp => nomatch hp
  · split at h
    · injection h with h
      subst h
      exact pieces_lengths c s
    · exact nomatch h

/-! ## Files -/

/-- What is left to read. -/
def rest (d : Disk) : File → List Byte
  | .reading p pos => ((d.content p).getD []).drop pos
  | _ => []

/-- The line that is read next, and the file afterwards. -/
theorem readLine_eq (d : Disk) (f : File) (old : List Byte) :
    MkTestData.getline ⟨rest d f, true⟩ old = (⟨rest d (readLine d f).2.2, (readLine d f).2.1⟩, (readLine d f).1) := by
  unfold MkTestData.getline readLine
  rw [if_pos rfl]
  cases f with
  | reading p pos =>
    show (match (((d.content p).getD []).drop pos).findIdx? (· = 0x0A) with | some n => _ | none => _) = _
    dsimp only
    cases e : (((d.content p).getD []).drop pos).findIdx? (· = 0x0A) with
    | none =>
      simp only [rest]
      rw [← List.drop_drop, List.drop_length]
    | some n =>
      simp only [rest]
      rw [List.drop_drop]
  | closed => rfl
  | writing p => rfl

/-- The file keeps its mode. -/
theorem readLine_reading {d : Disk} {f : File} {p pos : Nat} (h : (readLine d f).2.2 = .reading p pos) :
    ∃ pos', f = .reading p pos' := by
  cases f with
  | reading q pos' =>
    unfold readLine at h
    dsimp only at h
    split at h <;> injection h with h1 h2 <;> subst h1 <;> exact ⟨_, rfl⟩
  | closed => exact nomatch h
  | writing p => exact nomatch h

theorem put_put (d : Disk) (p : Nat) (a b : List Byte) : (d.put p a).put p b = d.put p b := by
  unfold Disk.put
  congr
  funext q
  by_cases h : q = p
  · simp only [if_pos h]
  · simp only [if_neg h]

theorem fit_nil (d : Disk) (p : Nat) : d.fit p [] = [] := by
  unfold Disk.fit
  split
  · rfl
  · exact List.take_nil

theorem fit_append (d : Disk) (p : Nat) (a b : List Byte) : d.fit p (d.fit p a ++ b) = d.fit p (a ++ b) := by
  unfold Disk.fit
  cases d.room p with
  | none => rfl
  | some k =>
    dsimp only
    rw [List.take_append, List.take_append, List.take_take, Nat.min_self, List.length_take]
    congr 2
    omega

/-- The disk after `s` has been written to this file, which was empty. -/
def written (d : Disk) (f : File) (s : List Byte) : Disk :=
  match f with
  | .writing p => d.put p (d.fit p s)
  | _ => d

/-- The file that is read is not the one that is written to. -/
def Apart (fin fout : File) : Prop := ∀ p pos, fin = .reading p pos → fout ≠ .writing p

theorem rest_written {d : Disk} {fin fout : File} (h : Apart fin fout) (s : List Byte) :
    rest (written d fout s) fin = rest d fin := by
  cases fin with
  | reading p pos =>
    cases fout with
    | writing q =>
      have : p ≠ q := fun e => h p pos rfl (by rw [e])
      simp only [rest, written, Disk.put, if_neg this]
    | _ => rfl
  | _ => rfl

theorem Apart.readLine {d : Disk} {fin fout : File} (h : Apart fin fout) : Apart (readLine d fin).2.2 fout := by
  intro p pos e
  obtain ⟨pos', e'⟩ := readLine_reading e
  exact h p pos' e'

/-- Writing through the stream on the second file. -/
theorem write_out {vars : List (Nat × Val)} {fin fout : File} {d : Disk} {err out s : List Byte} :
    write (.ostream 1) s ⟨vars, [fin, fout], written d fout out, err⟩ =
      .done (.ostream 1, ⟨vars, [fin, fout], written d fout (out ++ s), err⟩) := by
  cases fout with
  | writing p =>
    show R.done _ = _
    congr 2
    show St.mk _ _ ((d.put p (d.fit p out)).put p (d.fit p ((if p = p then some (d.fit p out) else d.content p).getD [] ++ s))) _ = _
    rw [put_put, if_pos rfl]
    show St.mk _ _ (d.put p (d.fit p (d.fit p out ++ s))) _ = _
    rw [fit_append]
    rfl
  | _ => rfl

/-- `getline` from the first file. -/
theorem getline_eq {vars : List (Nat × Val)} {x y : Nat} {fin fout : File} {d : Disk} {err l : List Byte} {g : Bool}
    (hx : lookup x vars = some (.istream 0 g)) (hy : lookup y vars = some (.str l))
    (hid : update y (.str l) (update x (.istream 0 g) vars) = vars) :
    ∃ fin' g' l', MkTestData.getline ⟨rest d fin, g⟩ l = (⟨rest d fin', g'⟩, l') ∧ (Apart fin fout → Apart fin' fout) ∧
      getline x y ⟨vars, [fin, fout], d, err⟩ =
        .done (.void, ⟨update y (.str l') (update x (.istream 0 g') vars), [fin', fout], d, err⟩) := by
  cases g with
  | false =>
    refine ⟨fin, false, l, rfl, id, ?_⟩
    unfold getline
    simp only [hx, hy]
    rw [hid]
    rfl
  | true =>
    refine ⟨(readLine d fin).2.2, (readLine d fin).2.1, (readLine d fin).1, readLine_eq d fin l, Apart.readLine, ?_⟩
    unfold getline
    simp only [hx, hy]
    rfl

theorem readLine_written {d : Disk} {fin fout : File} (h : Apart fin fout) (s : List Byte) :
    readLine (written d fout s) fin = readLine d fin := by
  cases fin with
  | reading p pos =>
    cases fout with
    | writing q =>
      have : p ≠ q := fun e => h p pos rfl (by rw [e])
      simp only [readLine, written, Disk.put, if_neg this]
    | _ => rfl
  | _ => rfl

/-- The next line, whatever has been written. -/
theorem next_line {fin fout : File} {d : Disk} {err l : List Byte} {g : Bool} (ha : Apart fin fout) :
    ∃ fin' g' l', MkTestData.getline ⟨rest d fin, g⟩ l = (⟨rest d fin', g'⟩, l') ∧ Apart fin' fout ∧
      ∀ vars, lookup (name% "inStream") vars = some (.istream 0 g) → lookup (name% "oneLine") vars = some (.str l) →
      update (name% "oneLine") (.str l) (update (name% "inStream") (.istream 0 g) vars) = vars → ∀ out,
      getline (name% "inStream") (name% "oneLine") ⟨vars, [fin, fout], written d fout out, err⟩ =
      .done (.void, ⟨update (name% "oneLine") (.str l') (update (name% "inStream") (.istream 0 g') vars), [fin', fout],
        written d fout out, err⟩) := by
  cases g with
  | false =>
    refine ⟨fin, false, l, rfl, ha, fun vars hx hy hid out => ?_⟩
    unfold getline
    simp only [hx, hy]
    rw [hid]
    rfl
  | true =>
    refine ⟨(readLine d fin).2.2, (readLine d fin).2.1, (readLine d fin).1, readLine_eq d fin l, ha.readLine,
      fun vars hx hy hid out => ?_⟩
    unfold getline
    simp only [hx, hy]
    rw [← readLine_written ha out]
    rfl

theorem getline_lengths {st st' : MkTestData.In} {l l' : List Byte} {B : Nat} (h : MkTestData.getline st l = (st', l'))
    (hr : st.rest.length ≤ B) (hl : l.length ≤ B) : st'.rest.length ≤ B ∧ l'.length ≤ B := by
  unfold MkTestData.getline at h
  split at h
  · split at h
    · injection h with h1 h2
      subst h1 h2
      constructor
      · show (List.drop _ _).length ≤ B
        rw [List.length_drop]
        omega
      · rw [List.length_take]
        omega
    · injection h with h1 h2
      subst h1 h2
      exact ⟨Nat.zero_le _, hr⟩
  · injection h with h1 h2
    subst h1 h2
    exact ⟨hr, hl⟩

/-! ## Statements -/

theorem exec_seq {E : Env} {n : Nat} {s t : Stmt} {σ σ' : St} {r : R (Flow × St)} (h : exec E n s σ = .done (.next, σ'))
    (h' : exec E n t σ' = r) : exec E n (.seq s t) σ = r := by
  unfold exec
  rw [h]
  exact h'

theorem exec_seq_ub {E : Env} {n : Nat} {s t : Stmt} {σ : St} (h : exec E n s σ = .ub) : exec E n (.seq s t) σ = .ub := by
  unfold exec
  rw [h]
  rfl

theorem exec_seq_cont {E : Env} {n : Nat} {s t : Stmt} {σ σ' : St} (h : exec E n s σ = .done (.cont, σ')) :
    exec E n (.seq s t) σ = .done (.cont, σ') := by
  unfold exec
  rw [h]
  rfl

theorem exec_seq_ret {E : Env} {n : Nat} {s t : Stmt} {σ σ' : St} {v : Val} (h : exec E n s σ = .done (.ret v, σ')) :
    exec E n (.seq s t) σ = .done (.ret v, σ') := by
  unfold exec
  rw [h]
  rfl

theorem exec_expr {E : Env} {n : Nat} {e : Expr} {σ σ' : St} {v : Val} (h : eval E e σ = .done (v, σ')) :
    exec E n (.expr e) σ = .done (.next, σ') := by
  unfold exec
  rw [h]
  rfl

theorem exec_block {E : Env} {n : Nat} {s : Stmt} {σ σ' : St} {fl : Flow} (h : exec E n s σ = .done (fl, σ')) :
    exec E n (.block s) σ = .done (fl, leave σ.vars.length σ') := by
  unfold exec
  rw [h]
  rfl

theorem exec_block_ub {E : Env} {n : Nat} {s : Stmt} {σ : St} (h : exec E n s σ = .ub) :
    exec E n (.block s) σ = .ub := by
  unfold exec
  rw [h]
  rfl

theorem exec_ite {E : Env} {n : Nat} {c : Expr} {s t : Stmt} {σ σ' : St} {b : Bool} {r : R (Flow × St)}
    (h : eval E c σ = .done (.bool b, σ')) (h' : exec E n (bif b then s else t) σ' = r) : exec E n (.ite c s t) σ = r := by
  unfold exec
  rw [h]
  cases b <;> exact h'

theorem eval_shl {E : Env} {a b : Expr} {σ σ' σ'' : St} {v w : Val} (h : eval E a σ = .done (v, σ'))
    (h' : eval E b σ' = .done (w, σ'')) : eval E (.bin .shl a b) σ = put v w σ'' := by
  show (eval E a σ).bind _ = _
  rw [h]
  show (eval E b σ').bind _ = _
  rw [h']
  rfl

theorem eval_incr {E : Env} {x : Nat} {n : Int} {σ : St} (h : lookup x σ.vars = some (.int n)) :
    eval E (.incr x) σ = if n < 0x7FFFFFFF then .done (.int (n + 1), { σ with vars := update x (.int (n + 1)) σ.vars }) else .ub := by
  unfold eval
  rw [h]

/-- `a << b` where `a` writes to the second file. -/
theorem eval_out {E : Env} {a b : Expr} {σ : St} {w : Val} {vars : List (Nat × Val)} {fin fout : File} {d : Disk}
    {err out s : List Byte}
    (h : eval E a σ = .done (.ostream 1, ⟨vars, [fin, fout], written d fout out, err⟩))
    (h' : eval E b ⟨vars, [fin, fout], written d fout out, err⟩ = .done (w, ⟨vars, [fin, fout], written d fout out, err⟩))
    (hw : ∀ to σ, put to w σ = write to s σ) :
    eval E (.bin .shl a b) σ = .done (.ostream 1, ⟨vars, [fin, fout], written d fout (out ++ s), err⟩) :=
  (eval_shl h h').trans ((hw _ _).trans write_out)

/-! ## The loop -/

/-- The local variables of `process` in the loop. -/
def loopVars (k : Nat) (fs : List (List Byte)) (l : List Byte) (g : Bool) : List (Nat × Val) :=
  [(name% "nCount", .int k), (name% "fields", .vec fs), (name% "oneLine", .str l), (name% "outStream", .ostream 1),
    (name% "inStream", .istream 0 g), (name% "inbuf", .file 0), (name% "outbuf", .file 1)]

/-- The variables of the loop come before them. -/
def bodyVars (p s : Nat) (k : Nat) (fs : List (List Byte)) (l : List Byte) (g : Bool) : List (Nat × Val) :=
  (name% "privateN", .size p) :: (name% "surrogateN", .size s) :: loopVars k fs l g

theorem loop_condition (E : Env) (k : Nat) (fs : List (List Byte)) (l : List Byte) (g : Bool) (files : List File)
    (d : Disk) (err : List Byte) : eval E Ast.loopCondition ⟨loopVars k fs l g, files, d, err⟩ =
      .done (.bool (decide (10 < l.length)), ⟨loopVars k fs l g, files, d, err⟩) := rfl

theorem loop_short (E : Env) (n k : Nat) (fs : List (List Byte)) (hfs : fs.length < 2) (l : List Byte) (g : Bool) (files : List File)
    (d : Disk) (err : List Byte) : exec E n Ast.loopBody ⟨loopVars k fs l g, files, d, err⟩ = .ub := by
  match fs, hfs with
  | [], _ => rfl
  | [_], _ => rfl

/-- A line and its fields, as they are read twice in the loop. -/
theorem read_next {E : Env} {n p s k : Nat} {fs : List (List Byte)} {l : List Byte} {g : Bool} {fin fout : File} {d : Disk}
    {err l' : List Byte} {fin' : File} {g' : Bool} (t : Stmt)
    (hg : getline (name% "inStream") (name% "oneLine") ⟨bodyVars p s k fs l g, [fin, fout], d, err⟩ =
      .done (.void, ⟨bodyVars p s k fs l' g', [fin', fout], d, err⟩)) {r : Res (List (List Byte))}
    (hs : E.split l' 0x3B = ofRes r) :
    exec E n (.seq (.expr (.call (name% "getline") (.cons (.var (name% "inStream")) (.cons (.var (name% "oneLine")) .nil))))
        (.seq (.expr (.set (name% "fields")
          (.call (name% "split") (.cons (.var (name% "oneLine")) (.cons (.chr 59) .nil))))) t))
      ⟨bodyVars p s k fs l g, [fin, fout], d, err⟩ =
    match r with
    | .ok fs' => exec E n t ⟨bodyVars p s k fs' l' g', [fin', fout], d, err⟩
    | .ub => .ub := by
  refine exec_seq (exec_expr (e := .call _ _) (v := .void) hg) ?_
  have hc : eval E (.call (name% "split") (.cons (.var (name% "oneLine")) (.cons (.chr 59) .nil)))
      ⟨bodyVars p s k fs l' g', [fin', fout], d, err⟩ =
      (E.split l' 0x3B).bind fun l => .done (.vec l, ⟨bodyVars p s k fs l' g', [fin', fout], d, err⟩) := rfl
  rw [hs] at hc
  cases r with
  | ub =>
    refine exec_seq_ub ?_
    show R.bind (R.bind (eval E _ _) _) _ = _
    rw [hc]
    rfl
  | ok fs' =>
    refine exec_seq (σ' := ⟨bodyVars p s k fs' l' g', [fin', fout], d, err⟩) ?_ rfl
    show R.bind (R.bind (eval E _ _) _) _ = _
    rw [hc]
    rfl

theorem eval_or {E : Env} {a b : Expr} {σ : St} {x y : Bool} (h : eval E a σ = .done (.bool x, σ))
    (h' : eval E b σ = .done (.bool y, σ)) : eval E (.bin .or a b) σ = .done (.bool (x || y), σ) := by
  show (eval E a σ).bind _ = _
  rw [h]
  cases x with
  | true => rfl
  | false =>
    show (eval E b σ).bind _ = _
    rw [h']
    rfl

theorem eval_and {E : Env} {a b : Expr} {σ : St} {x y : Bool} (h : eval E a σ = .done (.bool x, σ))
    (h' : eval E b σ = .done (.bool y, σ)) : eval E (.bin .and a b) σ = .done (.bool (x && y), σ) := by
  show (eval E a σ).bind _ = _
  rw [h]
  cases x with
  | false => rfl
  | true =>
    show (eval E b σ).bind _ = _
    rw [h']
    rfl

theorem literals :
    [83, 117, 114, 114, 111, 103, 97, 116, 101].map (BitVec.ofNat 8) = MkTestData.str "Surrogate" ∧
    [80, 114, 105, 118, 97, 116, 101].map (BitVec.ofNat 8) = MkTestData.str "Private" ∧
    [32, 48, 120].map (BitVec.ofNat 8) = MkTestData.str " 0x" ∧
    [BitVec.ofNat 8 44] = MkTestData.str "," ∧
    0x0A :: [32, 32, 32].map (BitVec.ofNat 8) = MkTestData.str "\n   " ∧
    [32, 48, 120, 70, 70, 70, 70, 70, 70, 70, 70, 32, 125, 59].map (BitVec.ofNat 8) ++ [0x0A] =
      MkTestData.str " 0xFFFFFFFF };\n" ∧
    [99, 104, 97, 114, 51, 50, 95, 116, 32, 118, 97, 108, 105, 100, 85, 110, 105, 99, 111, 100, 101, 67, 111, 100, 101,
      80, 111, 105, 110, 116, 115, 91, 93, 32, 61, 32, 123].map (BitVec.ofNat 8) ++
      0x0A :: [32, 32, 32, 32].map (BitVec.ofNat 8) = MkTestData.str "char32_t validUnicodeCodePoints[] = {\n    " := by
  decide +kernel

/-- What is known in one round of the loop. -/
structure Round (E : Env) (f1 l : List Byte) (g : Bool) (fin fout : File) (d : Disk) (err l' : List Byte) (fin' : File) (g' : Bool)
    (r : Res (List (List Byte))) : Prop where
  short : f1.length < 0xFFFFFFFFFFFFFFFF
  split : E.split l' 0x3B = ofRes r
  line : ∀ vars, lookup (name% "inStream") vars = some (.istream 0 g) → lookup (name% "oneLine") vars = some (.str l) →
      update (name% "oneLine") (.str l) (update (name% "inStream") (.istream 0 g) vars) = vars → ∀ out,
      getline (name% "inStream") (name% "oneLine") ⟨vars, [fin, fout], written d fout out, err⟩ =
      .done (.void, ⟨update (name% "oneLine") (.str l') (update (name% "inStream") (.istream 0 g') vars), [fin', fout],
        written d fout out, err⟩)

/-- The value of `surrogateN`. -/
def surrogateN (f1 : List Byte) : Nat :=
  (find ([83, 117, 114, 114, 111, 103, 97, 116, 101].map (BitVec.ofNat 8)) f1 0).getD 0xFFFFFFFFFFFFFFFF

/-- The value of `privateN`. -/
def privateN (f1 : List Byte) : Nat :=
  (find ([80, 114, 105, 118, 97, 116, 101].map (BitVec.ofNat 8)) f1 0).getD 0xFFFFFFFFFFFFFFFF

/-- The field names a surrogate or a private character. -/
def excluded (f1 : List Byte) : Bool :=
  MkTestData.contains (MkTestData.str "Surrogate") f1 || MkTestData.contains (MkTestData.str "Private") f1

section

variable {E : Env} {n k : Nat} {f0 f1 : List Byte} {more : List (List Byte)} {l : List Byte} {g : Bool}
  {fin fout : File} {d : Disk} {err out l' : List Byte} {fin' : File} {g' : Bool} {fs' : List (List Byte)}

theorem loop_line {r : Res (List (List Byte))} (h : Round E f1 l g fin fout d err l' fin' g' r) {p s : Nat} (out : List Byte) :
    getline (name% "inStream") (name% "oneLine")
      ⟨bodyVars p s k (f0 :: f1 :: more) l g, [fin, fout], written d fout out, err⟩ =
    .done (.void, ⟨bodyVars p s k (f0 :: f1 :: more) l' g', [fin', fout], written d fout out, err⟩) :=
  h.line _ rfl rfl rfl out

theorem loop_excluded (hf : f1.length < 0xFFFFFFFFFFFFFFFF) :
    eval E (.bin .or (.bin .ne (.var (name% "surrogateN")) (.var (name% "npos")))
        (.bin .ne (.var (name% "privateN")) (.var (name% "npos"))))
      ⟨bodyVars (privateN f1) (surrogateN f1) k (f0 :: f1 :: more) l g, [fin, fout], written d fout out, err⟩ =
    .done (.bool (excluded f1),
      ⟨bodyVars (privateN f1) (surrogateN f1) k (f0 :: f1 :: more) l g, [fin, fout], written d fout out, err⟩) := by
  unfold excluded
  rw [← literals.1, ← literals.2.1, ← find_npos _ hf, ← find_npos _ hf]
  exact eval_or rfl rfl

/-- The output before the next line is read. -/
theorem loop_output {vars : List (Nat × Val)} (h : lookup (name% "outStream") vars = some (.ostream 1))
    (h' : lookup (name% "fields") vars = some (.vec (f0 :: f1 :: more))) :
    exec E n (.expr (.bin .shl (.bin .shl (.bin .shl (.var (name% "outStream")) (.lit [32, 48, 120]))
        (.index (.var (name% "fields")) (.num 0))) (.chr 44)))
      ⟨vars, [fin, fout], written d fout out, err⟩ =
    .done (.next, ⟨vars, [fin, fout], written d fout (out ++ MkTestData.str " 0x" ++ f0 ++ MkTestData.str ","), err⟩) := by
  have hv : ∀ d, eval E (.var (name% "outStream")) ⟨vars, [fin, fout], d, err⟩ =
      .done (.ostream 1, ⟨vars, [fin, fout], d, err⟩) := by
    intro d
    show (match lookup (name% "outStream") vars with | some v => R.done (v, _) | none => _) = _
    rw [h]
  have hi : ∀ d, eval E (.index (.var (name% "fields")) (.num 0)) ⟨vars, [fin, fout], d, err⟩ =
      .done (.str f0, ⟨vars, [fin, fout], d, err⟩) := by
    intro d
    show R.bind (match lookup (name% "fields") vars with | some v => R.done (v, _) | none => _) _ = _
    rw [h']
    rfl
  rw [← literals.2.2.1, ← literals.2.2.2.1]
  exact exec_expr (eval_out (eval_out (eval_out (hv _) rfl fun _ _ => rfl) (hi _) fun _ _ => rfl) rfl fun _ _ => rfl)

/-- One round of the loop: the line is left out. -/
theorem loop_body_out (h : Round E f1 l g fin fout d err l' fin' g' (.ok fs')) (hx : excluded f1 = true) :
    exec E n Ast.loopBody ⟨loopVars k (f0 :: f1 :: more) l g, [fin, fout], written d fout out, err⟩ =
      .done (.cont, ⟨loopVars k fs' l' g', [fin', fout], written d fout out, err⟩) := by
  have hc := loop_excluded (E := E) (k := k) (f0 := f0) (more := more) (l := l) (g := g) (fin := fin) (fout := fout) (d := d)
    (err := err) (out := out) h.short
  rw [hx] at hc
  have h1 := read_next (n := n) (.seq .cont .skip) (loop_line (k := k) (f0 := f0) (more := more) (p := privateN f1)
    (s := surrogateN f1) h out) h.split
  exact exec_block (exec_seq (σ' := ⟨_, _, _, _⟩) rfl
    (exec_seq (σ' := ⟨bodyVars (privateN f1) (surrogateN f1) k (f0 :: f1 :: more) l g, _, _, _⟩) rfl
      (exec_seq_cont (exec_ite hc (exec_block h1)))))

/-- One round of the loop: the next line cannot be split. -/
theorem loop_body_ub (h : Round E f1 l g fin fout d err l' fin' g' .ub) :
    exec E n Ast.loopBody ⟨loopVars k (f0 :: f1 :: more) l g, [fin, fout], written d fout out, err⟩ = .ub := by
  have hc := loop_excluded (E := E) (k := k) (f0 := f0) (more := more) (l := l) (g := g) (fin := fin) (fout := fout) (d := d)
    (err := err) (out := out) h.short
  refine exec_block_ub (exec_seq (σ' := ⟨_, _, _, _⟩) rfl
    (exec_seq (σ' := ⟨bodyVars (privateN f1) (surrogateN f1) k (f0 :: f1 :: more) l g, _, _, _⟩) rfl ?_))
  cases hx : excluded f1 with
  | true =>
    rw [hx] at hc
    exact exec_seq_ub (exec_ite hc (exec_block_ub (read_next _ (loop_line h out) h.split)))
  | false =>
    rw [hx] at hc
    exact exec_seq (exec_ite hc rfl) (exec_seq (loop_output rfl rfl) (read_next _ (loop_line h _) h.split))

/-- One round of the loop: the line is put into the table. -/
theorem loop_body_in (h : Round E f1 l g fin fout d err l' fin' g' (.ok fs')) (hx : excluded f1 = false) :
    exec E n Ast.loopBody ⟨loopVars k (f0 :: f1 :: more) l g, [fin, fout], written d fout out, err⟩ =
      match incInt k with
      | .ub => .ub
      | .ok k' => .done (.next, ⟨loopVars k' fs' l' g', [fin', fout], written d fout
          (if l'.length ≠ 0 ∧ k' % 10 = 0 then out ++ MkTestData.str " 0x" ++ f0 ++ MkTestData.str "," ++ MkTestData.str "\n   "
            else out ++ MkTestData.str " 0x" ++ f0 ++ MkTestData.str ","), err⟩) := by
  have hc := loop_excluded (E := E) (k := k) (f0 := f0) (more := more) (l := l) (g := g) (fin := fin) (fout := fout) (d := d)
    (err := err) (out := out) h.short
  rw [hx] at hc
  refine Eq.trans (b := R.bind (R.bind (exec E n (.expr (.incr (name% "nCount"))) ⟨bodyVars (privateN f1) (surrogateN f1) k fs' l' g',
    [fin', fout], written d fout (out ++ MkTestData.str " 0x" ++ f0 ++ MkTestData.str ","), err⟩) _) _)
    (congrArg (fun r => R.bind r _) (exec_seq (σ' := ⟨_, _, _, _⟩) rfl
    (exec_seq (σ' := ⟨bodyVars (privateN f1) (surrogateN f1) k (f0 :: f1 :: more) l g, _, _, _⟩) rfl
      (exec_seq (exec_ite hc rfl) (exec_seq (loop_output rfl rfl) (read_next _ (loop_line h _) h.split)))))) ?_
  unfold incInt
  by_cases hk : k < 0x7FFFFFFF
  · rw [if_pos hk]
    have hi : exec E n (.expr (.incr (name% "nCount"))) ⟨bodyVars (privateN f1) (surrogateN f1) k fs' l' g',
      [fin', fout], written d fout (out ++ MkTestData.str " 0x" ++ f0 ++ MkTestData.str ","), err⟩ = 
      .done (.next, ⟨bodyVars (privateN f1) (surrogateN f1) (k + 1) fs' l' g', [fin', fout],
        written d fout (out ++ MkTestData.str " 0x" ++ f0 ++ MkTestData.str ","), err⟩) := by
      refine exec_expr (v := .int (k + 1)) ((eval_incr (n := k) rfl).trans ?_)
      rw [if_pos (by omega)]
      rfl
    rw [hi]
    have hn : exec E n (.ite (.bin .and (.bin .ne (.method (.var (name% "oneLine")) (name% "size") .nil) (.num 0))
          (.bin .eq (.bin .mod (.var (name% "nCount")) (.num 10)) (.num 0)))
        (.block (.seq (.expr (.bin .shl (.bin .shl (.var (name% "outStream")) (.var (name% "endl"))) (.lit [32, 32, 32]))) .skip))
        .skip) ⟨bodyVars (privateN f1) (surrogateN f1) (k + 1) fs' l' g', [fin', fout],
        written d fout (out ++ MkTestData.str " 0x" ++ f0 ++ MkTestData.str ","), err⟩ =
        .done (.next, ⟨bodyVars (privateN f1) (surrogateN f1) (k + 1) fs' l' g', [fin', fout], written d fout
          (if l'.length ≠ 0 ∧ (k + 1) % 10 = 0 then
              out ++ MkTestData.str " 0x" ++ f0 ++ MkTestData.str "," ++ MkTestData.str "\n   "
            else out ++ MkTestData.str " 0x" ++ f0 ++ MkTestData.str ","), err⟩) := by
      refine exec_ite (eval_and (x := decide (l'.length ≠ 0)) rfl (y := decide ((((k + 1) % 10 : Nat) : Int) = 0)) rfl) ?_
      by_cases hl : l'.length ≠ 0 ∧ (k + 1) % 10 = 0
      · rw [if_pos hl, decide_eq_true hl.1, decide_eq_true (by omega), ← literals.2.2.2.2.1]
        refine (exec_block (exec_seq (exec_expr (eval_out (eval_out (s := [0x0A]) rfl rfl fun _ _ => rfl) rfl fun _ _ => rfl)) rfl)).trans ?_
        rw [List.append_assoc _ [0x0A]]
        rfl
      · rw [if_neg hl]
        have : (decide (l'.length ≠ 0) && decide ((((k + 1) % 10 : Nat) : Int) = 0)) = false := by
          rw [Bool.eq_false_iff]
          intro h
          rw [Bool.and_eq_true] at h
          have h1 := of_decide_eq_true h.1
          have h2 := of_decide_eq_true h.2
          exact hl ⟨h1, by omega⟩
        rw [this]
        rfl
    exact (congrArg (fun r => R.bind r _) (exec_seq hn rfl)).trans rfl
  · rw [if_neg hk]
    have hi : exec E n (.expr (.incr (name% "nCount"))) ⟨bodyVars (privateN f1) (surrogateN f1) k fs' l' g',
      [fin', fout], written d fout (out ++ MkTestData.str " 0x" ++ f0 ++ MkTestData.str ","), err⟩ = .ub := by
      unfold exec
      rw [eval_incr (n := k) rfl, if_neg (by omega)]
      rfl
    rw [hi]
    rfl

end

/-- `split` of the library for the lines of files of at most `B` bytes. -/
def Splits (split' : List Byte → Byte → R (List (List Byte))) (B : Nat) : Prop :=
  ∀ l : List Byte, l.length ≤ B → split' l 0x3B = ofRes (split l 0x3B)

/-- The loop does what the hand-written model does. -/
theorem loop_eq {E : Env} {B m : Nat} (hE : Splits E.split B) (hB : B < 0xFFFFFFFFFFFFFFFF) {fout : File} {d : Disk} {err : List Byte} :
    ∀ (n : Nat) (fin : File) (g : Bool) (l : List Byte) (fs : List (List Byte)) (k : Nat) (out : List Byte), Apart fin fout →
    (rest d fin).length ≤ B → l.length ≤ B → (∀ f ∈ fs, f.length ≤ B) →
    match MkTestData.processLoop n ⟨rest d fin, g⟩ l fs k out with
    | none => iterate (eval E Ast.loopCondition) (exec E m Ast.loopBody) n
        ⟨loopVars k fs l g, [fin, fout], written d fout out, err⟩ = .timeout
    | some .ub => iterate (eval E Ast.loopCondition) (exec E m Ast.loopBody) n
        ⟨loopVars k fs l g, [fin, fout], written d fout out, err⟩ = .ub
    | some (.ok out') => ∃ k' fs' l' g' fin' out'', out' = out'' ++ MkTestData.str " 0xFFFFFFFF };\n" ∧
        iterate (eval E Ast.loopCondition) (exec E m Ast.loopBody) n
          ⟨loopVars k fs l g, [fin, fout], written d fout out, err⟩ =
        .done (.next, ⟨loopVars k' fs' l' g', [fin', fout], written d fout out'', err⟩)
  | 0, _, _, _, _, _, _, _, _, _, _ => rfl
  | n + 1, fin, g, l, fs, k, out, ha, hr, hl, hfs => by
    unfold MkTestData.processLoop iterate
    rw [loop_condition]
    by_cases hlen : l.length > 10
    · rw [if_pos hlen, decide_eq_true hlen]
      simp only [R.bind]
      match fs, hfs with
      | [], _ => rw [loop_short E m k [] (by decide)]; rfl
      | [f], _ => rw [loop_short E m k [f] (by simp)]; rfl
      | f0 :: f1 :: more, hfs =>
        simp only [readAt, List.getElem?_cons_succ, List.getElem?_cons_zero]
        have hf1 : f1.length < 0xFFFFFFFFFFFFFFFF :=
          Nat.lt_of_le_of_lt (hfs f1 (List.mem_cons_of_mem _ (List.mem_cons_self ..))) hB
        obtain ⟨fin', g', l', hg, ha', hline⟩ : ∃ fin' g' l', MkTestData.getline ⟨rest d fin, g⟩ l = (⟨rest d fin', g'⟩, l') ∧
            Apart fin' fout ∧
            ∀ vars, lookup (name% "inStream") vars = some (.istream 0 g) → lookup (name% "oneLine") vars = some (.str l) →
            update (name% "oneLine") (.str l) (update (name% "inStream") (.istream 0 g) vars) = vars → ∀ out,
            getline (name% "inStream") (name% "oneLine") ⟨vars, [fin, fout], written d fout out, err⟩ =
            .done (.void, ⟨update (name% "oneLine") (.str l') (update (name% "inStream") (.istream 0 g') vars), [fin', fout],
              written d fout out, err⟩) := by
          exact next_line ha
        have hlens := getline_lengths (B := B) hg hr hl
        rw [hg]
        have hs := hE l' hlens.2
        dsimp only
        cases hsp : split l' 0x3B with
        | ub =>
          rw [hsp] at hs
          rw [loop_body_ub ⟨hf1, hs, hline⟩]
        | ok fs' =>
          rw [hsp] at hs
          have hfs' : ∀ f ∈ fs', f.length ≤ B := fun f hf => Nat.le_trans (split_lengths hsp f hf) hlens.2
          dsimp only
          by_cases hx : excluded f1 = true
          · rw [if_pos ((Bool.or_eq_true _ _).mp hx), loop_body_out ⟨hf1, hs, hline⟩ hx]
            exact loop_eq hE hB n fin' g' l' fs' k out ha' hlens.1 hlens.2 hfs'
          · rw [if_neg fun h => hx ((Bool.or_eq_true _ _).mpr h),
              loop_body_in ⟨hf1, hs, hline⟩ (Bool.eq_false_iff.2 hx)]
            cases hk : incInt k with
            | ub => rfl
            | ok k' =>
              exact loop_eq hE hB n fin' g' l' fs' k' _ ha' hlens.1 hlens.2 hfs'
    · rw [if_neg hlen, decide_eq_false hlen]
      exact ⟨k, fs, l, g, fin, out, rfl, rfl⟩

/-! ## The function -/

/-- The local variables of `process` before the loop. -/
def startVars (l : List Byte) (g : Bool) : List (Nat × Val) :=
  [(name% "oneLine", .str l), (name% "outStream", .ostream 1), (name% "inStream", .istream 0 g), (name% "inbuf", .file 0),
    (name% "outbuf", .file 1)]

/-- `process` does what the hand-written model does. -/
theorem process_eq {split' : List Byte → Byte → R (List (List Byte))} {B n : Nat} (hE : Splits split' B)
    (hB : B < 0xFFFFFFFFFFFFFFFF) {fin fout : File} {d : Disk} {err : List Byte} {vars : List (Nat × Val)}
    (hr : (rest (written d fout []) fin).length ≤ B) :
    match MkTestData.process n (rest (written d fout []) fin) with
    | none => program split' n [Ast.process] (name% "process") [.file 0, .file 1]
        ⟨vars, [fin, fout], written d fout [], err⟩ = .timeout
    | some .ub => program split' n [Ast.process] (name% "process") [.file 0, .file 1]
        ⟨vars, [fin, fout], written d fout [], err⟩ = .ub
    | some (.ok out) => ∃ fin', program split' n [Ast.process] (name% "process") [.file 0, .file 1]
        ⟨vars, [fin, fout], written d fout [], err⟩ = .done (.void, ⟨vars, [fin', .closed], written d fout out, err⟩) := by
  let E : Env := ⟨program split' n [], split'⟩
  -- the first line
  obtain ⟨fin', g', l', hg, ha, hline⟩ := getline_eq (vars := startVars [] true) (x := name% "inStream") (y := name% "oneLine")
    (fin := fin) (fout := fout) (d := written d fout []) (err := err) (l := []) (g := true) rfl rfl rfl
  have hlens := getline_lengths (B := B) hg hr (Nat.zero_le _)
  have hs := hE l' hlens.2
  -- the statements before the first branch
  have hcall : ∀ {r : R (Flow × St)}, exec E n Ast.process.body
      ⟨[(name% "inbuf", .file 0), (name% "outbuf", .file 1)], [fin, fout], written d fout [], err⟩ = r →
      program split' n [Ast.process] (name% "process") [.file 0, .file 1] ⟨vars, [fin, fout], written d fout [], err⟩ =
      R.bind r fun (fl, σ') =>
        match fl with
        | .next => .done (.void, { σ' with vars := vars })
        | .ret (.int k) => .stuck
        | _ => .stuck := by
    intro r h
    subst h
    rfl
  have hbegin : ∀ {t : Stmt} {r : R (Flow × St)},
      exec E n t ⟨startVars l' g', [fin', fout], written d fout [], err⟩ = r →
      exec E n (.seq (.make (name% "istream") (name% "inStream") (.cons (.addr (name% "inbuf")) .nil))
        (.seq (.make (name% "ostream") (name% "outStream") (.cons (.addr (name% "outbuf")) .nil))
        (.seq (.make (name% "string") (name% "oneLine") .nil)
        (.seq (.expr (.call (name% "getline") (.cons (.var (name% "inStream")) (.cons (.var (name% "oneLine")) .nil)))) t))))
        ⟨[(name% "inbuf", .file 0), (name% "outbuf", .file 1)], [fin, fout], written d fout [], err⟩ = r := by
    intro t r h
    have hget : exec E n (.expr (.call (name% "getline") (.cons (.var (name% "inStream")) (.cons (.var (name% "oneLine")) .nil))))
        ⟨startVars [] true, [fin, fout], written d fout [], err⟩ =
        .done (.next, ⟨startVars l' g', [fin', fout], written d fout [], err⟩) := exec_expr (v := .void) hline
    exact exec_seq (σ' := ⟨_, _, _, _⟩) rfl (exec_seq (σ' := ⟨_, _, _, _⟩) rfl
      (exec_seq (σ' := ⟨startVars [] true, _, _, _⟩) rfl (exec_seq hget h)))
  have hsplit : eval E (.call (name% "split") (.cons (.var (name% "oneLine")) (.cons (.chr 59) .nil)))
      ⟨startVars l' g', [fin', fout], written d fout [], err⟩ =
      (split' l' 0x3B).bind fun l => .done (.vec l, ⟨startVars l' g', [fin', fout], written d fout [], err⟩) := rfl
  rw [hs] at hsplit
  unfold MkTestData.process
  rw [hg]
  dsimp only
  cases hsp : split l' 0x3B with
  | ub =>
    rw [hsp] at hsplit
    have hdecl : exec E n (.decl (name% "auto") (name% "fields")
        (.call (name% "split") (.cons (.var (name% "oneLine")) (.cons (.chr 59) .nil))))
        ⟨startVars l' g', [fin', fout], written d fout [], err⟩ = .ub := by
      unfold exec
      rw [hsplit]
      rfl
    exact hcall (hbegin (exec_seq_ub hdecl))
  | ok fs =>
    rw [hsp] at hsplit
    have hdecl : exec E n (.decl (name% "auto") (name% "fields")
        (.call (name% "split") (.cons (.var (name% "oneLine")) (.cons (.chr 59) .nil))))
        ⟨startVars l' g', [fin', fout], written d fout [], err⟩ =
        .done (.next, ⟨(name% "fields", .vec fs) :: startVars l' g', [fin', fout], written d fout [], err⟩) := by
      unfold exec
      rw [hsplit]
      rfl
    dsimp only
    match fs, hsp with
    | [], hsp =>
      rw [if_pos rfl]
      refine ⟨fin', (hcall (hbegin (exec_seq hdecl ?_))).trans (b := R.bind (.done (.next,
        ⟨(name% "fields", .vec []) :: startVars l' g', [fin', .closed], written d fout [], err⟩)) _) rfl⟩
      rfl
    | f :: fs, hsp =>
      have ha' : Apart fin' fout := by
        refine ha fun p pos e e' => ?_
        subst e e'
        have : rest (written d (.writing p) []) (.reading p pos) = [] := by
          simp only [rest, written, Disk.put, if_true, fit_nil]
          exact List.drop_nil
        rw [this] at hg
        have : l' = [] := (congrArg Prod.snd hg).symm
        rw [this] at hsp
        exact nomatch hsp
      rw [if_neg (by simp)]
      have hloop := loop_eq (E := E) (m := n) hE hB (err := err) n fin' g' l' (f :: fs) 0
        (MkTestData.str "char32_t validUnicodeCodePoints[] = {\n    ") ha'
        (by rw [← rest_written ha' []]; exact hlens.1) hlens.2
        (fun q hq => Nat.le_trans (split_lengths hsp q hq) hlens.2)
      rw [rest_written ha']
      have hhead : exec E n (.expr (.bin .shl (.bin .shl (.bin .shl (.var (name% "outStream")) (.lit [99, 104, 97, 114, 51, 50, 95,
            116, 32, 118, 97, 108, 105, 100, 85, 110, 105, 99, 111, 100, 101, 67, 111, 100, 101, 80, 111, 105, 110, 116, 115, 91,
            93, 32, 61, 32, 123])) (.var (name% "endl"))) (.lit [32, 32, 32, 32])))
          ⟨(name% "fields", .vec (f :: fs)) :: startVars l' g', [fin', fout], written d fout [], err⟩ =
          .done (.next, ⟨(name% "fields", .vec (f :: fs)) :: startVars l' g', [fin', fout],
            written d fout (MkTestData.str "char32_t validUnicodeCodePoints[] = {\n    "), err⟩) := by
        rw [← literals.2.2.2.2.2.2]
        refine (exec_expr (eval_out (eval_out (s := [0x0A]) (eval_out (out := []) rfl rfl fun _ _ => rfl) rfl fun _ _ => rfl)
          rfl fun _ _ => rfl)).trans ?_
        rw [List.append_assoc _ [0x0A]]
        rfl
      have hblock : ∀ {t : Stmt} {r : R (Flow × St)}, R.bind (iterate (eval E Ast.loopCondition) (exec E n Ast.loopBody) n
          ⟨loopVars 0 (f :: fs) l' g', [fin', fout], written d fout (MkTestData.str "char32_t validUnicodeCodePoints[] = {\n    "), err⟩)
          (fun (fl, σ) => match fl with | .next => exec E n t σ | fl => .done (fl, σ)) = r →
          exec E n (.seq (.expr (.bin .shl (.bin .shl (.bin .shl (.var (name% "outStream")) (.lit [99, 104, 97, 114, 51, 50, 95,
            116, 32, 118, 97, 108, 105, 100, 85, 110, 105, 99, 111, 100, 101, 67, 111, 100, 101, 80, 111, 105, 110, 116, 115, 91,
            93, 32, 61, 32, 123])) (.var (name% "endl"))) (.lit [32, 32, 32, 32])))
            (.seq (.decl (name% "int") (name% "nCount") (.num 0)) (.seq (.loop Ast.loopCondition Ast.loopBody) t)))
            ⟨(name% "fields", .vec (f :: fs)) :: startVars l' g', [fin', fout], written d fout [], err⟩ = r :=
        fun {t r} h => exec_seq hhead (exec_seq (σ' := ⟨loopVars 0 (f :: fs) l' g', _, _, _⟩) rfl h)
      cases hp : MkTestData.processLoop n ⟨rest d fin', g'⟩ l' (f :: fs) 0
          (MkTestData.str "char32_t validUnicodeCodePoints[] = {\n    ") with
      | none =>
        rw [hp] at hloop
        refine (hcall (hbegin (exec_seq hdecl ?_))).trans (b := R.bind .timeout _) rfl
        show R.bind (exec E n (.ite _ (.block _) _) _) _ = _
        rw [exec_ite (b := true) rfl (r := .timeout)]
        · rfl
        · show R.bind (exec E n _ _) _ = _
          rw [hblock (r := .timeout) (by rw [hloop]; rfl)]
          rfl
      | some r =>
        rw [hp] at hloop
        cases r with
        | ub =>
          refine (hcall (hbegin (exec_seq hdecl ?_))).trans (b := R.bind .ub _) rfl
          show R.bind (exec E n (.ite _ (.block _) _) _) _ = _
          rw [exec_ite (b := true) rfl (r := .ub)]
          · rfl
          · show R.bind (exec E n _ _) _ = _
            rw [hblock (r := .ub) (by rw [hloop]; rfl)]
            rfl
        | ok out =>
          obtain ⟨k', fs', l'', g'', fin'', out'', e, hloop⟩ := hloop
          refine ⟨fin'', (hcall (hbegin (exec_seq hdecl ?_))).trans (b := R.bind (.done (.next,
            ⟨(name% "fields", .vec fs') :: startVars l'' g'', [fin'', .closed], written d fout out, err⟩)) _) rfl⟩
          have hfoot : exec E n (.seq (.expr (.bin .shl (.bin .shl (.var (name% "outStream"))
                (.lit [32, 48, 120, 70, 70, 70, 70, 70, 70, 70, 70, 32, 125, 59])) (.var (name% "endl")))) .skip)
              ⟨loopVars k' fs' l'' g'', [fin'', fout], written d fout out'', err⟩ =
              .done (.next, ⟨loopVars k' fs' l'' g'', [fin'', fout], written d fout out, err⟩) := by
            rw [e, ← literals.2.2.2.2.2.1, ← List.append_assoc]
            exact exec_seq (exec_expr (eval_out (s := [0x0A]) (eval_out rfl rfl fun _ _ => rfl) rfl fun _ _ => rfl)) rfl
          show R.bind (exec E n (.ite _ (.block _) _) _) _ = _
          rw [exec_ite (b := true) rfl (r := .done (.next,
            ⟨(name% "fields", .vec fs') :: startVars l'' g'', [fin'', fout], written d fout out, err⟩))]
          · rfl
          · show R.bind (exec E n _ _) _ = _
            rw [hblock (r := .done (.next, ⟨loopVars k' fs' l'' g'', [fin'', fout], written d fout out, err⟩))
              (by rw [hloop]; exact hfoot)]
            rfl

end Ansak.Tool
