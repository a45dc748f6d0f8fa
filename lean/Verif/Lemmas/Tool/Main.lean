import Verif.Lemmas.Tool.Process
import Verif.Lemmas.Tool.Text

/-!
# The text of the tool: `main`
-/

namespace Ansak.Tool

/-- The first line of the messages. -/
def usage (prog : List Byte) : List Byte :=
  MkTestData.str "Usage: " ++ prog ++ MkTestData.str " <infile> <outfile>" ++ MkTestData.str "\n"

/-- `a << b` where `a` is `cerr`. -/
theorem eval_err {E : Env} {a b : Expr} {σ σ' : St} {w : Val} {s : List Byte}
    (h : eval E a σ = .done (.cerr, σ')) (h' : eval E b σ' = .done (w, σ')) (hw : ∀ to σ, put to w σ = write to s σ) :
    eval E (.bin .shl a b) σ = .done (.cerr, { σ' with err := σ'.err ++ s }) :=
  (eval_shl h h').trans (hw _ _)

variable {split' : List Byte → Byte → R (List (List Byte))} {n : Nat}

/-- The parameters of `main`. -/
def mainVars (args : List (List Byte)) : List (Nat × Val) :=
  [(name% "argc", .int args.length), (name% "argv", .ptrs (args.map some ++ [none]))]

theorem run_main {args : List (List Byte)} {d : Disk} {r : R (Flow × St)}
    (h : exec ⟨program split' n [Ast.process], split'⟩ n Ast.main.body ⟨mainVars args, [], d, []⟩ = r) :
    run source split' n args d = R.bind r fun (fl, σ) =>
      match fl with
      | .ret (.int k) => .done ⟨k, σ.disk, σ.err⟩
      | _ => .stuck := by
  unfold run
  rw [parse_source]
  show R.bind (R.bind (exec ⟨program split' n [Ast.process], split'⟩ n Ast.main.body ⟨mainVars args, [], d, []⟩) _) _ = _
  rw [h]
  cases r with
  | done p =>
    obtain ⟨fl, σ⟩ := p
    cases fl with
    | next => rfl
    | cont => rfl
    | ret v => cases v <;> rfl
  | _ => rfl

theorem run_nothing (d : Disk) : run source split' n [] d = .ub := run_main (r := .ub) rfl

theorem messages :
    [85, 115, 97, 103, 101, 58, 32].map (BitVec.ofNat 8) = MkTestData.str "Usage: " ∧
    [32, 60, 105, 110, 102, 105, 108, 101, 62, 32, 60, 111, 117, 116, 102, 105, 108, 101, 62].map (BitVec.ofNat 8) =
      MkTestData.str " <infile> <outfile>" ∧
    [0x0A] = MkTestData.str "\n" ∧
    [32, 32, 32, 32, 116, 111, 32, 99, 111, 110, 118, 101, 114, 116, 32, 59, 45, 100, 101, 108, 105, 109, 105, 116, 101, 100,
      32, 85, 110, 105, 99, 111, 100, 101, 32, 100, 97, 116, 97, 32, 105, 110, 116, 111, 32, 97, 110, 32, 97, 114, 114, 97, 121,
      32, 111, 102, 32, 116, 101, 115, 116, 32, 100, 97, 116, 97, 46].map (BitVec.ofNat 8) ++ [0x0A] =
      MkTestData.str "    to convert ;-delimited Unicode data into an array of test data.\n" ∧
    [32, 32, 32, 32, 105, 110, 102, 105, 108, 101, 32, 100, 111, 101, 115, 32, 110, 111, 116, 32, 101, 120, 105, 115, 116,
      46].map (BitVec.ofNat 8) ++ [0x0A] = MkTestData.str "    infile does not exist.\n" := by
  decide +kernel

/-- The message that the tool writes first. -/
theorem eval_usage {E : Env} {prog : List Byte} {args : List (List Byte)} {vars : List (Nat × Val)} {files : List File} {d : Disk} 
    (h : lookup (name% "argv") vars = some (.ptrs ((prog :: args).map some ++ [none]))) (h' : lookup (name% "cerr") vars = none)
    (h'' : lookup (name% "endl") vars = none) :
    exec E n (.expr (.bin .shl (.bin .shl (.bin .shl (.bin .shl (.var (name% "cerr")) (.lit [85, 115, 97, 103, 101, 58, 32])) (.index (.var (name% "argv")) (.num 0))) (.lit [32, 60, 105, 110, 102, 105, 108, 101, 62, 32, 60, 111, 117, 116, 102, 105, 108, 101, 62])) (.var (name% "endl"))))
      ⟨vars, files, d, []⟩ = .done (.next, ⟨vars, files, d, usage prog⟩) := by
  have hc : eval E (.var (name% "cerr")) ⟨vars, files, d, []⟩ = .done (.cerr, ⟨vars, files, d, []⟩) := by
    unfold eval
    rw [h']
    rfl
  have he : ∀ err, eval E (.var (name% "endl")) ⟨vars, files, d, err⟩ = .done (.endl, ⟨vars, files, d, err⟩) := by
    intro err
    unfold eval
    rw [h'']
    rfl
  have hi : ∀ err, eval E (.index (.var (name% "argv")) (.num 0)) ⟨vars, files, d, err⟩ =
      .done (.ptr (some prog), ⟨vars, files, d, err⟩) := by
    intro err
    unfold eval
    have : eval E (.var (name% "argv")) ⟨vars, files, d, err⟩ =
      .done (.ptrs ((prog :: args).map some ++ [none]), ⟨vars, files, d, err⟩) := by
      unfold eval
      rw [h]
    rw [this]
    rfl
  unfold usage
  rw [← messages.1, ← messages.2.1, ← messages.2.2.1]
  exact exec_expr (eval_err (eval_err (eval_err (eval_err hc rfl fun _ _ => rfl) (hi _) fun _ _ => rfl) rfl fun _ _ => rfl)
    (he _) fun _ _ => rfl)

/-- The messages and the exit code. -/
theorem exec_message {E : Env} {prog : List Byte} {args : List (List Byte)} {vars : List (Nat × Val)} {files : List File} {d : Disk}
    (h : lookup (name% "argv") vars = some (.ptrs ((prog :: args).map some ++ [none]))) (h' : lookup (name% "cerr") vars = none)
    (h'' : lookup (name% "endl") vars = none) (cs : List Nat) (k : Nat) :
    exec E n (.block (.seq (.expr (.bin .shl (.bin .shl (.bin .shl (.bin .shl (.var (name% "cerr")) (.lit [85, 115, 97, 103, 101, 58, 32])) (.index (.var (name% "argv")) (.num 0))) (.lit [32, 60, 105, 110, 102, 105, 108, 101, 62, 32, 60, 111, 117, 116, 102, 105, 108, 101, 62])) (.var (name% "endl"))))
      (.seq (.expr (.bin .shl (.bin .shl (.var (name% "cerr")) (.lit cs)) (.var (name% "endl")))) (.seq (.ret (.num k)) .skip))))
      ⟨vars, files, d, []⟩ =
    .done (.ret (.int k), ⟨vars, files, d, usage prog ++ (cs.map (BitVec.ofNat 8) ++ [0x0A])⟩) := by
  have hc : ∀ err, eval E (.var (name% "cerr")) ⟨vars, files, d, err⟩ = .done (.cerr, ⟨vars, files, d, err⟩) := by
    intro err
    unfold eval
    rw [h']
    rfl
  have he : ∀ err, eval E (.var (name% "endl")) ⟨vars, files, d, err⟩ = .done (.endl, ⟨vars, files, d, err⟩) := by
    intro err
    unfold eval
    rw [h'']
    rfl
  refine (exec_block (exec_seq (eval_usage h h' h'') (exec_seq (exec_expr (eval_err (s := [0x0A]) (eval_err (hc _) rfl fun _ _ => rfl)
    (he _) fun _ _ => rfl)) (exec_seq_ret rfl)))).trans ?_
  unfold leave
  dsimp only
  rw [Nat.sub_self, List.drop_zero, List.append_assoc]

/-- Not two arguments. -/
theorem run_usage (prog : List Byte) (args : List (List Byte)) (h : args.length ≠ 2) (d : Disk) :
    run source split' n (prog :: args) d = .done ⟨1, d, usage prog ++
      MkTestData.str "    to convert ;-delimited Unicode data into an array of test data.\n"⟩ := by
  rw [← messages.2.2.2.1]
  refine run_main (r := .done (.ret (.int 1), ⟨mainVars (prog :: args), [], d, _⟩))
    (exec_seq_ret (exec_ite (b := true) (σ' := ⟨mainVars (prog :: args), [], d, []⟩) ?_ (exec_message rfl rfl rfl _ 1)))
  show R.done (Val.bool (decide ((((prog :: args).length : Nat) : Int) ≠ 3)), _) = _
  rw [decide_eq_true (by rw [List.length_cons]; omega)]

/-- The input file does not exist. -/
theorem run_missing (prog a b : List Byte) (d : Disk) (h : d.content (d.place a) = none) :
    run source split' n [prog, a, b] d = .done ⟨2, d, usage prog ++ MkTestData.str "    infile does not exist.\n"⟩ := by
  rw [← messages.2.2.2.2]
  refine run_main (r := .done (.ret (.int 2), ⟨(name% "rc", .int (-1)) :: (name% "statData", .stat) :: mainVars [prog, a, b], [], d, _⟩))
    (exec_seq (exec_ite (b := false) (σ' := ⟨mainVars [prog, a, b], [], d, []⟩) rfl rfl) 
      (exec_seq (σ' := ⟨(name% "statData", .stat) :: mainVars [prog, a, b], [], d, []⟩) rfl
        (exec_seq (σ' := ⟨(name% "rc", .int (-1)) :: (name% "statData", .stat) :: mainVars [prog, a, b], [], d, []⟩) ?_
          (exec_seq_ret (exec_ite (b := true) (σ' := ⟨_, [], d, []⟩) rfl (exec_message rfl rfl rfl _ 2))))))
  show R.bind (R.done (Val.int (if (d.content (d.place a)).isSome then 0 else -1), _)) _ = _
  rw [h]
  rfl

/-- What the tool reads. -/
def input (d : Disk) (a b : List Byte) : List Byte :=
  if d.readable (d.place a) ∧ ¬ (d.place a = d.place b ∧ d.writable (d.place b)) then (d.content (d.place a)).getD [] else []

/-- The state of `inBuf` after `open`, if the file exists. -/
def inFile (d : Disk) (a : List Byte) : File := if d.readable (d.place a) then .reading (d.place a) 0 else .closed

/-- The state of `outBuf` after `open`. -/
def outFile (d : Disk) (b : List Byte) : File := if d.writable (d.place b) then .writing (d.place b) else .closed

/-- The variables of `main` after `stat`. -/
def statVars (prog a b : List Byte) : List (Nat × Val) :=
  (name% "rc", .int 0) :: (name% "statData", .stat) :: mainVars [prog, a, b]

/-- The variables of `main` in `try`. -/
def tryVars (prog a b : List Byte) (o2 : Bool) : List (Nat × Val) :=
  (name% "outBuf", .file 1) :: (name% "inBuf", .file 0) :: (name% "opened2", .bool o2) :: (name% "opened1", .bool true) ::
    statVars prog a b

/-- Before `try`, and after it. -/
theorem exec_main {prog a b : List Byte} {d : Disk} (h : (d.content (d.place a)).isSome = true) {r : R (Flow × St)}
    (h' : R.bind (exec ⟨program split' n [Ast.process], split'⟩ n Ast.attempt
      ⟨(name% "opened2", .bool false) :: (name% "opened1", .bool false) :: statVars prog a b, [], d, []⟩)
      (fun (fl, σ) => match fl with | .next => .done (.ret (.int 0), σ) | fl => .done (fl, σ)) = r) :
    exec ⟨program split' n [Ast.process], split'⟩ n Ast.main.body ⟨mainVars [prog, a, b], [], d, []⟩ = r := by
  refine exec_seq (exec_ite (b := false) (σ' := ⟨mainVars [prog, a, b], [], d, []⟩) rfl rfl)
    (exec_seq (σ' := ⟨(name% "statData", .stat) :: mainVars [prog, a, b], [], d, []⟩) rfl
    (exec_seq (σ' := ⟨statVars prog a b, [], d, []⟩) ?_
    (exec_seq (exec_ite (b := false) (σ' := ⟨statVars prog a b, [], d, []⟩) rfl rfl)
    (exec_seq (σ' := ⟨_, [], d, []⟩) rfl
    (exec_seq (σ' := ⟨(name% "opened2", .bool false) :: (name% "opened1", .bool false) :: statVars prog a b, [], d, []⟩) rfl h')))))
  show R.bind (R.done (Val.int (if (d.content (d.place a)).isSome then 0 else -1), _)) _ = _
  rw [h]
  rfl

theorem exec_seq_timeout {E : Env} {n : Nat} {s t : Stmt} {σ : St} (h : exec E n s σ = .timeout) :
    exec E n (.seq s t) σ = .timeout := by
  unfold exec
  rw [h]
  rfl

theorem exec_block_timeout {E : Env} {n : Nat} {s : Stmt} {σ : St} (h : exec E n s σ = .timeout) :
    exec E n (.block s) σ = .timeout := by
  unfold exec
  rw [h]
  rfl

/-- The statements in `try` before the call of `process`. -/
theorem attempt_begin {E : Env} {prog a b : List Byte} {d : Disk} (h : (d.content (d.place a)).isSome = true) {t : Stmt}
    {r : R (Flow × St)} (h' : exec E n t ⟨tryVars prog a b true, [inFile d a, outFile d b], written d (outFile d b) [], []⟩ = r) :
    exec E n (.seq (.make (name% "filebuf") (name% "inBuf") .nil)
      (.seq (.expr (.method (.var (name% "inBuf")) (name% "open") (.cons (.index (.var (name% "argv")) (.num 1)) (.cons (.var (name% "in")) .nil))))
      (.seq (.expr (.set (name% "opened1") (.bool true)))
      (.seq (.make (name% "filebuf") (name% "outBuf") .nil)
      (.seq (.expr (.method (.var (name% "outBuf")) (name% "open") (.cons (.index (.var (name% "argv")) (.num 2)) (.cons (.bin .bitOr (.var (name% "out")) (.var (name% "trunc"))) .nil))))
      (.seq (.expr (.set (name% "opened2") (.bool true))) t))))))
      ⟨(name% "opened2", .bool false) :: (name% "opened1", .bool false) :: statVars prog a b, [], d, []⟩ = r := by
  refine exec_seq (σ' := ⟨(name% "inBuf", .file 0) :: (name% "opened2", .bool false) :: (name% "opened1", .bool false) ::
      statVars prog a b, [.closed], d, []⟩) rfl
    (exec_seq (σ' := ⟨(name% "inBuf", .file 0) :: (name% "opened2", .bool false) :: (name% "opened1", .bool false) ::
      statVars prog a b, [inFile d a], d, []⟩) (exec_expr (v := .void) ?_)
    (exec_seq (σ' := ⟨(name% "inBuf", .file 0) :: (name% "opened2", .bool false) :: (name% "opened1", .bool true) ::
      statVars prog a b, [inFile d a], d, []⟩) rfl
    (exec_seq (σ' := ⟨tryVars prog a b false, [inFile d a, .closed], d, []⟩) rfl
    (exec_seq (σ' := ⟨tryVars prog a b false, [inFile d a, outFile d b], written d (outFile d b) [], []⟩) (exec_expr (v := .void) ?_)
    (exec_seq (σ' := ⟨tryVars prog a b true, [inFile d a, outFile d b], written d (outFile d b) [], []⟩) rfl h')))))
  · show R.done (Val.void, St.mk _ [if (d.content (d.place a)).isSome && d.readable (d.place a) then _ else _] _ _) = _
    rw [h, Bool.true_and]
    rfl
  · show R.done (Val.void, St.mk _ [inFile d a, (if d.writable (d.place b) then (File.writing (d.place b), d.put (d.place b) [])
        else (File.closed, d)).1] (if d.writable (d.place b) then (File.writing (d.place b), d.put (d.place b) [])
        else (File.closed, d)).2 _) = _
    unfold outFile
    cases d.writable (d.place b)
    · rfl
    · show _ = R.done (Val.void, St.mk _ _ (d.put (d.place b) (d.fit (d.place b) [])) _)
      rw [fit_nil]
      rfl

section

variable {prog a b : List Byte} {d : Disk} (h : (d.content (d.place a)).isSome = true) 

include h

theorem attempt_timeout (hp : program split' n [Ast.process] (name% "process") [.file 0, .file 1]
      ⟨tryVars prog a b true, [inFile d a, outFile d b], written d (outFile d b) [], []⟩ = .timeout) :
    R.bind (exec ⟨program split' n [Ast.process], split'⟩ n Ast.attempt
      ⟨(name% "opened2", .bool false) :: (name% "opened1", .bool false) :: statVars prog a b, [], d, []⟩)
      (fun (fl, σ) => match fl with | .next => .done (.ret (.int 0), σ) | fl => .done (fl, σ)) = .timeout := by
  have hcall : exec ⟨program split' n [Ast.process], split'⟩ n (.expr (.call (name% "process")
      (.cons (.var (name% "inBuf")) (.cons (.var (name% "outBuf")) .nil))))
      ⟨tryVars prog a b true, [inFile d a, outFile d b], written d (outFile d b) [], []⟩ = .timeout := by
    show R.bind (program split' n [Ast.process] (name% "process") [.file 0, .file 1] _) _ = _
    rw [hp]
    rfl
  have hb : exec ⟨program split' n [Ast.process], split'⟩ n Ast.attempt
      ⟨(name% "opened2", .bool false) :: (name% "opened1", .bool false) :: statVars prog a b, [], d, []⟩ = .timeout :=
    exec_block_timeout (attempt_begin h (exec_seq_timeout hcall))
  rw [hb]
  rfl

theorem attempt_ub (hp : program split' n [Ast.process] (name% "process") [.file 0, .file 1]
      ⟨tryVars prog a b true, [inFile d a, outFile d b], written d (outFile d b) [], []⟩ = .ub) :
    R.bind (exec ⟨program split' n [Ast.process], split'⟩ n Ast.attempt
      ⟨(name% "opened2", .bool false) :: (name% "opened1", .bool false) :: statVars prog a b, [], d, []⟩)
      (fun (fl, σ) => match fl with | .next => .done (.ret (.int 0), σ) | fl => .done (fl, σ)) = .ub := by
  have hcall : exec ⟨program split' n [Ast.process], split'⟩ n (.expr (.call (name% "process")
      (.cons (.var (name% "inBuf")) (.cons (.var (name% "outBuf")) .nil))))
      ⟨tryVars prog a b true, [inFile d a, outFile d b], written d (outFile d b) [], []⟩ = .ub := by
    show R.bind (program split' n [Ast.process] (name% "process") [.file 0, .file 1] _) _ = _
    rw [hp]
    rfl
  have hb : exec ⟨program split' n [Ast.process], split'⟩ n Ast.attempt
      ⟨(name% "opened2", .bool false) :: (name% "opened1", .bool false) :: statVars prog a b, [], d, []⟩ = .ub :=
    exec_block_ub (attempt_begin h (exec_seq_ub hcall))
  rw [hb]
  rfl

theorem attempt_done {fin' : File} {out : List Byte} (hp : program split' n [Ast.process] (name% "process") [.file 0, .file 1]
      ⟨tryVars prog a b true, [inFile d a, outFile d b], written d (outFile d b) [], []⟩ =
      .done (.void, ⟨tryVars prog a b true, [fin', .closed], written d (outFile d b) out, []⟩)) :
    R.bind (exec ⟨program split' n [Ast.process], split'⟩ n Ast.attempt
      ⟨(name% "opened2", .bool false) :: (name% "opened1", .bool false) :: statVars prog a b, [], d, []⟩)
      (fun (fl, σ) => match fl with | .next => .done (.ret (.int 0), σ) | fl => .done (fl, σ)) =
    .done (.ret (.int 0), ⟨(name% "opened2", .bool true) :: (name% "opened1", .bool true) :: statVars prog a b,
      [.closed, .closed], written d (outFile d b) out, []⟩) := by
  have hcall : exec ⟨program split' n [Ast.process], split'⟩ n (.expr (.call (name% "process")
      (.cons (.var (name% "inBuf")) (.cons (.var (name% "outBuf")) .nil))))
      ⟨tryVars prog a b true, [inFile d a, outFile d b], written d (outFile d b) [], []⟩ =
      .done (.next, ⟨tryVars prog a b true, [fin', .closed], written d (outFile d b) out, []⟩) := by
    show R.bind (program split' n [Ast.process] (name% "process") [.file 0, .file 1] _) _ = _
    rw [hp]
    rfl
  have hb : exec ⟨program split' n [Ast.process], split'⟩ n Ast.attempt
      ⟨(name% "opened2", .bool false) :: (name% "opened1", .bool false) :: statVars prog a b, [], d, []⟩ =
      .done (.next, leave (statVars prog a b).length.succ.succ ⟨tryVars prog a b true, [.closed, .closed],
        written d (outFile d b) out, []⟩) :=
    exec_block (attempt_begin h (exec_seq hcall rfl))
  rw [hb]
  rfl

end

/-- The input file exists. -/
theorem run_process {B : Nat} (hE : Splits split' B) (hB : B < 0xFFFFFFFFFFFFFFFF) (prog a b : List Byte) (d : Disk)
    (h : (d.content (d.place a)).isSome = true) (hr : (input d a b).length ≤ B) :
    run source split' n [prog, a, b] d =
    match MkTestData.process n (input d a b) with
    | none => .timeout
    | some .ub => .ub
    | some (.ok out) => .done ⟨0, if d.writable (d.place b) then d.put (d.place b) (d.fit (d.place b) out) else d, []⟩ := by
  have hin : rest (written d (outFile d b) []) (inFile d a) = input d a b := by
    unfold input inFile outFile
    by_cases h1 : d.readable (d.place a) = true
    · by_cases h2 : d.writable (d.place b) = true
      · rw [if_pos h1, if_pos h2]
        by_cases h3 : d.place a = d.place b
        · rw [if_neg fun h => h.2 ⟨h3, h2⟩, h3]
          simp only [rest, written, Disk.put, if_true, fit_nil]
          rfl
        · rw [if_pos ⟨h1, fun h => h3 h.1⟩]
          simp only [rest, written, Disk.put, if_neg h3]
          rfl
      · rw [if_pos h1, if_neg h2, if_pos ⟨h1, fun h => h2 h.2⟩]
        rfl
    · rw [if_neg h1]
      refine Eq.trans ?_ (if_neg fun h => h1 h.1).symm
      rfl
  have hp := process_eq (n := n) hE hB (fin := inFile d a) (fout := outFile d b) (d := d) (err := []) (vars := tryVars prog a b true)
    (by rw [hin]; exact hr)
  rw [hin] at hp
  cases he : MkTestData.process n (input d a b) with
  | none =>
    rw [he] at hp
    exact run_main (r := .timeout) (exec_main h (attempt_timeout h hp))
  | some r =>
    rw [he] at hp
    cases r with
    | ub => exact run_main (r := .ub) (exec_main h (attempt_ub h hp))
    | ok out =>
      obtain ⟨fin', hp⟩ := hp
      refine (run_main (r := .done (.ret (.int 0), ⟨(name% "opened2", .bool true) :: (name% "opened1", .bool true) :: statVars prog a b,
        [.closed, .closed], written d (outFile d b) out, []⟩)) (exec_main h (attempt_done h hp))).trans ?_
      unfold outFile
      cases d.writable (d.place b) <;> rfl

end Ansak.Tool
