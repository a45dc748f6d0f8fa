import Verif.Spec.Tool
import Verif.Lemmas.Tool.Main
import Verif.Lemmas.Tool.Order
import Verif.Props.MkTestDataMain
import Verif.Props.TextMore

/-!
# C50 and C63 for the text of the tool
-/

namespace Ansak.Props

open Spec (Row bytes fileOf firstLine table words Leaves Undefined NeverEnds)
open Tool (Disk Left)

/-- The library's `split` is linked. -/
theorem splits_library (w : Bool) (v : Version) (sc : Bool) {B n : Nat} (hB : B < 18446744073709551615) (hn : B + 8 ≤ n) :
    Tool.Splits (Tool.librarySplit w v sc n) B := by
  intro l hl
  have h := C67_split_8 v l 0x3B (Nat.lt_of_le_of_lt hl hB) w sc n (by
    show l.length + (0 + 8) ≤ n
    omega)
  unfold Tool.librarySplit
  cases e : split l (0x3B : Byte) with
  | ub =>
    rw [e] at h
    have h : Cpp.callText (Cpp.link v sc) sc (Cpp.wideType w) (Cpp.Source.pieces w) n (nat_lit 0) (name% "split")
      [.str .char (Cpp.units8 sc l), .int .char (Cpp.charVal sc 0x3B)] = .ub := h
    rw [h]
    rfl
  | ok fs =>
    rw [e] at h
    obtain ⟨refs, h, _⟩ := h
    have h : Cpp.callText (Cpp.link v sc) sc (Cpp.wideType w) (Cpp.Source.pieces w) n (nat_lit 0) (name% "split")
      [.str .char (Cpp.units8 sc l), .int .char (Cpp.charVal sc 0x3B)] = .done (.vec .char (fs.map (Cpp.units8 sc))) refs := h
    rw [h]
    refine congrArg Tool.R.done ?_
    rw [List.map_map]
    refine (List.map_congr_left fun p _ => ?_).trans (List.map_id _)
    show (Cpp.units8 sc p).map (BitVec.ofInt 8) = p
    unfold Cpp.units8
    rw [List.map_map]
    exact (List.map_congr_left fun c _ => Cpp.ofInt_charVal sc c).trans (List.map_id _)

theorem input_le (d : Disk) (a b : List Byte) {s : List Byte} (h : d.content (d.place a) = some s) :
    (Tool.input d a b).length ≤ s.length := by
  unfold Tool.input
  rw [h]
  split
  · exact Nat.le_refl _
  · exact Nat.zero_le _

/-- A run, if the limit is high enough. -/
theorem runTool_eq (w : Bool) (v : Version) (sc : Bool) {n : Nat} (prog a b : List Byte) (d : Disk) {s : List Byte}
    (h : d.content (d.place a) = some s) (hs : Storable s) (hn : s.length + 8 ≤ n) :
    Tool.runTool w v sc n [prog, a, b] d =
    match MkTestData.process n (Tool.input d a b) with
    | none => .timeout
    | some .ub => .ub
    | some (.ok out) => .done ⟨0, if d.writable (d.place b) then d.put (d.place b) (d.fit (d.place b) out) else d, []⟩ :=
  Tool.run_process (splits_library w v sc hs hn) hs prog a b d (by rw [h]; rfl) (input_le d a b h)

/-- An outcome of a run is its outcome with every higher limit. -/
theorem C63_text_limit (w : Bool) (v : Version) (sc : Bool) {n m : Nat} (hn : n ≤ m) (args : List (List Byte)) (d : Disk) :
    (∀ l, Tool.runTool w v sc n args d = .done l → Tool.runTool w v sc m args d = .done l) ∧
    (Tool.runTool w v sc n args d = .ub → Tool.runTool w v sc m args d = .ub) :=
  have h := Tool.runTool_below w v sc hn args d
  ⟨fun _ e => h.done e, fun e => h.ub e⟩

/-- So there is at most one. -/
theorem C63_text_unique {v : Version} {args : List (List Byte)} {d : Disk} {l : Left} (h : Leaves v args d l) :
    ¬ Undefined v args d ∧ ¬ NeverEnds v args d ∧ ∀ l', Leaves v args d l' → l' = l := by
  obtain ⟨n, hn⟩ := h true true
  refine ⟨fun hu => ?_, fun hu => ?_, fun l' hl => ?_⟩
  · obtain ⟨m, hm⟩ := hu true true
    have h1 := (C63_text_limit true v true (Nat.le_max_left n m) args d).1 l hn
    have h2 := (C63_text_limit true v true (Nat.le_max_right n m) args d).2 hm
    rw [h1] at h2
    exact nomatch h2
  · obtain ⟨m, hm⟩ := hu true true
    have h1 := (C63_text_limit true v true (Nat.le_max_left n m) args d).1 l hn
    rcases hm _ (Nat.le_max_right n m) with e | e
    · exact nomatch e.symm.trans h1
    · exact nomatch e.symm.trans h1
  · obtain ⟨m, hm⟩ := hl true true
    have h1 := (C63_text_limit true v true (Nat.le_max_left n m) args d).1 l hn
    have h2 := (C63_text_limit true v true (Nat.le_max_right n m) args d).1 l' hm
    rw [h1] at h2
    exact (Tool.R.done.inj h2).symm

theorem fileOf_le : ∀ {rows : List Row}, (∀ r ∈ rows, r.Ok) → (fileOf rows).length ≤ rows.length * 0x80000000
  | [], _ => Nat.zero_le _
  | r :: rs, h => by
    have h1 := fileOf_le fun x hx => h x (List.mem_cons_of_mem _ hx)
    have h2 := (h r (List.mem_cons_self ..)).short
    rw [fileOf_cons, List.length_append, List.length_cons, List.length_cons, Nat.succ_mul]
    omega

theorem fileOf_storable {rows : List Row} (h : ∀ r ∈ rows, r.Ok) (hlen : rows.length ≤ 0x7FFFFFFF) : Storable (fileOf rows) := by
  have := fileOf_le h
  show (fileOf rows).length < 18446744073709551615
  omega

theorem fileOf_length : ∀ rows : List Row, rows.length ≤ (fileOf rows).length
  | [] => Nat.le_refl 0
  | r :: rs => by
    have := fileOf_length rs
    rw [fileOf_cons, List.length_append, List.length_cons, List.length_cons]
    omega

theorem fit_none {d : Disk} {p : Nat} (h : d.room p = none) (s : List Byte) : d.fit p s = s := by
  unfold Disk.fit
  rw [h]

theorem input_eq {d : Disk} {a b s : List Byte} (hc : d.content (d.place a) = some s) (hr : d.readable (d.place a) = true)
    (hab : d.place a ≠ d.place b) : Tool.input d a b = s := by
  unfold Tool.input
  rw [if_pos ⟨hr, fun h => hab h.1⟩, hc]
  rfl

/-- Called with the names of a file and of a place to write to, where the file has up to 2147483647 lines with two fields, each
with more than ten characters and ended by a newline, and after them nothing, or a line that is shorter, the tool writes the table
of the code points of the rows that are not surrogates or private, in order, whatever the layout. It exits with 0 and writes no
message, and no other file changes. Missing: what comes after the shorter line, other files (`C50_text_cases`), and a disk with too
little room (`C71_text_room_partial`). -/
theorem C50_text_table_partial (v : Version) (prog a b : List Byte) {d : Disk} {rows : List Row} (hok : ∀ r ∈ rows, r.Ok)
    (hlen : rows.length ≤ 0x7FFFFFFF) {tail : List Byte} (ht : (firstLine tail).length ≤ 10) (hne : rows ≠ [] ∨ firstLine tail ≠ [])
    (hs : Storable (fileOf rows ++ tail)) (hc : d.content (d.place a) = some (fileOf rows ++ tail))
    (hr : d.readable (d.place a) = true) (hw : d.writable (d.place b) = true) (hk : d.room (d.place b) = none)
    (hab : d.place a ≠ d.place b) :
    ∃ out, Leaves v [prog, a, b] d ⟨0, d.put (d.place b) out, []⟩ ∧ words out = words (table rows) := by
  have hl := fileOf_length rows
  obtain ⟨out, h1, h2⟩ := C50_table_partial hok hlen ht hne (fuel := (fileOf rows ++ tail).length + 8) (by
    rw [List.length_append]; omega)
  refine ⟨out, fun w sc => ⟨_, (runTool_eq w v sc prog a b d hc hs (Nat.le_refl _)).trans ?_⟩, h2⟩
  rw [input_eq hc hr hab, h1]
  simp only [hw, if_true, fit_none hk]

/-- Violation of C50: a line of at most ten characters ends the table, whatever comes after it. -/
theorem C50_text_short_violated (v : Version) (prog a b : List Byte) {d : Disk} {rows : List Row} (hok : ∀ r ∈ rows, r.Ok)
    (hlen : rows.length ≤ 0x7FFFFFFF) {l : List Byte} (hl : l.length ≤ 10) (hn : ∀ c ∈ l, c ≠ 0x0A) (hne : l ≠ []) {rest : List Byte}
    (hs : Storable (fileOf rows ++ (l ++ 0x0A :: rest))) (hc : d.content (d.place a) = some (fileOf rows ++ (l ++ 0x0A :: rest)))
    (hr : d.readable (d.place a) = true) (hw : d.writable (d.place b) = true) (hk : d.room (d.place b) = none)
    (hab : d.place a ≠ d.place b) :
    ∃ out, Leaves v [prog, a, b] d ⟨0, d.put (d.place b) out, []⟩ ∧ words out = words (table rows) := by
  have e := firstLine_line hn rest
  exact C50_text_table_partial v prog a b hok hlen (by rw [e]; exact hl) (Or.inr (by rw [e]; exact hne)) hs hc hr hw hk hab

/-- Violation of C50: if there is nothing in the first line, the output file is empty: not even a table without code points. -/
theorem C50_text_empty_violated (v : Version) (prog a b : List Byte) {d : Disk} {s : List Byte} (hs : Storable s) (h : firstLine s = [])
    (hc : d.content (d.place a) = some s) (hr : d.readable (d.place a) = true) (hw : d.writable (d.place b) = true)
    (hab : d.place a ≠ d.place b) : Leaves v [prog, a, b] d ⟨0, d.put (d.place b) [], []⟩ := by
  refine fun w sc => ⟨_, (runTool_eq w v sc prog a b d hc hs (Nat.le_refl _)).trans ?_⟩
  rw [input_eq hc hr hab, C50_empty_violated h]
  simp only [hw, if_true, Tool.fit_nil]

/-- Violation of C50: if the last line has no newline, the tool never ends. -/
theorem C50_text_no_newline_violated (v : Version) (prog a b : List Byte) {d : Disk} {rows : List Row} (hok : ∀ r ∈ rows, r.Ok)
    {last : Row} (hl : last.Ok) (hs : Storable (fileOf rows ++ last.line))
    (hc : d.content (d.place a) = some (fileOf rows ++ last.line)) (hr : d.readable (d.place a) = true)
    (hab : d.place a ≠ d.place b) : NeverEnds v [prog, a, b] d := by
  intro w sc
  refine ⟨(fileOf rows ++ last.line).length + 8, fun n hn => ?_⟩
  have e := runTool_eq w v sc prog a b d hc hs hn
  rw [input_eq hc hr hab] at e
  split at e
  · exact Or.inl e
  · exact Or.inr e
  · next out h => exact absurd h (C50_no_newline_violated hok hl _ out)

/-- Violation of C50: a line of more than ten characters without a semicolon is undefined behaviour. -/
theorem C50_text_field_violated (v : Version) (prog a b : List Byte) {d : Disk} {rows : List Row} (hok : ∀ r ∈ rows, r.Ok)
    (hlen : rows.length ≤ 0x7FFFFFFF) {tail : List Byte} (hl : 10 < (firstLine tail).length) (h : 0x3B ∉ firstLine tail)
    (hs : Storable (fileOf rows ++ tail)) (hc : d.content (d.place a) = some (fileOf rows ++ tail))
    (hr : d.readable (d.place a) = true) (hab : d.place a ≠ d.place b) : Undefined v [prog, a, b] d := by
  have hl' := fileOf_length rows
  refine fun w sc => ⟨_, (runTool_eq w v sc prog a b d hc hs (Nat.le_refl _)).trans ?_⟩
  rw [input_eq hc hr hab, C50_field_violated hok hlen hl h (by rw [List.length_append]; omega)]

/-- These are all files of up to 2147483647 bytes: whatever is in the file, there are rows, and then something that decides. -/
theorem C50_text_cases (v : Version) (prog a b : List Byte) {d : Disk} {s : List Byte} (hs : s.length ≤ 0x7FFFFFFF)
    (hc : d.content (d.place a) = some s) (hr : d.readable (d.place a) = true) (hw : d.writable (d.place b) = true)
    (hk : d.room (d.place b) = none) (hab : d.place a ≠ d.place b) :
    ∃ rows tail, (∀ r ∈ rows, Row.Ok r) ∧ s = fileOf rows ++ tail ∧
      (((firstLine tail).length ≤ 10 ∧ (rows ≠ [] ∨ firstLine tail ≠ []) ∧
          ∃ out, Leaves v [prog, a, b] d ⟨0, d.put (d.place b) out, []⟩ ∧ words out = words (table rows)) ∨
        (rows = [] ∧ firstLine tail = [] ∧ Leaves v [prog, a, b] d ⟨0, d.put (d.place b) [], []⟩) ∨
        (10 < (firstLine tail).length ∧ 0x3B ∉ firstLine tail ∧ Undefined v [prog, a, b] d) ∨
        (∃ last : Row, last.Ok ∧ tail = last.line ∧ NeverEnds v [prog, a, b] d)) := by
  obtain ⟨rows, tail, hok, e, hlen, h⟩ := file_cases _ s hs (Nat.le_refl _)
  have hs' : Storable (fileOf rows ++ tail) := by
    rw [← e]
    exact Nat.lt_of_le_of_lt hs (by decide)
  refine ⟨rows, tail, hok, e, ?_⟩
  rw [e] at hc
  rcases h with h | ⟨h, h'⟩ | ⟨last, h, h'⟩
  · by_cases hne : rows ≠ [] ∨ firstLine tail ≠ []
    · exact Or.inl ⟨h, hne, C50_text_table_partial v prog a b hok hlen h hne hs' hc hr hw hk hab⟩
    · have h1 : rows = [] := Classical.not_not.1 fun h => hne (Or.inl h)
      have h2 : firstLine tail = [] := Classical.not_not.1 fun h => hne (Or.inr h)
      subst h1
      exact Or.inr (Or.inl ⟨rfl, h2, C50_text_empty_violated v prog a b hs' h2 hc hr hw hab⟩)
  · exact Or.inr (Or.inr (Or.inl ⟨h, h', C50_text_field_violated v prog a b hok hlen h h' hs' hc hr hab⟩))
  · subst h'
    exact Or.inr (Or.inr (Or.inr ⟨last, h, rfl, C50_text_no_newline_violated v prog a b hok h hs' hc hr hab⟩))

/-- Violation of C50: if both names lead to the same file, the tool empties it, exits with 0 and writes no message. -/
theorem C50_text_same_file_violated (v : Version) (prog a b : List Byte) {d : Disk} {s : List Byte} (hs : Storable s)
    (hc : d.content (d.place a) = some s) (hw : d.writable (d.place a) = true) (hab : d.place a = d.place b) :
    Leaves v [prog, a, b] d ⟨0, d.put (d.place a) [], []⟩ := by
  intro w sc
  refine ⟨s.length + 8, (runTool_eq w v sc prog a b d hc hs (Nat.le_refl _)).trans ?_⟩
  have : Tool.input d a b = [] := by
    unfold Tool.input
    rw [if_neg fun h => h.2 ⟨hab, by rw [← hab]; exact hw⟩]
  rw [this, ← hab, hw]
  show Tool.R.done (Left.mk 0 (d.put (d.place a) (d.fit (d.place a) [])) []) = _
  rw [Tool.fit_nil]

/-- With another number of arguments the tool exits with 1, and says how it is used; no file changes. -/
theorem C63_text_usage (v : Version) (prog : List Byte) {args : List (List Byte)} (h : args.length ≠ 2) (d : Disk) :
    Leaves v (prog :: args) d ⟨1, d, Spec.bytesOf "Usage: " ++ prog ++ Spec.bytesOf
      " <infile> <outfile>\n    to convert ;-delimited Unicode data into an array of test data.\n"⟩ := by
  intro w sc
  refine ⟨0, (Tool.run_usage prog args h d).trans ?_⟩
  congr 2
  unfold Tool.usage
  rw [List.append_assoc, List.append_assoc]
  have : MkTestData.str " <infile> <outfile>" ++ (MkTestData.str "\n" ++
      MkTestData.str "    to convert ;-delimited Unicode data into an array of test data.\n") = Spec.bytesOf
      " <infile> <outfile>\n    to convert ;-delimited Unicode data into an array of test data.\n" := by decide +kernel
  rw [this]
  rfl

/-- Without an input file it exits with 2, and says so; no file changes. -/
theorem C63_text_missing (v : Version) (prog a b : List Byte) {d : Disk} (h : d.content (d.place a) = none) :
    Leaves v [prog, a, b] d ⟨2, d, Spec.bytesOf "Usage: " ++ prog ++ Spec.bytesOf
      " <infile> <outfile>\n    infile does not exist.\n"⟩ := by
  intro w sc
  refine ⟨0, (Tool.run_missing prog a b d h).trans ?_⟩
  congr 2
  unfold Tool.usage
  rw [List.append_assoc, List.append_assoc]
  have : MkTestData.str " <infile> <outfile>" ++ (MkTestData.str "\n" ++ MkTestData.str "    infile does not exist.\n") =
      Spec.bytesOf " <infile> <outfile>\n    infile does not exist.\n" := by decide +kernel
  rw [this]
  rfl

/-- Violation of C63: called without even a name, it reads a null pointer. -/
theorem C63_text_no_name_violated (v : Version) (d : Disk) : Undefined v [] d := fun _ _ => ⟨0, Tool.run_nothing d⟩

theorem message_ne (prog l : List Byte) : Spec.bytesOf "Usage: " ++ prog ++ l ≠ [] := fun h =>
  absurd (List.append_eq_nil_iff.1 (List.append_eq_nil_iff.1 h).1).1 (by decide)

/-- The exit codes 3 and 4 never occur; 0 means only that there were two arguments and the input file existed; and messages are
written exactly if it is not 0. Nothing but the output file changes, and it only if the exit code is 0.
Missing from the full property: an exit code for files that cannot be opened. -/
theorem C63_text_exit_partial {v : Version} {args : List (List Byte)} {d : Disk} (hd : ∀ p s, d.content p = some s → Storable s)
    {l : Left} (h : Leaves v args d l) :
    l.exit ∈ [(0 : Int), 1, 2] ∧
    (l.exit = 0 ↔ ∃ prog a b, args = [prog, a, b] ∧ (d.content (d.place a)).isSome = true) ∧
    (l.err = [] ↔ l.exit = 0) ∧
    (∀ p, l.disk.content p ≠ d.content p → ∃ prog a b, args = [prog, a, b] ∧ p = d.place b ∧ l.exit = 0) ∧
    l.disk.place = d.place ∧ l.disk.readable = d.readable ∧ l.disk.writable = d.writable ∧
    l.disk.room = d.room := by
  obtain ⟨n, hn⟩ := h true true
  have hu := @C63_text_unique v args d
  rcases args with _ | ⟨prog, args⟩
  · exact absurd (C63_text_no_name_violated v d) (hu h).1
  by_cases hl : args.length = 2
  · obtain ⟨a, b, rfl⟩ : ∃ a b, args = [a, b] := by
      rcases args with _ | ⟨a, _ | ⟨b, _ | ⟨c, r⟩⟩⟩
      · exact nomatch hl
      · exact nomatch hl
      · exact ⟨a, b, rfl⟩
      · rw [List.length_cons, List.length_cons, List.length_cons] at hl
        omega
    cases hc : d.content (d.place a) with
    | none =>
      have e := (hu (C63_text_missing v prog a b hc)).2.2 l h
      subst e
      refine ⟨by simp, ⟨fun h => (nomatch h), ?_⟩, ⟨fun h => ?_, fun h => (nomatch h)⟩, fun p hp => absurd rfl hp, rfl, rfl, rfl, rfl⟩
      · rintro ⟨prog', a', b', e, h⟩
        have e := (List.cons.inj (List.cons.inj e).2).1
        rw [← e, hc] at h
        exact nomatch h
      · exact absurd h (message_ne prog _)
    | some s =>
      have e := (C63_text_limit true v true (Nat.le_add_left n (s.length + 8)) _ d).1 l hn
      rw [runTool_eq true v true prog a b d hc (hd _ s hc) (Nat.le_add_right _ n)] at e
      split at e
      · exact nomatch e
      · exact nomatch e
      · have e := (Tool.R.done.inj e).symm
        subst e
        refine ⟨by simp, ⟨fun _ => ⟨prog, a, b, rfl, by rw [hc]; rfl⟩, fun _ => rfl⟩, ⟨fun _ => rfl, fun _ => rfl⟩, fun p hp => ?_,
          ?_, ?_, ?_, ?_⟩
        · refine ⟨prog, a, b, rfl, ?_, rfl⟩
          by_cases hw : d.writable (d.place b) = true
          · simp only [hw, if_true] at hp
            exact Classical.byContradiction fun hne => hp (if_neg hne)
          · simp only [hw] at hp
            exact absurd rfl hp
        · dsimp only; split <;> rfl
        · dsimp only; split <;> rfl
        · dsimp only; split <;> rfl
        · dsimp only; split <;> rfl
  · have e := (hu (C63_text_usage v prog hl d)).2.2 l h
    subst e
    refine ⟨by simp, ⟨fun h => (nomatch h), ?_⟩, ⟨fun h => ?_, fun h => (nomatch h)⟩, fun p hp => absurd rfl hp, rfl, rfl, rfl, rfl⟩
    · rintro ⟨prog', a', b', e, h⟩
      have e := (List.cons.inj e).2
      rw [e] at hl
      exact absurd rfl hl
    · exact absurd h (message_ne prog _)

/-- Violation of C63: if the output file cannot be created, the tool exits with 0 all the same, without a message, and leaves
nothing; if the input file cannot be opened, it exits with 0 and leaves an empty file. -/
theorem C63_text_open_violated (v : Version) (prog a b : List Byte) {d : Disk} :
    (∀ {rows : List Row}, rows ≠ [] → (∀ r ∈ rows, r.Ok) → rows.length ≤ 0x7FFFFFFF →
      d.content (d.place a) = some (fileOf rows) → d.readable (d.place a) = true → d.writable (d.place b) = false →
      Leaves v [prog, a, b] d ⟨0, d, []⟩) ∧
    (∀ {s : List Byte}, Storable s → d.content (d.place a) = some s → d.readable (d.place a) = false →
      d.writable (d.place b) = true → Leaves v [prog, a, b] d ⟨0, d.put (d.place b) [], []⟩) := by
  constructor
  · intro rows hne hok hlen hc hr hw w sc
    obtain ⟨out, h1, h2⟩ := C50_table_partial hok hlen (tail := []) (Nat.zero_le 10) (Or.inl hne)
      (fuel := (fileOf rows).length + 8 + rows.length + 1) (by omega)
    rw [List.append_nil] at h1
    refine ⟨_, (runTool_eq w v sc prog a b d hc (fileOf_storable hok hlen)
      (n := (fileOf rows).length + 8 + rows.length + 1) (by omega)).trans ?_⟩
    have : Tool.input d a b = fileOf rows := by
      unfold Tool.input
      rw [if_pos ⟨hr, fun h => Bool.false_ne_true (hw.symm.trans h.2)⟩, hc]
      rfl
    rw [this, h1]
    simp only [hw, Bool.false_eq_true, if_false]
  · intro s hs hc hr hw w sc
    refine ⟨_, (runTool_eq w v sc prog a b d hc hs (Nat.le_refl _)).trans ?_⟩
    have : Tool.input d a b = [] := by
      unfold Tool.input
      rw [if_neg fun h => Bool.false_ne_true (hr.symm.trans h.1)]
    rw [this, hw]
    show Tool.R.done (Left.mk 0 (d.put (d.place b) (d.fit (d.place b) [])) []) = _
    rw [Tool.fit_nil]

/-- A disk with one file, UnicodeData.txt, and any number of names for another place. -/
def oneFile (s : List Byte) (readable writable : Bool) : Disk where
  place p := if p = Spec.bytesOf "UnicodeData.txt" ∨ p = Spec.bytesOf "./UnicodeData.txt" then 0 else 1
  content p := if p = 0 then some s else none
  readable _ := readable
  writable _ := writable
  room _ := none

theorem rowA_all : ∀ r ∈ [rowA], r.Ok := fun _ hr => List.mem_singleton.1 hr ▸ rowA_ok

theorem rows_all : ∀ r ∈ [rowA, rowS, rowP], r.Ok := by
  intro r hr
  simp only [List.mem_cons, List.not_mem_nil, or_false] at hr
  rcases hr with rfl | rfl | rfl
  · exact rowA_ok
  · exact rowS_ok
  · exact rowP_ok

example (v : Version) : ∃ out, Leaves v [Spec.bytesOf "mk", Spec.bytesOf "UnicodeData.txt", Spec.bytesOf "out"]
    (oneFile (fileOf [rowA, rowS, rowP]) true true) ⟨0, (oneFile (fileOf [rowA, rowS, rowP]) true true).put 1 out, []⟩ ∧
    words out = [bytes "char32_t", bytes "validUnicodeCodePoints[]", bytes "=", bytes "{", bytes "0x0041,", bytes "0xFFFFFFFF", bytes "};"] := by
  obtain ⟨out, h1, h2⟩ := C50_text_table_partial v (Spec.bytesOf "mk") (Spec.bytesOf "UnicodeData.txt") (Spec.bytesOf "out") rows_all
    (by decide) (tail := []) (d := oneFile (fileOf [rowA, rowS, rowP]) true true) (by decide) (by simp) (by decide +kernel)
    (congrArg some (List.append_nil _).symm) rfl rfl rfl (by decide)
  exact ⟨out, h1, h2.trans (by decide +kernel)⟩
example (v : Version) : ∃ out, Leaves v [Spec.bytesOf "mk", Spec.bytesOf "UnicodeData.txt", Spec.bytesOf "out"]
    (oneFile (fileOf [rowA] ++ (bytes "0042;B;Lu" ++ 0x0A :: fileOf [rowA])) true true)
    ⟨0, (oneFile (fileOf [rowA] ++ (bytes "0042;B;Lu" ++ 0x0A :: fileOf [rowA])) true true).put 1 out, []⟩ ∧
    words out = words (table [rowA]) :=
  C50_text_short_violated v _ _ _ rowA_all (by decide) (by decide) (by decide) (by decide) (by decide +kernel) rfl rfl rfl rfl (by decide)
example (v : Version) : Leaves v [Spec.bytesOf "mk", Spec.bytesOf "UnicodeData.txt", Spec.bytesOf "out"] (oneFile [] true true)
    ⟨0, (oneFile [] true true).put 1 [], []⟩ :=
  C50_text_empty_violated v _ _ _ (by decide) rfl rfl rfl rfl (by decide)
example (v : Version) : NeverEnds v [Spec.bytesOf "mk", Spec.bytesOf "UnicodeData.txt", Spec.bytesOf "out"]
    (oneFile (fileOf [rowA] ++ rowA.line) true true) :=
  C50_text_no_newline_violated v _ _ _ rowA_all rowA_ok (by decide +kernel) rfl rfl (by decide)
example (v : Version) : Undefined v [Spec.bytesOf "mk", Spec.bytesOf "UnicodeData.txt", Spec.bytesOf "out"]
    (oneFile (fileOf [rowA] ++ bytes "# a comment\n") true true) :=
  C50_text_field_violated v _ _ _ rowA_all (by decide) (by decide) (by decide) (by decide +kernel) rfl rfl (by decide)
example (v : Version) : Leaves v [Spec.bytesOf "mk", Spec.bytesOf "UnicodeData.txt", Spec.bytesOf "./UnicodeData.txt"]
    (oneFile (fileOf [rowA]) true true) ⟨0, (oneFile (fileOf [rowA]) true true).put 0 [], []⟩ :=
  C50_text_same_file_violated v _ _ _ (by decide +kernel) rfl rfl (by decide)
example (v : Version) : Leaves v [Spec.bytesOf "mk"] (oneFile [] true true) ⟨1, oneFile [] true true, Spec.bytesOf
    "Usage: mk <infile> <outfile>\n    to convert ;-delimited Unicode data into an array of test data.\n"⟩ :=
  C63_text_usage v (Spec.bytesOf "mk") (args := []) (by decide) _
example (v : Version) : Leaves v [Spec.bytesOf "mk", Spec.bytesOf "none", Spec.bytesOf "out"] (oneFile [] true true)
    ⟨2, oneFile [] true true, Spec.bytesOf "Usage: mk <infile> <outfile>\n    infile does not exist.\n"⟩ :=
  C63_text_missing v (Spec.bytesOf "mk") _ _ rfl
example (v : Version) : ¬ ∃ l, Leaves v [] (oneFile [] true true) l := fun ⟨_, h⟩ =>
  (C63_text_unique h).1 (C63_text_no_name_violated v _)
example (v : Version) (l : Left) (h : Leaves v [Spec.bytesOf "mk", Spec.bytesOf "UnicodeData.txt", Spec.bytesOf "out"]
    (oneFile (fileOf [rowA]) true true) l) : l.exit = 0 ∧ l.err = [] := by
  obtain ⟨-, h1, h2, -⟩ := C63_text_exit_partial (fun p s e => by
    change (if p = 0 then some (fileOf [rowA]) else none) = some s at e
    split at e
    · cases e
      decide +kernel
    · exact nomatch e) h
  have h0 := h1.2 ⟨_, _, _, rfl, rfl⟩
  exact ⟨h0, h2.2 h0⟩
example (v : Version) : Leaves v [Spec.bytesOf "mk", Spec.bytesOf "UnicodeData.txt", Spec.bytesOf "out"]
    (oneFile (fileOf [rowA]) true false) ⟨0, oneFile (fileOf [rowA]) true false, []⟩ :=
  (C63_text_open_violated v _ _ _).1 (rows := [rowA]) (by simp) rowA_all (by decide) rfl rfl rfl
example (v : Version) : Leaves v [Spec.bytesOf "mk", Spec.bytesOf "UnicodeData.txt", Spec.bytesOf "out"]
    (oneFile (fileOf [rowA]) false true) ⟨0, (oneFile (fileOf [rowA]) false true).put 1 [], []⟩ :=
  (C63_text_open_violated v _ _ _).2 (s := fileOf [rowA]) (by decide +kernel) rfl rfl rfl

end Ansak.Props
