import Verif.Model.MkTestData
import Verif.Lemmas.SplitJoin
import Verif.Spec.TestData

/-!
# C50: the table of valid code points made for the unit tests
-/

namespace Ansak.Props

open Spec (Row bytes fileOf firstLine table words)
open MkTestData

theorem contains_iff (w s : List Byte) : MkTestData.contains w s = true ↔ w <:+: s := by
  induction s with
  | nil =>
    unfold MkTestData.contains
    rw [List.isEmpty_iff, List.infix_nil]
  | cons c s ih =>
    unfold MkTestData.contains
    rw [Bool.or_eq_true, ih, List.isPrefixOf_iff_prefix, List.infix_cons_iff]

theorem excluded_iff (r : Row) : (MkTestData.contains (str "Surrogate") r.name = true ∨
    MkTestData.contains (str "Private") r.name = true) ↔ r.Excluded := by
  rw [contains_iff, contains_iff]
  exact Iff.rfl

theorem wordsFrom_append (a : List Byte) {c : Byte} (hc : Spec.Blank c) (b : List Byte) : ∀ w,
    Spec.wordsFrom w (a ++ c :: b) = Spec.wordsFrom w a ++ words (c :: b) := by
  induction a with
  | nil =>
    intro w
    show Spec.wordsFrom w (c :: b) = (if w = [] then [] else [w]) ++ Spec.wordsFrom [] (c :: b)
    unfold Spec.wordsFrom
    rw [if_pos hc, if_pos hc, if_pos rfl]
    rfl
  | cons d a ih =>
    intro w
    show Spec.wordsFrom w (d :: (a ++ c :: b)) = Spec.wordsFrom w (d :: a) ++ _
    unfold Spec.wordsFrom
    by_cases hd : Spec.Blank d
    · rw [if_pos hd, if_pos hd, ih, List.append_assoc]
    · rw [if_neg hd, if_neg hd, ih]

/-- A space or a newline separates. -/
theorem words_append (a : List Byte) {c : Byte} (hc : Spec.Blank c) (b : List Byte) :
    words (a ++ c :: b) = words a ++ words (c :: b) := wordsFrom_append a hc b []

/-- What the tool writes for a row. -/
def item (r : Row) : List Byte := str " 0x" ++ r.code ++ str ","

theorem words_item (a : List Byte) (r : Row) : words (a ++ str " 0x" ++ r.code ++ str ",") = words a ++ words (item r) := by
  rw [List.append_assoc, List.append_assoc, ← List.append_assoc (str " 0x")]
  exact words_append a (c := 0x20) (Or.inl rfl) _

theorem words_items (rs : List Row) : ∀ a, words (a ++ rs.flatMap item) = words a ++ rs.flatMap fun r => words (item r) := by
  induction rs with
  | nil =>
    intro a
    rw [List.flatMap_nil, List.flatMap_nil, List.append_nil, List.append_nil]
  | cons r rs ih =>
    intro a
    rw [List.flatMap_cons, List.flatMap_cons, ← List.append_assoc, ih, ← List.append_assoc]
    congr 1
    exact (congrArg words (by unfold item; simp only [List.append_assoc])).trans (words_item a r)

theorem words_table (rows : List Row) : words (table rows) = words (bytes "char32_t validUnicodeCodePoints[] = {") ++
    ((rows.filter fun r => ¬ r.Excluded).flatMap fun r => words (item r)) ++ words (bytes " 0xFFFFFFFF };") := by
  unfold table
  refine (words_append _ (c := 0x20) (Or.inl rfl) (bytes "0xFFFFFFFF };")).trans ?_
  congr 1
  exact words_items _ _

theorem getline_line {l rest : List Byte} (h : ∀ c ∈ l, c ≠ 0x0A) (old : List Byte) :
    getline ⟨l ++ 0x0A :: rest, true⟩ old = (⟨rest, true⟩, l) := by
  have : (l ++ 0x0A :: rest).findIdx? (· = (0x0A : Byte)) = some l.length := by
    rw [List.findIdx?_append, List.findIdx?_eq_none_iff.2 (fun c hc => decide_eq_false (h c hc))]
    rw [List.findIdx?_cons, if_pos (by rfl)]
    simp
  unfold getline
  simp only [if_true, this]
  rw [List.take_left, List.drop_append, List.drop_of_length_le (by omega), Nat.add_sub_cancel_left]
  rfl

theorem line_free {r : Row} (h : r.Ok) : ∀ c ∈ r.line, c ≠ 0x0A := by
  intro c hc
  have ho := h.others
  unfold Row.line at hc
  rw [List.mem_append, List.mem_append, List.mem_cons] at hc
  rcases hc with (hc | rfl | hc) | hc
  · exact (h.code c hc).2
  · decide
  · exact (h.name c hc).2
  · cases e : r.others with
    | none =>
      rw [e] at hc
      exact nomatch hc
    | some s =>
      rw [e] at hc ho
      rcases List.mem_cons.1 hc with rfl | hc
      · decide
      · exact ho s rfl c hc

theorem line_split {r : Row} (h : r.Ok) :
    ∃ more, split r.line 0x3B = .ok (r.code :: r.name :: more) := by
  have hne : r.line ≠ [] := fun e => by have := h.long; rw [e] at this; simp at this
  rw [split_eq, if_neg hne, if_pos (Nat.le_trans List.count_le_length h.short)]
  unfold Row.line
  rw [List.append_assoc, List.cons_append, pieces_append (fun hc => (h.code _ hc).1 rfl)]
  cases r.others with
  | none =>
    rw [List.append_nil, pieces_free fun hc => (h.name _ hc).1 rfl]
    exact ⟨_, rfl⟩
  | some s =>
    rw [pieces_append (fun hc => (h.name _ hc).1 rfl)]
    exact ⟨_, rfl⟩

theorem firstLine_line {l : List Byte} (h : ∀ c ∈ l, c ≠ 0x0A) (rest : List Byte) : firstLine (l ++ 0x0A :: rest) = l := by
  unfold firstLine
  rw [List.takeWhile_append_of_pos fun c hc => decide_eq_true (h c hc)]
  exact List.append_nil l

theorem firstLine_last {l : List Byte} (h : ∀ c ∈ l, c ≠ 0x0A) : firstLine l = l := by
  unfold firstLine
  rw [← List.append_nil l, List.takeWhile_append_of_pos fun c hc => decide_eq_true (h c hc)]
  rfl

theorem firstLine_free (s : List Byte) : ∀ c ∈ firstLine s, c ≠ 0x0A := fun c hc =>
  of_decide_eq_true (p := c ≠ 0x0A) (List.all_eq_true.1 (List.all_takeWhile (p := fun c : Byte => decide (c ≠ 0x0A)) (l := s)) c hc)

/-- A text is its first line, or that and a newline and more. -/
theorem firstLine_cases (s : List Byte) : s = firstLine s ∨ ∃ rest, s = firstLine s ++ 0x0A :: rest := by
  have e := List.takeWhile_append_dropWhile (p := fun c : Byte => decide (c ≠ 0x0A)) (l := s)
  cases h : s.dropWhile fun c : Byte => decide (c ≠ 0x0A) with
  | nil =>
    rw [h, List.append_nil] at e
    exact Or.inl e.symm
  | cons c rest =>
    have hc : c = 0x0A := by
      have := List.head?_dropWhile_not (p := fun c : Byte => decide (c ≠ 0x0A)) (l := s)
      rw [h] at this
      simpa using this
    rw [h, hc] at e
    exact Or.inr ⟨rest, e.symm⟩

theorem getline_last {l : List Byte} (h : ∀ c ∈ l, c ≠ 0x0A) (old : List Byte) :
    getline ⟨l, true⟩ old = (⟨[], false⟩, l) := by
  have : l.findIdx? (· = (0x0A : Byte)) = none :=
    List.findIdx?_eq_none_iff.2 fun c hc => decide_eq_false (h c hc)
  unfold getline
  simp only [if_true, this]

theorem getline_first (s : List Byte) : ∃ st, ∀ old, getline ⟨s, true⟩ old = (st, firstLine s) := by
  have hf := firstLine_free s
  rcases firstLine_cases s with e | ⟨rest, e⟩
  · refine ⟨⟨[], false⟩, fun old => ?_⟩
    rw [← e] at hf ⊢
    exact getline_last hf old
  · refine ⟨⟨rest, true⟩, fun old => ?_⟩
    have := getline_line (rest := rest) hf old
    rw [← e] at this
    exact this

theorem fileOf_cons (r : Row) (rs : List Row) : fileOf (r :: rs) = r.line ++ 0x0A :: fileOf rs := by
  unfold fileOf
  rw [List.flatMap_cons, List.append_assoc]
  rfl

/-- The words for the rows that are not excluded. -/
def items (rs : List Row) : List (List Byte) := (rs.filter fun r => ¬ r.Excluded).flatMap fun r => words (item r)

theorem items_in {r : Row} (h : ¬ r.Excluded) (rs : List Row) : items (r :: rs) = words (item r) ++ items rs := by
  unfold items
  rw [List.filter_cons_of_pos (by simpa using h), List.flatMap_cons]

theorem items_out {r : Row} (h : r.Excluded) (rs : List Row) : items (r :: rs) = items rs := by
  unfold items
  rw [List.filter_cons_of_neg (by simpa using h)]

/-- A round of the loop for a row; then comes the line `l`. -/
theorem processLoop_row {r : Row} (hr : r.Ok) {st st' : In} {l : List Byte} {fields more : List (List Byte)}
    (hg : getline st r.line = (st', l)) (hs : split l 0x3B = .ok fields) {n : Nat} (hn : n < 0x7FFFFFFF) (fuel : Nat) (out : List Byte) :
    ∃ n' out', n' ≤ n + 1 ∧ words out' = words out ++ items [r] ∧
      processLoop (fuel + 1) st r.line (r.code :: r.name :: more) n out = processLoop fuel st' l fields n' out' := by
  by_cases he : r.Excluded
  · refine ⟨n, out, Nat.le_succ n, by rw [items_out he]; exact (List.append_nil _).symm, ?_⟩
    rw [processLoop]
    rw [if_pos hr.long]
    simp only [readAt, List.getElem?_cons_succ, List.getElem?_cons_zero, hg, hs]
    rw [if_pos ((excluded_iff r).2 he)]
  · refine ⟨n + 1, if l.length ≠ 0 ∧ (n + 1) % 10 = 0 then out ++ str " 0x" ++ r.code ++ str "," ++ str "\n   "
      else out ++ str " 0x" ++ r.code ++ str ",", Nat.le_refl _, ?_, ?_⟩
    rotate_left
    · rw [processLoop]
      rw [if_pos hr.long]
      simp only [readAt, List.getElem?_cons_succ, List.getElem?_cons_zero, hg, hs]
      rw [if_neg fun h => he ((excluded_iff r).1 h)]
      simp only [incInt, if_pos hn]
    · rw [items_in he]
      show _ = words out ++ (words (item r) ++ [])
      rw [List.append_nil]
      split
      · refine (words_append _ (c := 0x0A) (Or.inr rfl) (bytes "   ")).trans ?_
        rw [words_item]
        exact List.append_nil _
      · exact words_item out r

/-- The loop, on the row that has been read and the rows that follow. -/
theorem processLoop_rows (rs : List Row) {tail : List Byte} {st : In} (hg : ∀ old, getline ⟨tail, true⟩ old = (st, firstLine tail))
    {fields : List (List Byte)} (hs : split (firstLine tail) 0x3B = .ok fields) :
    ∀ (r : Row) (fuel n : Nat) (out : List Byte) (more : List (List Byte)),
    r.Ok → (∀ x ∈ rs, x.Ok) → n + rs.length + 1 ≤ 0x7FFFFFFF →
    ∃ n' out', words out' = words out ++ items (r :: rs) ∧
      processLoop (fuel + (rs.length + 1)) ⟨fileOf rs ++ tail, true⟩ r.line (r.code :: r.name :: more) n out =
      processLoop fuel st (firstLine tail) fields n' out' := by
  induction rs with
  | nil =>
    intro r fuel n out more hr _ hn
    obtain ⟨n', out', -, h1, h2⟩ := processLoop_row hr (more := more) (hg r.line) hs (n := n) (by simp at hn; omega) fuel out
    exact ⟨n', out', h1, h2⟩
  | cons q rs ih =>
    intro r fuel n out more hr hrs hn
    rw [List.length_cons] at hn
    have hq := hrs q (List.mem_cons_self ..)
    obtain ⟨more', hsp⟩ := line_split hq
    have hg' : getline ⟨fileOf (q :: rs) ++ tail, true⟩ r.line = (⟨fileOf rs ++ tail, true⟩, q.line) := by
      rw [fileOf_cons, List.append_assoc, List.cons_append]
      exact getline_line (line_free hq) _
    obtain ⟨n1, out1, hn1, h1, h2⟩ := processLoop_row hr (more := more) hg' hsp (n := n) (by omega) (fuel + (rs.length + 1)) out
    obtain ⟨n2, out2, h3, h4⟩ := ih q fuel n1 out1 more' hq (fun x hx => hrs x (List.mem_cons_of_mem _ hx)) (by omega)
    refine ⟨n2, out2, ?_, h2.trans h4⟩
    rw [h3, h1, List.append_assoc]
    congr 1
    by_cases he : r.Excluded
    · rw [items_out he, items_out he]
      rfl
    · rw [items_in he, items_in he, List.append_assoc]
      rfl

/-- From the beginning of the file to the line after the rows. -/
theorem process_rows {rows : List Row} (hok : ∀ r ∈ rows, r.Ok) (hlen : rows.length ≤ 0x7FFFFFFF) {tail : List Byte} {st : In}
    (hg : ∀ old, getline ⟨tail, true⟩ old = (st, firstLine tail)) {fields : List (List Byte)}
    (hs : split (firstLine tail) 0x3B = .ok fields) (hne : rows ≠ [] ∨ firstLine tail ≠ []) (fuel : Nat) :
    ∃ n' out', words (out' ++ bytes " 0xFFFFFFFF };\n") = words (table rows) ∧
      process (fuel + rows.length) (fileOf rows ++ tail) = processLoop fuel st (firstLine tail) fields n' out' := by
  have hw : ∀ out', words out' = words (bytes "char32_t validUnicodeCodePoints[] = {") ++ items rows →
      words (out' ++ bytes " 0xFFFFFFFF };\n") = words (table rows) := by
    intro out' h
    rw [words_table]
    refine (words_append out' (c := 0x20) (Or.inl rfl) (bytes "0xFFFFFFFF };\n")).trans ?_
    rw [h]
    exact congrArg _ (by decide +kernel)
  match rows, hne with
  | [], hne =>
    refine ⟨0, _, hw _ (by decide +kernel : words (str "char32_t validUnicodeCodePoints[] = {\n    ") = _), ?_⟩
    have hf : fields ≠ [] := by
      rcases hne with hne | hne
      · exact absurd rfl hne
      · rw [split_eq, if_neg hne] at hs
        split at hs
        · injection hs with hs
          rw [← hs]
          exact pieces_ne_nil _ _
        · exact nomatch hs
    unfold process
    rw [show fileOf [] ++ tail = tail from rfl, hg]
    simp only [hs]
    rw [if_neg hf]
    rfl
  | r :: rs, _ =>
    have hr := hok r (List.mem_cons_self ..)
    rw [List.length_cons] at hlen
    obtain ⟨more, hsp⟩ := line_split hr
    obtain ⟨n', out', h1, h2⟩ := processLoop_rows rs hg hs r fuel 0 (str "char32_t validUnicodeCodePoints[] = {\n    ") more hr
      (fun x hx => hok x (List.mem_cons_of_mem _ hx)) (by omega)
    refine ⟨n', out', hw _ ?_, ?_⟩
    · rw [h1]
      exact congrArg (· ++ items (r :: rs)) (by decide +kernel)
    · unfold process
      rw [fileOf_cons, List.append_assoc, List.cons_append, getline_line (line_free hr)]
      simp only [hsp]
      rw [if_neg (by simp)]
      exact h2

/-- From a file of up to 2147483647 lines with two fields, each with more than ten characters and ended by a newline, and after
them nothing, or a line that is shorter, the tool makes the table of the code points that are not surrogates or private, in order,
whatever the layout. Missing: what comes after the shorter line; see `C50_short_violated`. -/
theorem C50_table_partial {rows : List Row} (hok : ∀ r ∈ rows, r.Ok) (hlen : rows.length ≤ 0x7FFFFFFF) {tail : List Byte}
    (ht : (firstLine tail).length ≤ 10) (hne : rows ≠ [] ∨ firstLine tail ≠ []) {fuel : Nat} (hf : rows.length < fuel) :
    ∃ out, process fuel (fileOf rows ++ tail) = some (.ok out) ∧ words out = words (table rows) := by
  obtain ⟨st, hg⟩ := getline_first tail
  obtain ⟨fields, hs⟩ : ∃ fields, split (firstLine tail) 0x3B = .ok fields := by
    rw [split_eq]
    by_cases h : firstLine tail = []
    · exact ⟨_, if_pos h⟩
    · rw [if_neg h, if_pos (Nat.le_trans List.count_le_length (Nat.le_trans ht (by decide)))]
      exact ⟨_, rfl⟩
  obtain ⟨n', out', h1, h2⟩ := process_rows hok hlen hg hs hne (fuel - rows.length)
  rw [Nat.sub_add_cancel (Nat.le_of_lt hf)] at h2
  refine ⟨_, h2.trans ?_, h1⟩
  obtain ⟨k, hk⟩ : ∃ k, fuel - rows.length = k + 1 := ⟨fuel - rows.length - 1, by omega⟩
  rw [hk, processLoop, if_neg (Nat.not_lt.2 ht)]
  rfl

/-- Violation of C50: a line of at most ten characters ends the table, whatever comes after it. -/
theorem C50_short_violated {rows : List Row} (hok : ∀ r ∈ rows, r.Ok) (hlen : rows.length ≤ 0x7FFFFFFF) {l : List Byte}
    (hl : l.length ≤ 10) (hn : ∀ c ∈ l, c ≠ 0x0A) (hne : l ≠ []) (rest : List Byte) {fuel : Nat} (hf : rows.length < fuel) :
    ∃ out, process fuel (fileOf rows ++ (l ++ 0x0A :: rest)) = some (.ok out) ∧ words out = words (table rows) := by
  have e := firstLine_line hn rest
  exact C50_table_partial hok hlen (by rw [e]; exact hl) (Or.inr (by rw [e]; exact hne)) hf

/-- Violation of C50: if there is nothing in the first line, nothing is written at all. -/
theorem C50_empty_violated {file : List Byte} (h : firstLine file = []) (fuel : Nat) : process fuel file = some (.ok []) := by
  obtain ⟨st, hg⟩ := getline_first file
  unfold process
  rw [hg, h]
  rfl

/-- Once the last line has been read and the file does not end in a newline, the loop reads it again and again. -/
theorem processLoop_again {r : Row} (hr : r.Ok) {more : List (List Byte)}
    (hs : split r.line 0x3B = .ok (r.code :: r.name :: more)) (fuel : Nat) : ∀ (n : Nat) (out res : List Byte),
    processLoop fuel ⟨[], false⟩ r.line (r.code :: r.name :: more) n out ≠ some (.ok res) := by
  induction fuel with
  | zero => intro n out res h; exact nomatch h
  | succ fuel ih =>
    intro n out res
    unfold processLoop
    rw [if_pos hr.long]
    simp only [readAt, List.getElem?_cons_succ, List.getElem?_cons_zero]
    have g : getline ⟨[], false⟩ r.line = (⟨[], false⟩, r.line) := rfl
    rw [g]
    simp only [hs]
    by_cases he : r.Excluded
    · rw [if_pos ((excluded_iff r).2 he)]
      exact ih n out res
    · rw [if_neg fun h => he ((excluded_iff r).1 h)]
      by_cases hn : n < 0x7FFFFFFF
      · simp only [incInt, if_pos hn]
        exact ih _ _ _
      · simp only [incInt, if_neg hn]
        intro h
        exact nomatch h

theorem processLoop_unended (rs : List Row) {last : Row} (hl : last.Ok) :
    ∀ (r : Row) (fuel n : Nat) (out res : List Byte) (more : List (List Byte)), r.Ok → (∀ x ∈ rs, x.Ok) →
    processLoop fuel ⟨fileOf rs ++ last.line, true⟩ r.line (r.code :: r.name :: more) n out ≠ some (.ok res) := by
  induction rs with
  | nil =>
    intro r fuel n out res more hr _
    cases fuel with
    | zero => intro h; exact nomatch h
    | succ fuel =>
      obtain ⟨more', hsp⟩ := line_split hl
      unfold processLoop
      rw [if_pos hr.long]
      simp only [readAt, List.getElem?_cons_succ, List.getElem?_cons_zero]
      have g : getline ⟨fileOf [] ++ last.line, true⟩ r.line = (⟨[], false⟩, last.line) :=
        getline_last (line_free hl) _
      rw [g]
      simp only [hsp]
      by_cases he : r.Excluded
      · rw [if_pos ((excluded_iff r).2 he)]
        exact processLoop_again hl hsp _ _ _ _
      · rw [if_neg fun h => he ((excluded_iff r).1 h)]
        by_cases hn : n < 0x7FFFFFFF
        · simp only [incInt, if_pos hn]
          exact processLoop_again hl hsp _ _ _ _
        · simp only [incInt, if_neg hn]
          intro h
          exact nomatch h
  | cons q rs ih =>
    intro r fuel n out res more hr hrs
    cases fuel with
    | zero => intro h; exact nomatch h
    | succ fuel =>
      have hq := hrs q (List.mem_cons_self ..)
      have hrs' : ∀ x ∈ rs, x.Ok := fun x hx => hrs x (List.mem_cons_of_mem _ hx)
      obtain ⟨more', hsp⟩ := line_split hq
      unfold processLoop
      rw [if_pos hr.long]
      simp only [readAt, List.getElem?_cons_succ, List.getElem?_cons_zero]
      rw [fileOf_cons, List.append_assoc, List.cons_append, getline_line (line_free hq)]
      simp only [hsp]
      by_cases he : r.Excluded
      · rw [if_pos ((excluded_iff r).2 he)]
        exact ih _ _ _ _ _ _ hq hrs'
      · rw [if_neg fun h => he ((excluded_iff r).1 h)]
        by_cases hn : n < 0x7FFFFFFF
        · simp only [incInt, if_pos hn]
          exact ih _ _ _ _ _ _ hq hrs'
        · simp only [incInt, if_neg hn]
          intro h
          exact nomatch h

/-- Violation of C50: if the last line has no newline, `getline` leaves it in place for ever and the tool never
returns. -/
theorem C50_no_newline_violated {rows : List Row} (hok : ∀ r ∈ rows, r.Ok) {last : Row} (hl : last.Ok)
    (fuel : Nat) (out : List Byte) : process fuel (fileOf rows ++ last.line) ≠ some (.ok out) := by
  unfold process
  cases rows with
  | nil =>
    obtain ⟨more, hsp⟩ := line_split hl
    have g : getline ⟨fileOf [] ++ last.line, true⟩ [] = (⟨[], false⟩, last.line) := getline_last (line_free hl) _
    rw [g]
    simp only [hsp]
    rw [if_neg (by simp)]
    exact processLoop_again hl hsp _ _ _ _
  | cons r rs =>
    have hr := hok r (List.mem_cons_self ..)
    obtain ⟨more, hsp⟩ := line_split hr
    rw [fileOf_cons, List.append_assoc, List.cons_append, getline_line (line_free hr)]
    simp only [hsp]
    rw [if_neg (by simp)]
    exact processLoop_unended rs hl _ _ _ _ _ _ hr fun x hx => hok x (List.mem_cons_of_mem _ hx)

/-- Violation of C50: a line of more than ten characters without a semicolon is undefined behaviour. -/
theorem C50_field_violated {rows : List Row} (hok : ∀ r ∈ rows, r.Ok) (hlen : rows.length ≤ 0x7FFFFFFF) {tail : List Byte}
    (hl : 10 < (firstLine tail).length) (h : 0x3B ∉ firstLine tail) {fuel : Nat} (hf : rows.length < fuel) :
    process fuel (fileOf rows ++ tail) = some .ub := by
  obtain ⟨st, hg⟩ := getline_first tail
  have hne : firstLine tail ≠ [] := fun e => by rw [e] at hl; simp at hl
  have hs : split (firstLine tail) 0x3B = .ok [firstLine tail] := by
    rw [split_eq, if_neg hne, List.count_eq_zero.2 h, if_pos (Nat.zero_le _), pieces_free h]
  obtain ⟨n', out', -, h2⟩ := process_rows hok hlen hg hs (Or.inr hne) (fuel - rows.length)
  rw [Nat.sub_add_cancel (Nat.le_of_lt hf)] at h2
  refine h2.trans ?_
  obtain ⟨k, hk⟩ : ∃ k, fuel - rows.length = k + 1 := ⟨fuel - rows.length - 1, by omega⟩
  rw [hk, processLoop, if_pos hl]
  simp only [readAt, List.getElem?_cons_succ, List.getElem?_nil]

/-- A line with a semicolon is a row. -/
theorem row_of_line {l : List Byte} (hn : ∀ c ∈ l, c ≠ 0x0A) (hc : 0x3B ∈ l) (hl : 10 < l.length) (hs : l.length ≤ 0x7FFFFFFF) :
    ∃ r : Row, r.Ok ∧ r.line = l := by
  obtain ⟨code, rest, e, hcode⟩ := List.eq_append_cons_of_mem hc
  by_cases hm : 0x3B ∈ rest
  · obtain ⟨name, more, e', hname⟩ := List.eq_append_cons_of_mem hm
    subst e' e
    have hline : (⟨code, name, some more⟩ : Row).line = code ++ 0x3B :: (name ++ 0x3B :: more) := List.append_assoc ..
    refine ⟨⟨code, name, some more⟩, ⟨fun c h => ⟨fun e => hcode (e ▸ h), hn c ?_⟩, fun c h => ⟨fun e => hname (e ▸ h), hn c ?_⟩,
      fun s hs c h => ?_, by rw [hline]; exact hl, by rw [hline]; exact hs⟩, hline⟩
    · simp [h]
    · simp [h]
    · cases hs
      exact hn c (by simp [h])
  · subst e
    have hline : (⟨code, rest, none⟩ : Row).line = code ++ 0x3B :: rest := List.append_nil _
    refine ⟨⟨code, rest, none⟩, ⟨fun c h => ⟨fun e => hcode (e ▸ h), hn c ?_⟩, fun c h => ⟨fun e => hm (e ▸ h), hn c ?_⟩,
      fun s hs => (nomatch hs), by rw [hline]; exact hl, by rw [hline]; exact hs⟩, hline⟩
    · simp [h]
    · simp [h]

/-- Every file is one of these: rows, and after them nothing or a short line, or a long line without a semicolon, or a row without a
newline. -/
theorem file_cases (n : Nat) : ∀ file : List Byte, file.length ≤ n → n ≤ 0x7FFFFFFF → ∃ rows : List Row, ∃ tail, (∀ r ∈ rows, r.Ok) ∧
    file = fileOf rows ++ tail ∧ rows.length ≤ n ∧ ((firstLine tail).length ≤ 10 ∨ (10 < (firstLine tail).length ∧ 0x3B ∉ firstLine tail) ∨
      ∃ last : Row, last.Ok ∧ tail = last.line) := by
  induction n with
  | zero =>
    intro file h _
    cases List.length_eq_zero_iff.1 (Nat.le_zero.1 h)
    exact ⟨[], [], fun _ h => (nomatch h), rfl, Nat.le_refl 0, Or.inl (Nat.zero_le 10)⟩
  | succ n ih =>
    intro file h hb
    by_cases h10 : (firstLine file).length ≤ 10
    · exact ⟨[], file, fun _ h => (nomatch h), rfl, Nat.zero_le _, Or.inl h10⟩
    have h10 := Nat.lt_of_not_le h10
    by_cases hc : 0x3B ∈ firstLine file
    · have hle : (firstLine file).length ≤ file.length := List.takeWhile_sublist _ |>.length_le
      obtain ⟨r, hr, hrl⟩ := row_of_line (firstLine_free file) hc h10 (by omega)
      rcases firstLine_cases file with e | ⟨rest, e⟩
      · exact ⟨[], file, fun _ h => (nomatch h), rfl, Nat.zero_le _, Or.inr (Or.inr ⟨r, hr, e.trans hrl.symm⟩)⟩
      · have hlen := congrArg List.length e
        rw [List.length_append, List.length_cons] at hlen
        obtain ⟨rows, tail, h1, h2, h3, h4⟩ := ih rest (by omega) (by omega)
        refine ⟨r :: rows, tail, ?_, ?_, by rw [List.length_cons]; omega, h4⟩
        · intro x hx
          rcases List.mem_cons.1 hx with rfl | hx
          · exact hr
          · exact h1 x hx
        · rw [fileOf_cons, hrl, List.append_assoc, List.cons_append, ← h2]
          exact e
    · exact ⟨[], file, fun _ h => (nomatch h), rfl, Nat.zero_le _, Or.inr (Or.inl ⟨h10, hc⟩)⟩

/-! A concrete file: LATIN CAPITAL LETTER A, a surrogate and a private character. -/

/-- The line of LATIN CAPITAL LETTER A, abbreviated. -/
def rowA : Row := ⟨bytes "0041", bytes "LATIN A", some (bytes "Lu")⟩
/-- The line of a surrogate, abbreviated. -/
def rowS : Row := ⟨bytes "D800", bytes "<Surrogate>", some (bytes "Cs")⟩
/-- A private character, without more fields. -/
def rowP : Row := ⟨bytes "E000", bytes "<Private Use>", none⟩

theorem rowA_ok : rowA.Ok := ⟨by decide +kernel, by decide +kernel, by decide +kernel, by decide +kernel, by decide +kernel⟩
theorem rowS_ok : rowS.Ok := ⟨by decide +kernel, by decide +kernel, by decide +kernel, by decide +kernel, by decide +kernel⟩
theorem rowP_ok : rowP.Ok := ⟨by decide +kernel, by decide +kernel, fun _ h => (nomatch h), by decide +kernel, by decide +kernel⟩

example : (process 5 (fileOf [rowA, rowS, rowP, rowA])).map (Res.map words) = some (.ok (words (table [rowA, rowS, rowP, rowA]))) ∧
    words (table [rowA, rowS, rowP]) = [bytes "char32_t", bytes "validUnicodeCodePoints[]", bytes "=", bytes "{", bytes "0x0041,",
      bytes "0xFFFFFFFF", bytes "};"] ∧ rowS.Excluded ∧ rowP.Excluded ∧ ¬ rowA.Excluded := by decide +kernel
example : process 1000 (fileOf [rowA] ++ rowS.line) = none := by decide +kernel
example : (process 2 (fileOf [rowA] ++ (bytes "0042;B;Lu" ++ 0x0A :: fileOf [rowA]))).map (Res.map words) =
    some (.ok (words (table [rowA]))) ∧ words (table [rowA]) ≠ words (table [rowA, rowA]) := by decide +kernel
example : (firstLine (bytes "0042;B;Lu\n")).length ≤ 10 ∧ firstLine (bytes "\n0042;B;Lu\n") = [] := by decide +kernel

end Ansak.Props
