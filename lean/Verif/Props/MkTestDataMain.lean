import Verif.Model.MkTestDataMain
import Verif.Props.MkTestData

/-!
# C63: the exit code of mkUnicodeTestData
-/

namespace Ansak.Props

open Spec (Row bytes fileOf table words)
open MkTestData

/-- Called with two file names, with a readable file of lines and a place to write to, the tool writes the table and
exits with 0. -/
theorem C63_success {rows : List Row} (hne : rows ≠ []) (hok : ∀ r ∈ rows, r.Ok) (hlen : rows.length ≤ 0x7FFFFFFF)
    {fuel : Nat} (hf : rows.length < fuel) :
    ∃ out, MkTestData.main fuel ⟨3, true, some (fileOf rows), true⟩ = some (.ok ⟨0, some out⟩) ∧
      words out = words (table rows) := by
  obtain ⟨out, h1, h2⟩ := C50_table_partial hok hlen (tail := []) (Nat.zero_le 10) (Or.inl hne) hf
  rw [List.append_nil] at h1
  refine ⟨out, ?_, h2⟩
  unfold MkTestData.main
  rw [if_neg (by simp), if_neg (by simp)]
  show (process fuel (fileOf rows)).map _ = _
  rw [h1]
  rfl

/-- With another number of arguments it exits with 1, without an input file with 2, and does not touch the output
file. -/
theorem C63_usage (fuel : Nat) (e : Env) :
    (e.argc ≠ 3 → MkTestData.main fuel e = some (.ok ⟨1, none⟩)) ∧
    (e.argc = 3 → e.exists1 = false → MkTestData.main fuel e = some (.ok ⟨2, none⟩)) := by
  refine ⟨fun h => ?_, fun h h' => ?_⟩
  · unfold MkTestData.main
    rw [if_pos h]
  · unfold MkTestData.main
    rw [if_neg fun n => n h, if_pos (by rw [h']; decide)]

/-- The exit codes 3 and 4 never occur; 0 means only that there were two arguments and the input file existed.
Missing from the full property: an exit code for files that cannot be opened. -/
theorem C63_exit_partial {fuel : Nat} {e : Env} {l : Left} (h : MkTestData.main fuel e = some (.ok l)) :
    l.exit ≤ 2 ∧ (l.exit = 0 ↔ e.argc = 3 ∧ e.exists1 = true) := by
  by_cases ha : e.argc = 3
  · by_cases hx : e.exists1 = true
    · unfold MkTestData.main at h
      rw [if_neg fun n => n ha, if_neg fun n => n hx] at h
      cases hp : process fuel (e.input.getD []) with
      | none => rw [hp] at h; cases h
      | some r =>
        rw [hp] at h
        cases r with
        | ub => cases h
        | ok out =>
          have e' : l = ⟨0, if e.writable then some out else none⟩ := by
            injection h with h
            injection h with h
            exact h.symm
          subst e'
          exact ⟨Nat.zero_le 2, ⟨fun _ => ⟨ha, hx⟩, fun _ => rfl⟩⟩
    · rw [(C63_usage fuel e).2 ha (Bool.eq_false_iff.2 hx)] at h
      injection h with h
      injection h with h
      subst h
      exact ⟨by decide, ⟨fun h => (nomatch h), fun h => absurd h.2 hx⟩⟩
  · rw [(C63_usage fuel e).1 ha] at h
    injection h with h
    injection h with h
    subst h
    exact ⟨by decide, ⟨fun h => (nomatch h), fun h => absurd h.1 ha⟩⟩

/-- Violation of C63: if the output file cannot be created, the tool exits with 0 all the same and leaves nothing;
if the input file cannot be opened, it exits with 0 and leaves an empty file. -/
theorem C63_open_violated :
    (∀ {rows : List Row}, rows ≠ [] → (∀ r ∈ rows, r.Ok) → rows.length ≤ 0x7FFFFFFF →
      MkTestData.main (rows.length + 1) ⟨3, true, some (fileOf rows), false⟩ = some (.ok ⟨0, none⟩)) ∧
    ∀ fuel, MkTestData.main fuel ⟨3, true, none, true⟩ = some (.ok ⟨0, some []⟩) := by
  refine ⟨fun {rows} hne hok hlen => ?_, fun fuel => ?_⟩
  · obtain ⟨out, h1, _⟩ := C50_table_partial hok hlen (tail := []) (Nat.zero_le 10) (Or.inl hne) (Nat.lt_succ_self rows.length)
    rw [List.append_nil] at h1
    unfold MkTestData.main
    rw [if_neg (by simp), if_neg (by simp)]
    show (process (rows.length + 1) (fileOf rows)).map _ = _
    rw [h1]
    rfl
  · rfl

example : ∀ r ∈ [rowA, rowS], r.Ok := by
  intro r hr
  simp only [List.mem_cons, List.not_mem_nil, or_false] at hr
  rcases hr with rfl | rfl
  · exact rowA_ok
  · exact rowS_ok
example : (MkTestData.main 2 ⟨3, true, some (fileOf [rowA]), true⟩).isSome = true := by decide +kernel

end Ansak.Props
