import Verif.Props.Tool

/-!
# A disk with too little room (C71)

`Disk.room` says how many bytes can be stored in a place. Statements compare a run on a disk without limits with one on the same
disk with limits. A run whose writes fail from some byte on, for another reason, leaves the same as one with that limit.
-/

namespace Ansak.Props

open Spec Tool

/-- What a run that writes leaves, on this disk and with any other limits. -/
theorem leaves_out {v : Version} {prog a b : List Byte} {d : Disk} {l : Left} {s : List Byte} (hs : Storable s)
    (hc : d.content (d.place a) = some s) (h : Leaves v [prog, a, b] d l) :
    ∃ out, l = ⟨0, if d.writable (d.place b) then d.put (d.place b) (d.fit (d.place b) out) else d, []⟩ ∧
      ∀ room, Leaves v [prog, a, b] (limited d room) ⟨0, if d.writable (d.place b) then
        (limited d room).put (d.place b) ((limited d room).fit (d.place b) out) else limited d room, []⟩ := by
  obtain ⟨n, hn⟩ := h true true
  have e := (C63_text_limit true v true (Nat.le_add_left n (s.length + 8)) _ d).1 l hn
  rw [runTool_eq true v true prog a b d hc hs (Nat.le_add_right _ n)] at e
  split at e
  · exact nomatch e
  · exact nomatch e
  · next out hp =>
    refine ⟨out, (Tool.R.done.inj e).symm, fun room w sc => ⟨s.length + 8 + n, ?_⟩⟩
    refine (runTool_eq w v sc prog a b (limited d room) hc hs (Nat.le_add_right _ n)).trans ?_
    have : Tool.input (limited d room) a b = Tool.input d a b := rfl
    rw [this, hp]
    rfl

theorem two_of_length {args : List (List Byte)} (h : args.length = 2) : ∃ a b, args = [a, b] := by
  rcases args with _ | ⟨a, _ | ⟨b, _ | ⟨c, r⟩⟩⟩
  · exact nomatch h
  · exact nomatch h
  · exact ⟨a, b, rfl⟩
  · rw [List.length_cons, List.length_cons, List.length_cons] at h
    omega

/-- With less room, the exit code and the messages are the same, the output file has the beginning for which there is room, and
every other file is the same. Missing from the full property: an exit code that says so. -/
theorem C71_text_room_partial {v : Version} {args : List (List Byte)} {d : Disk} (hd : ∀ p s, d.content p = some s → Storable s)
    (hn : ∀ p, d.room p = none) {l : Left} (h : Leaves v args d l) (room : Nat → Option Nat) :
    ∃ l', Leaves v args (limited d room) l' ∧ l'.exit = l.exit ∧ l'.err = l.err ∧
      (∀ p k, WritesTo args d p → room p = some k →
        ∃ s, l.disk.content p = some s ∧ l'.disk.content p = some (s.take k)) ∧
      (∀ p, ¬ WritesTo args d p ∨ room p = none → l'.disk.content p = l.disk.content p) := by
  have hu := @C63_text_unique v args d
  rcases args with _ | ⟨prog, args⟩
  · exact absurd (C63_text_no_name_violated v d) (hu h).1
  by_cases hl : args.length = 2
  · obtain ⟨a, b, rfl⟩ := two_of_length hl
    cases hc : d.content (d.place a) with
    | none =>
      have e := (hu (C63_text_missing v prog a b hc)).2.2 l h
      subst e
      refine ⟨_, C63_text_missing v prog a b (d := limited d room) hc, rfl, rfl, ?_, fun _ _ => rfl⟩
      rintro p k ⟨prog', a', b', e, -, hs, -⟩
      have e := (List.cons.inj (List.cons.inj e).2).1
      rw [← e, hc] at hs
      exact nomatch hs
    | some s =>
      obtain ⟨out, e, h'⟩ := leaves_out (hd _ s hc) hc h
      subst e
      refine ⟨_, h' room, rfl, rfl, ?_, fun p hp => ?_⟩
      · rintro p k ⟨prog', a', b', e, hp, -, hw⟩ hk
        have e := (List.cons.inj (List.cons.inj (List.cons.inj e).2).2).1
        rw [← e] at hp
        subst hp
        refine ⟨out, ?_, ?_⟩
        · simp only [hw, if_true, fit_none (hn (d.place b)), Disk.put]
        · have hf : (limited d room).fit (d.place b) out = out.take k := by
            unfold Disk.fit limited
            dsimp only
            rw [hk]
          simp only [hw, if_true, Disk.put, hf]
      · by_cases hw : d.writable (d.place b) = true
        · simp only [hw, if_true, Disk.put]
          by_cases hpb : p = d.place b
          · rw [if_pos hpb, if_pos hpb]
            rcases hp with hp | hp
            · exact absurd ⟨prog, a, b, rfl, hpb, by rw [hc]; rfl, by rw [hpb]; exact hw⟩ hp
            · rw [fit_none (hn _), fit_none (d := limited d room) (by rw [← hpb]; exact hp)]
          · rw [if_neg hpb, if_neg hpb]
            rfl
        · simp only [hw]
          rfl
  · have e := (hu (C63_text_usage v prog hl d)).2.2 l h
    subst e
    refine ⟨_, C63_text_usage v prog hl (limited d room), rfl, rfl, ?_, fun _ _ => rfl⟩
    rintro p k ⟨prog', a', b', e, -, -, -⟩
    have e := (List.cons.inj e).2
    rw [e] at hl
    exact absurd rfl hl

/-- Whether a run ends does not depend on the room, nor whether it leads to undefined behaviour. -/
theorem C71_text_end {v : Version} {args : List (List Byte)} {d : Disk} (hd : ∀ p s, d.content p = some s → Storable s)
    (room : Nat → Option Nat) :
    ((∃ l, Leaves v args d l) ↔ ∃ l, Leaves v args (limited d room) l) ∧
    (Undefined v args d ↔ Undefined v args (limited d room)) ∧
    (NeverEnds v args d ↔ NeverEnds v args (limited d room)) := by
  rcases args with _ | ⟨prog, args⟩
  · have hd := C63_text_no_name_violated v d
    have hd' := C63_text_no_name_violated v (limited d room)
    exact ⟨⟨fun ⟨_, h⟩ => absurd hd (C63_text_unique h).1, fun ⟨_, h⟩ => absurd hd' (C63_text_unique h).1⟩,
      ⟨fun _ => hd', fun _ => hd⟩, ⟨fun _ w sc => ⟨0, fun n _ => Or.inr (Tool.run_nothing _)⟩,
      fun _ w sc => ⟨0, fun n _ => Or.inr (Tool.run_nothing _)⟩⟩⟩
  by_cases hl : args.length = 2
  · obtain ⟨a, b, rfl⟩ := two_of_length hl
    cases hc : d.content (d.place a) with
    | none =>
      have h := C63_text_missing v prog a b (d := d) hc
      have h' := C63_text_missing v prog a b (d := limited d room) hc
      exact ⟨⟨fun _ => ⟨_, h'⟩, fun _ => ⟨_, h⟩⟩,
        ⟨fun hu => absurd hu (C63_text_unique h).1, fun hu => absurd hu (C63_text_unique h').1⟩,
        ⟨fun hu => absurd hu (C63_text_unique h).2.1, fun hu => absurd hu (C63_text_unique h').2.1⟩⟩
    | some s =>
      have hs := hd _ s hc
      have key : ∀ r r' : Nat → Option Nat, (Undefined v [prog, a, b] (limited d r) → Undefined v [prog, a, b] (limited d r')) ∧
          (NeverEnds v [prog, a, b] (limited d r) → NeverEnds v [prog, a, b] (limited d r')) := by
        intro r r'
        constructor
        · intro hu w sc
          obtain ⟨n, hn⟩ := hu w sc
          refine ⟨s.length + 8 + n, ?_⟩
          have e := (C63_text_limit w v sc (Nat.le_add_left n (s.length + 8)) _ _).2 hn
          rw [runTool_eq w v sc prog a b (limited d r) hc hs (Nat.le_add_right _ n)] at e
          rw [runTool_eq w v sc prog a b (limited d r') hc hs (Nat.le_add_right _ n)]
          have : Tool.input (limited d r') a b = Tool.input (limited d r) a b := rfl
          rw [this]
          split at e
          · exact nomatch e
          · rfl
          · exact nomatch e
        · intro hu w sc
          obtain ⟨n, hn⟩ := hu w sc
          refine ⟨s.length + 8 + n, fun m hm => ?_⟩
          have e := hn m (by omega)
          rw [runTool_eq w v sc prog a b (limited d r) hc hs (by omega)] at e
          rw [runTool_eq w v sc prog a b (limited d r') hc hs (by omega)]
          have : Tool.input (limited d r') a b = Tool.input (limited d r) a b := rfl
          rw [this]
          split at e
          · exact Or.inl rfl
          · exact Or.inr rfl
          · exact e.elim (fun e => nomatch e) (fun e => nomatch e)
      refine ⟨⟨fun ⟨l, h⟩ => ?_, fun ⟨l, h⟩ => ?_⟩, ⟨(key d.room room).1, (key room d.room).1⟩,
        ⟨(key d.room room).2, (key room d.room).2⟩⟩
      · obtain ⟨out, -, h'⟩ := leaves_out hs hc h
        exact ⟨_, h' room⟩
      · obtain ⟨out, -, h'⟩ := leaves_out (d := limited d room) hs hc h
        exact ⟨_, h' d.room⟩
  · have h := C63_text_usage v prog hl d
    have h' := C63_text_usage v prog hl (limited d room)
    exact ⟨⟨fun _ => ⟨_, h'⟩, fun _ => ⟨_, h⟩⟩,
      ⟨fun hu => absurd hu (C63_text_unique h).1, fun hu => absurd hu (C63_text_unique h').1⟩,
      ⟨fun hu => absurd hu (C63_text_unique h).2.1, fun hu => absurd hu (C63_text_unique h').2.1⟩⟩

theorem wordsFrom_length : ∀ (s w : List Byte), (wordsFrom w s).flatten.length ≤ w.length + s.length
  | [], w => by
    unfold wordsFrom
    split
    · exact Nat.zero_le _
    · simp
  | c :: s, w => by
    unfold wordsFrom
    split
    · have := wordsFrom_length s []
      rw [List.flatten_append, List.length_append]
      have h : (if w = [] then [] else [w]).flatten.length ≤ w.length := by
        split
        · exact Nat.zero_le _
        · simp
      simp only [List.length_cons, List.length_nil] at this ⊢
      omega
    · have := wordsFrom_length s (w ++ [c])
      simp only [List.length_cons, List.length_append, List.length_nil] at this ⊢
      omega

theorem words_length (s : List Byte) : (words s).flatten.length ≤ s.length := by
  have := wordsFrom_length s []
  rwa [List.length_nil, Nat.zero_add] at this

/-- With enough room, the table is complete. -/
theorem C71_text_enough (v : Version) (prog a b : List Byte) {d : Disk} {rows : List Row} (hne : rows ≠ []) (hok : ∀ r ∈ rows, r.Ok)
    (hlen : rows.length ≤ 0x7FFFFFFF) (hc : d.content (d.place a) = some (fileOf rows))
    (hr : d.readable (d.place a) = true) (hw : d.writable (d.place b) = true) (hab : d.place a ≠ d.place b) :
    ∃ out, words out = words (table rows) ∧ ∀ room : Nat → Option Nat, (∀ k, room (d.place b) = some k → out.length ≤ k) →
      Leaves v [prog, a, b] (limited d room) ⟨0, (limited d room).put (d.place b) out, []⟩ := by
  have hs := fileOf_storable hok hlen
  obtain ⟨out, h1, h2⟩ := C50_text_table_partial v prog a b (d := limited d fun _ => none) hok hlen (tail := []) (Nat.zero_le 10)
    (Or.inl hne) (by rw [List.append_nil]; exact hs) (by rw [List.append_nil]; exact hc) hr hw rfl hab
  refine ⟨out, h2, fun room hk => ?_⟩
  obtain ⟨out', e, h'⟩ := leaves_out (d := limited d fun _ => none) hs hc h1
  have hw' : (limited d fun _ => none).writable ((limited d fun _ => none).place b) = true := hw
  simp only [hw', if_true] at e h'
  have e : out' = out := by
    have := congrArg (fun l : Left => l.disk.content (d.place b)) e
    simp only [Disk.put] at this
    have : some out = some out' := (if_pos rfl).symm.trans (this.trans (if_pos rfl))
    exact (Option.some.inj this).symm
  subst e
  have h' := h' room
  have hf : (limited d room).fit (d.place b) out' = out' := by
    unfold Disk.fit
    split
    · rfl
    · next k hr => exact List.take_of_length_le (hk k hr)
  have h' : Leaves v [prog, a, b] (limited d room)
    ⟨0, (limited d room).put (d.place b) ((limited d room).fit (d.place b) out'), []⟩ := h'
  rwa [hf] at h'

/-- Violation of C71: if there is less room than the words of the table need, the tool exits with 0 all the same, without a
message, and what it leaves is not the table. -/
theorem C71_text_full_violated (v : Version) (prog a b : List Byte) {d : Disk} {rows : List Row} (hne : rows ≠ [])
    (hok : ∀ r ∈ rows, r.Ok) (hlen : rows.length ≤ 0x7FFFFFFF) (hc : d.content (d.place a) = some (fileOf rows))
    (hr : d.readable (d.place a) = true) (hw : d.writable (d.place b) = true) (hab : d.place a ≠ d.place b) {k : Nat}
    (hk : d.room (d.place b) = some k) (hlt : k < (words (table rows)).flatten.length) :
    ∃ s, Leaves v [prog, a, b] d ⟨0, d.put (d.place b) s, []⟩ ∧ s.length ≤ k ∧ words s ≠ words (table rows) := by
  have hs := fileOf_storable hok hlen
  obtain ⟨out, -, h1⟩ := C71_text_enough v prog a b hne hok hlen hc hr hw hab
  have h1 := h1 (fun _ => none) (fun k h => nomatch h)
  obtain ⟨out', -, h'⟩ := leaves_out (d := limited d fun _ => none) hs hc h1
  have h' := h' d.room
  have hw' : (limited d fun _ => none).writable ((limited d fun _ => none).place b) = true := hw
  simp only [hw', if_true] at h'
  have h' : Leaves v [prog, a, b] d ⟨0, d.put (d.place b) (d.fit (d.place b) out'), []⟩ := h'
  have hf : d.fit (d.place b) out' = out'.take k := by
    unfold Disk.fit
    rw [hk]
  rw [hf] at h'
  have hle : (out'.take k).length ≤ k := by
    rw [List.length_take]
    exact Nat.min_le_left _ _
  refine ⟨out'.take k, h', hle, fun e => ?_⟩
  have := words_length (out'.take k)
  rw [e] at this
  omega

/-- A disk with one file and room for 20 bytes in every other place. -/
def smallDisk (s : List Byte) : Disk := limited (oneFile s true true) fun p => if p = 0 then none else some 20

example (v : Version) : ∃ s, Leaves v [Spec.bytesOf "mk", Spec.bytesOf "UnicodeData.txt", Spec.bytesOf "out"]
    (smallDisk (fileOf [rowA, rowS, rowP])) ⟨0, (smallDisk (fileOf [rowA, rowS, rowP])).put 1 s, []⟩ ∧ s.length ≤ 20 ∧
    words s ≠ words (table [rowA, rowS, rowP]) :=
  C71_text_full_violated v _ _ _ (by simp) rows_all (by decide) rfl rfl rfl (by decide) rfl (by decide +kernel)
example (v : Version) : ∃ out, words out = words (table [rowA]) ∧ Leaves v [Spec.bytesOf "mk", Spec.bytesOf "UnicodeData.txt",
    Spec.bytesOf "out"] (oneFile (fileOf [rowA]) true true) ⟨0, (oneFile (fileOf [rowA]) true true).put 1 out, []⟩ := by
  obtain ⟨out, h, h'⟩ := C71_text_enough v (Spec.bytesOf "mk") (Spec.bytesOf "UnicodeData.txt") (Spec.bytesOf "out")
    (d := oneFile (fileOf [rowA]) true true) (by simp) rowA_all (by decide) rfl rfl rfl (by decide)
  exact ⟨out, h, h' (fun _ => none) (fun k h => nomatch h)⟩

theorem oneFile_storable {s : List Byte} (hs : Storable s) {r w : Bool} :
    ∀ p t, (oneFile s r w).content p = some t → Storable t := by
  intro p t e
  change (if p = 0 then some s else none) = some t at e
  split at e
  · cases e
    exact hs
  · exact nomatch e

example (v : Version) : ∃ l l' s, Leaves v [Spec.bytesOf "mk", Spec.bytesOf "UnicodeData.txt", Spec.bytesOf "out"]
    (oneFile (fileOf [rowA]) true true) l ∧
    Leaves v [Spec.bytesOf "mk", Spec.bytesOf "UnicodeData.txt", Spec.bytesOf "out"] (smallDisk (fileOf [rowA])) l' ∧
    l.disk.content 1 = some s ∧ l'.disk.content 1 = some (s.take 20) ∧ l'.disk.content 0 = l.disk.content 0 := by
  obtain ⟨out, -, h⟩ := C71_text_enough v (Spec.bytesOf "mk") (Spec.bytesOf "UnicodeData.txt") (Spec.bytesOf "out")
    (d := oneFile (fileOf [rowA]) true true) (by simp) rowA_all (by decide) rfl rfl rfl (by decide)
  have h := h (fun _ => none) (fun k h => nomatch h)
  obtain ⟨l', h1, -, -, h2, h3⟩ := C71_text_room_partial (oneFile_storable (by decide +kernel)) (fun _ => rfl) h
    (fun p => if p = 0 then none else some 20)
  obtain ⟨s, h4, h5⟩ := h2 1 20 ⟨_, _, _, rfl, rfl, rfl, rfl⟩ rfl
  exact ⟨_, l', s, h, h1, h4, h5, h3 0 (Or.inr rfl)⟩
example (v : Version) : NeverEnds v [Spec.bytesOf "mk", Spec.bytesOf "UnicodeData.txt", Spec.bytesOf "out"]
    (smallDisk (fileOf [rowA] ++ rowA.line)) :=
  (C71_text_end (oneFile_storable (by decide +kernel)) _).2.2.1
    (C50_text_no_newline_violated v _ _ _ rowA_all rowA_ok (by decide +kernel) rfl rfl (by decide))

end Ansak.Props
