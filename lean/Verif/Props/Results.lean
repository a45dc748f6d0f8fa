import Verif.Lemmas.Cpp.Results
import Verif.Lemmas.Threads
import Verif.Props.Text

/-! # C73: results stand on their own -/

namespace Ansak.Props

open Spec

/-- What a function of the library returns holds no pointer and no reference. -/
theorem C73_text_types (w : Bool) : ∃ is, Cpp.parseAll (Cpp.Source.pieces w) = some is ∧ ResultsHoldNoPointer is :=
  ⟨_, Cpp.parse_pieces w, Cpp.results_pieces w⟩

/-- The same on Windows. -/
theorem C73_text_types_windows (t : Cpp.Source.Tchar) :
    ∃ is, Cpp.parseAll (Cpp.Source.onWindows t) = some is ∧ ResultsHoldNoPointer is :=
  ⟨_, Cpp.parse_onWindows t, Cpp.results_onWindows t⟩

/-- No function of the library is declared to return a pointer or a reference. -/
theorem C73_text_declared (w : Bool) : ∀ t ∈ Cpp.Source.pieces w, NoReferenceReturned (Cpp.lex t) := Cpp.returned_pieces w

/-- The same on Windows. -/
theorem C73_text_declared_windows (u : Cpp.Source.Tchar) : ∀ t ∈ Cpp.Source.onWindows u, NoReferenceReturned (Cpp.lex t) :=
  Cpp.returned_onWindows u

theorem kept {w : Bool} {v : Version} {σ τ : Store} {ss : List LibCall} (h : Alone w v σ ss τ) {x : Nat}
    (hx : ∀ s ∈ ss, x ∉ s.changes) : τ x = σ x := by
  induction h with
  | nothing => rfl
  | @«then» ss σ' σ'' s _ hd ih =>
    rw [Threads.does_frame hd (hx s (List.mem_append_right _ List.mem_cons_self)), ih fun s hs => hx s (List.mem_append_left _ hs)]

/-- The result of a call remains what it is whatever is done afterwards, to the arguments of the call too, as long as the variable
that holds it is not changed. -/
theorem C73_text_kept {w : Bool} {v : Version} {σ τ ω : Store} {x f : Nat} {as : List Nat} {ss : List LibCall} {r : Arg}
    (hr : ReturnsOn w v f (as.map σ) r) (h : Does w v σ (.call x f as) τ) (hs : Alone w v τ ss ω) (hx : ∀ s ∈ ss, x ∉ s.changes) :
    ω x = r := by
  rw [kept hs hx]
  cases h with
  | call h =>
    have e := yields_unique (hr false _ (Nat.le_refl _)) (h false _ (Nat.le_refl _))
    exact (if_pos rfl).trans (Res.ok.inj e).symm

/-- A function that returns a reference to a string, and a class with a pointer, are noticed. -/
example :
    ¬ NoReferenceReturned [.id (name% "const"), .id (name% "utf8String"), .sym (name% "&"), .id (name% "getUnicodeVersionSupported"),
      .sym (name% "("), .sym (name% ")")] ∧
    ¬ ResultsHoldNoPointer [.field 1 (.ptr (.prim .char)) 2, .func ⟨0, 3, .cls 1, [], [], none⟩] := by
  constructor
  · intro h
    have := (h 2 (by decide) _ List.mem_cons_self rfl _ rfl).2 rfl
    revert this
    decide
  · decide

/-- `y = toUtf8(x); trim(x);` -/
example (v : Version) : ∃ τ, Does true v (fun _ => .str16 [0x20, 0x41]) (.call 1 (name% "toUtf8") [0]) τ ∧ τ 1 = .str8 [0x20, 0x41] ∧
    ∃ ω, Alone true v τ [.change 0 (name% "trim") []] ω ∧ ω 0 = .str16 [0x41] ∧ ω 1 = .str8 [0x20, 0x41] := by
  have h := C67_toUtf8_S16 v [0x20, 0x41]
  rw [show toUtf8From16S [0x20, 0x41] = .ok [0x20, 0x41] by decide +kernel] at h
  have h' := C67_trim_16 v [0x20, 0x41] (by decide)
  rw [show trim [(0x20 : U16), 0x41] = [0x41] by decide +kernel] at h'
  refine ⟨_, .call (h true), rfl, _, .then (ss := []) .nothing (.change (x := 0) (f := name% "trim") (as := []) h'), rfl, ?_⟩
  exact C73_text_kept (σ := fun _ => .str16 [0x20, 0x41]) (as := [0]) (h true) (.call (h true))
    (.then (ss := []) .nothing (.change (x := 0) (f := name% "trim") (as := []) h')) (fun s hs => List.mem_singleton.1 hs ▸ (by decide : 1 ∉ [0]))

end Ansak.Props
