import Verif.Lemmas.Cpp.Shared
import Verif.Lemmas.Cpp.Windows
import Verif.Props.TextMore

/-! # C33: a string that is trimmed by its own characters -/

namespace Ansak.Props

open Spec (Changes ChangesShared CanShare)

theorem trimOf_itself {w : Nat} (s : List (BitVec w)) : trimOf s s = [] :=
  C33_unique (C33_trimOf s s)
    ⟨⟨s, [], by simp, fun _ h => h, fun _ h => (List.not_mem_nil h).elim⟩, (fun _ h => nomatch h), (fun _ h => nomatch h)⟩

/-- `trim(s, s)` leaves nothing, although `spaces` shrinks while `victim` does. That is what is left if `spaces` is a copy
of `s`. -/
theorem C33_text_itself_8 (v : Version) {s : List Byte} (hs : Storable s) :
    ChangesShared v (name% "trim") (.str8 s) (.str8 []) ∧ Changes v (name% "trim") (.str8 s) [.str8 s] (.ok (.str8 [])) := by
  refine ⟨fun w sc n hn => ?_, ?_⟩
  · simp only [Spec.enough, Spec.Arg.size] at hn
    rw [Cpp.sharedText_eq (Cpp.link_str v sc)]
    exact Cpp.sharedCall_char _ (by rw [Cpp.units8, List.length_map]; exact hs)
      (by rw [Cpp.units8, List.length_map]; omega)
  · have e := C67_trimOf_8 v s s hs hs
    rwa [trimOf_itself s] at e

@[inherit_doc C33_text_itself_8]
theorem C33_text_itself_16 (v : Version) {s : List U16} (hs : Storable s) :
    ChangesShared v (name% "trim") (.str16 s) (.str16 []) ∧ Changes v (name% "trim") (.str16 s) [.str16 s] (.ok (.str16 [])) := by
  refine ⟨fun w sc n hn => ?_, ?_⟩
  · simp only [Spec.enough, Spec.Arg.size] at hn
    rw [Cpp.sharedText_eq (Cpp.link_str v sc)]
    exact Cpp.sharedCall_c16 _ (by rw [Cpp.units16, List.length_map]; exact hs)
      (by rw [Cpp.units16, List.length_map]; omega)
  · have e := C67_trimOf_16 v s s hs hs
    rwa [trimOf_itself s] at e

@[inherit_doc C33_text_itself_8]
theorem C33_text_itself_32 (v : Version) {s : List U32} (hs : Storable s) :
    ChangesShared v (name% "trim") (.str32 s) (.str32 []) ∧ Changes v (name% "trim") (.str32 s) [.str32 s] (.ok (.str32 [])) := by
  refine ⟨fun w sc n hn => ?_, ?_⟩
  · simp only [Spec.enough, Spec.Arg.size] at hn
    rw [Cpp.sharedText_eq (Cpp.link_str v sc)]
    exact Cpp.sharedCall_c32 _ (by rw [Cpp.units32, List.length_map]; exact hs)
      (by rw [Cpp.units32, List.length_map]; omega)
  · have e := C67_trimOf_32 v s s hs hs
    rwa [trimOf_itself s] at e

/-- No other function of the library has parameters that can stand for one object that changes. -/
theorem C33_text_only_shared (w : Bool) :
    ∃ is, Cpp.parseAll (Cpp.Source.pieces w) = some is ∧
      ((Cpp.functions is).filter CanShare).map (fun f => (f.cls, f.name, f.params.length)) = [(0, name% "trim", 2)] :=
  ⟨_, Cpp.parse_pieces w, by cases w <;> decide +kernel⟩

/-- Nor on Windows. -/
theorem C33_text_only_shared_windows (t : Cpp.Source.Tchar) :
    ∃ is, Cpp.parseAll (Cpp.Source.onWindows t) = some is ∧
      ((Cpp.functions is).filter CanShare).map (fun f => (f.cls, f.name, f.params.length)) = [(0, name% "trim", 2)] :=
  ⟨_, Cpp.parse_onWindows t, by cases t <;> decide +kernel⟩

example (v : Version) : ChangesShared v (name% "trim") (.str8 [0x61, 0x62, 0x61]) (.str8 []) :=
  (C33_text_itself_8 v (by decide)).1

end Ansak.Props
