import Verif.Model.Base

/-!
# Model of interface/string_splitjoin.hxx

The character type `C` is `BitVec w` for any width `w`; a `vector<basic_string<C>>` is a list of lists.
Only the values are modelled, not allocation.
-/

namespace Ansak

/-- `basic_string::find(C, size_type pos = 0)`: the first position not before `pos` that holds the
character; `npos` is `none`. -/
def findFrom {α : Type} [DecidableEq α] (src : List α) (delim : α) (pos : Nat) : Option Nat :=
  ((src.drop pos).findIdx? (· = delim)).map (· + pos)

theorem findFrom_bounds {α : Type} [DecidableEq α] {src : List α} {delim : α} {pos n : Nat}
    (h : findFrom src delim pos = some n) : pos ≤ n ∧ n < src.length := by
  unfold findFrom at h
  rw [Option.map_eq_some_iff] at h
  obtain ⟨k, hk, rfl⟩ := h
  rw [List.findIdx?_eq_some_iff_getElem] at hk
  obtain ⟨hk, _⟩ := hk
  rw [List.length_drop] at hk
  omega

/-- interface/string_splitjoin.hxx:83-88, the `do ... while` loop that collects the positions of the
delimiter, from position `n` of the first one. -/
def breaksFrom {α : Type} [DecidableEq α] (src : List α) (delim : α) (n : Nat) : List Nat :=
  n :: match _h : findFrom src delim (n + 1) with
    | none => []
    | some m => breaksFrom src delim m
termination_by src.length - n
decreasing_by have := findFrom_bounds _h; omega

/-- `basic_string::substr(pos, n)`. It throws if `pos` is greater than the size, which is modelled as
`ub`: no result either. -/
def substr {α : Type} (src : List α) (pos n : Nat) : Res (List α) :=
  if src.length < pos then .ub else .ok ((src.drop pos).take n)

/-- `result[i] = s` for a vector `result`, out of range being undefined behaviour. -/
def setAt {α : Type} (result : List α) (i : Nat) (s : α) : Res (List α) :=
  if i < result.length then .ok (result.set i s) else .ub

/-- `iResX++` for an `int`: overflow is undefined behaviour. -/
def incInt (i : Nat) : Res Nat := if i < 0x7FFFFFFF then .ok (i + 1) else .ub

/-- interface/string_splitjoin.hxx:93-105, the loop that fills `result`; the list is what is left of
`breaks`. -/
def splitFill {α : Type} (src : List α) : List Nat → List (List α) → Nat → Res (List (List α))
  | [], result, _ => .ok result
  | [n], result, iResX =>
    (substr src (n + 1) (src.length - (n + 1))).bind fun s => setAt result iResX s
  | n :: m :: breaks, result, iResX =>
    (substr src (n + 1) (m - (n + 1))).bind fun s =>
      (incInt iResX).bind fun next => (setAt result iResX s).bind fun result =>
        splitFill src (m :: breaks) result next

/-- interface/string_splitjoin.hxx:60-108 `split`. -/
def split {α : Type} [DecidableEq α] (src : List α) (delim : α) : Res (List (List α)) :=
  if src = [] then .ok []
  else
    match findFrom src delim 0 with
    | none => .ok [src]
    | some n =>
      let breaks := breaksFrom src delim n
      (substr src 0 n).bind fun s =>
        (setAt (List.replicate (breaks.length + 1) []) 0 s).bind fun result =>
          splitFill src breaks result 1

/-- interface/string_splitjoin.hxx:133-141, the loop of `join`. `append(const C*)` appends up to the
terminating NUL. -/
def joinLoop {w : Nat} (delimStr : List (BitVec w)) :
    List (List (BitVec w)) → Bool → List (BitVec w) → Res (List (BitVec w))
  | [], _, r => .ok r
  | s :: src, first, r =>
    if first then joinLoop delimStr src false (r ++ s)
    else (stringOfPtr (some delimStr)).bind fun d => joinLoop delimStr src false (r ++ d ++ s)

/-- interface/string_splitjoin.hxx:116-145 `join`. -/
def join {w : Nat} (src : List (List (BitVec w))) (delim : BitVec w) : Res (List (BitVec w)) :=
  if src = [] then .ok [] else joinLoop [delim, 0] src true []

end Ansak
