/-!
# Base of the model: units, buffers, undefined behaviour

* `char` is modelled as `BitVec 8`, read as `unsigned char` wherever the source casts to it.
* `char16_t` is `BitVec 16`, `char32_t` and `unsigned int` are `BitVec 32`.
* A pointer `const C* p` is the list of the units from `p` to the end of the allocated buffer.
-/

namespace Ansak

/-- A `char`, as the bits it has. -/
abbrev Byte := BitVec 8
/-- A `char16_t`. -/
abbrev U16 := BitVec 16
/-- A `char32_t`, or an `unsigned int`. -/
abbrev U32 := BitVec 32

/-- Outcome of running a C++ function: a value, or undefined behaviour (an out-of-bounds read or
a null dereference). -/
inductive Res (α : Type) where
  | ok (a : α)
  | ub
  deriving Repr, DecidableEq

namespace Res

/-- Sequencing: undefined behaviour is absorbing. -/
def bind {α β : Type} : Res α → (α → Res β) → Res β
  | ok a, f => f a
  | ub, _ => ub

/-- Apply a pure function to the value. -/
def map {α β : Type} (f : α → β) : Res α → Res β
  | ok a => ok (f a)
  | ub => ub

@[simp] theorem bind_ok {α β : Type} (a : α) (f : α → Res β) : bind (ok a) f = f a := rfl
@[simp] theorem bind_ub {α β : Type} (f : α → Res β) : bind (ub : Res α) f = ub := rfl
@[simp] theorem map_ok {α β : Type} (a : α) (f : α → β) : map f (ok a) = ok (f a) := rfl
@[simp] theorem map_ub {α β : Type} (f : α → β) : map f (ub : Res α) = ub := rfl

end Res

/-- A pointer to the first unit of a buffer, or `nullptr`. -/
abbrev Ptr (α : Type) := Option (List α)

/-- `p[k]`; reading at or after the end of the buffer is undefined behaviour. -/
def readAt {α : Type} (p : List α) (k : Nat) : Res α :=
  match p[k]? with
  | some a => .ok a
  | none => .ub

/-- `s.c_str()`: the units of the `basic_string` followed by a NUL
(used by every `basic_string` overload, e.g. source/string.cxx:338-341). -/
def cStr {w : Nat} (s : List (BitVec w)) : Ptr (BitVec w) := some (s ++ [0])

/-- `std::basic_string<C>(const C*)`: copy up to the first NUL. A null pointer or a buffer without a
NUL is undefined behaviour. -/
def stringOfPtr {w : Nat} : Ptr (BitVec w) → Res (List (BitVec w))
  | none => .ub
  | some p => go p
where
  /-- The scan for the terminating NUL. -/
  go : List (BitVec w) → Res (List (BitVec w))
    | [] => .ub
    | c :: p => if c = 0 then .ok [] else (go p).map (c :: ·)

end Ansak
