/-!
# Specification: trimming
-/

namespace Ansak.Spec

/-- `r` is `s` without its outer blanks: only blanks are missing at the ends, and no blank is left
there. -/
def TrimmedTo {α : Type} (blank : α → Prop) (s r : List α) : Prop :=
  (∃ pre suf, s = pre ++ r ++ suf ∧ (∀ c ∈ pre, blank c) ∧ (∀ c ∈ suf, blank c)) ∧
  (∀ c, r.head? = some c → ¬ blank c) ∧ (∀ c, r.getLast? = some c → ¬ blank c)

/-- The characters that `trimWhiteSpace` documents as white space: TAB, LF, CR, SPACE, NO-BREAK SPACE,
EN QUAD to HAIR SPACE, NARROW NO-BREAK SPACE, MEDIUM MATHEMATICAL SPACE, IDEOGRAPHIC SPACE. -/
def TrimBlank (v : Nat) : Prop :=
  v = 0x9 ∨ v = 0xA ∨ v = 0xD ∨ v = 0x20 ∨ v = 0xA0 ∨ (0x2000 ≤ v ∧ v ≤ 0x200A) ∨ v = 0x202F ∨ v = 0x205F ∨
    v = 0x3000

instance (v : Nat) : Decidable (TrimBlank v) := inferInstanceAs (Decidable (_ ∨ _))

end Ansak.Spec
