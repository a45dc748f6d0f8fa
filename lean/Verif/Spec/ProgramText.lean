import Verif.Spec.Program
import Verif.Spec.Library

/-!
# Specification: programs that call the text of the library

The programs of `Verif.Spec.Program` once more, now with the text of the library: each statement makes calls, whose outcomes are
those of the text (`Runs` and `Changes` in `Verif.Spec.Library`). What the programs lead to is a relation, since that is what the
outcome of a call is.
-/

namespace Ansak

open Spec (Lang Arg Runs Changes)

/-- What a program leads to if `exec` says what its statements lead to, and `test` what its conditions lead to. A program that does
not end leads to nothing. -/
inductive Prog.Leads {σ : Type} (exec : Op → σ → Res σ → Prop) (test : Test → σ → Res Bool → Prop) : Prog → σ → Res σ → Prop
  | op {o : Op} {s : σ} {r : Res σ} : exec o s r → Leads exec test (.op o) s r
  | seq {p q : Prog} {s t : σ} {r : Res σ} : Leads exec test p s (.ok t) → Leads exec test q t r → Leads exec test (.seq p q) s r
  | seqUb {p q : Prog} {s : σ} : Leads exec test p s .ub → Leads exec test (.seq p q) s .ub
  | yes {t : Test} {p q : Prog} {s : σ} {r : Res σ} : test t s (.ok true) → Leads exec test p s r → Leads exec test (.ite t p q) s r
  | no {t : Test} {p q : Prog} {s : σ} {r : Res σ} : test t s (.ok false) → Leads exec test q s r → Leads exec test (.ite t p q) s r
  | iteUb {t : Test} {p q : Prog} {s : σ} : test t s .ub → Leads exec test (.ite t p q) s .ub
  | stop {t : Test} {p : Prog} {s : σ} : test t s (.ok false) → Leads exec test (.loop t p) s (.ok s)
  | round {t : Test} {p : Prog} {s s' : σ} {r : Res σ} : test t s (.ok true) → Leads exec test p s (.ok s') →
      Leads exec test (.loop t p) s' r → Leads exec test (.loop t p) s r
  | roundUb {t : Test} {p : Prog} {s : σ} : test t s (.ok true) → Leads exec test p s .ub → Leads exec test (.loop t p) s .ub
  | loopUb {t : Test} {p : Prog} {s : σ} : test t s .ub → Leads exec test (.loop t p) s .ub

/-- Calls for each string of a vector, in order: `call s r` says that the call for `s` leads to `r`. -/
inductive Called {α β : Type} (call : α → Res β → Prop) : List α → Res (List β) → Prop
  | nil : Called call [] (.ok [])
  | cons {a : α} {b : β} {as : List α} {r : Res (List β)} : call a (.ok b) → Called call as r → Called call (a :: as) (r.map (b :: ·))
  | ub {a : α} {as : List α} : call a .ub → Called call (a :: as) .ub

/-- `toUtf8`, `toUtf16` and `toUcs4` for the strings of a vector. -/
inductive Vec.Converted (v : Version) : Enc → Vec → Res Vec → Prop
  | same8 {ss : List (List Byte)} : Converted v .utf8 (.v8 ss) (.ok (.v8 ss))
  | same16 {ss : List (List U16)} : Converted v .utf16 (.v16 ss) (.ok (.v16 ss))
  | same32 {ss : List (List U32)} : Converted v .ucs4 (.v32 ss) (.ok (.v32 ss))
  | to8of16 {ss : List (List U16)} {r : Res (List (List Byte))} :
      Called (fun s x => Runs v (name% "toUtf8") [.str16 s] (x.map .str8)) ss r → Converted v .utf8 (.v16 ss) (r.map .v8)
  | to8of32 {ss : List (List U32)} {r : Res (List (List Byte))} :
      Called (fun s x => Runs v (name% "toUtf8") [.str32 s] (x.map .str8)) ss r → Converted v .utf8 (.v32 ss) (r.map .v8)
  | to16of8 {ss : List (List Byte)} {r : Res (List (List U16))} :
      Called (fun s x => Runs v (name% "toUtf16") [.str8 s] (x.map .str16)) ss r → Converted v .utf16 (.v8 ss) (r.map .v16)
  | to16of32 {ss : List (List U32)} {r : Res (List (List U16))} :
      Called (fun s x => Runs v (name% "toUtf16") [.str32 s] (x.map .str16)) ss r → Converted v .utf16 (.v32 ss) (r.map .v16)
  | to32of8 {ss : List (List Byte)} {r : Res (List (List U32))} :
      Called (fun s x => Runs v (name% "toUcs4") [.str8 s] (x.map .str32)) ss r → Converted v .ucs4 (.v8 ss) (r.map .v32)
  | to32of16 {ss : List (List U16)} {r : Res (List (List U32))} :
      Called (fun s x => Runs v (name% "toUcs4") [.str16 s] (x.map .str32)) ss r → Converted v .ucs4 (.v16 ss) (r.map .v32)

/-- `toLower` for the strings of a vector. -/
inductive Vec.Lowered (v : Version) (lang : Ptr Byte) : Vec → Res Vec → Prop
  | v8 {ss : List (List Byte)} {r : Res (List (List Byte))} :
      Called (fun s x => Runs v (name% "toLower") [.str8 s, .ptr8 lang] (x.map .str8)) ss r → Lowered v lang (.v8 ss) (r.map .v8)
  | v16 {ss : List (List U16)} {r : Res (List (List U16))} :
      Called (fun s x => Runs v (name% "toLower") [.str16 s, .ptr8 lang] (x.map .str16)) ss r → Lowered v lang (.v16 ss) (r.map .v16)
  | v32 {ss : List (List U32)} {r : Res (List (List U32))} :
      Called (fun s x => Runs v (name% "toLower") [.str32 s, .ptr8 lang] (x.map .str32)) ss r → Lowered v lang (.v32 ss) (r.map .v32)

/-- `trim` or `trimWhiteSpace` for the strings of a vector. -/
inductive Vec.Trimmed (v : Version) (name : Nat) : Vec → Res Vec → Prop
  | v8 {ss : List (List Byte)} {r : Res (List (List Byte))} :
      Called (fun s x => Changes v name (.str8 s) [] (x.map .str8)) ss r → Trimmed v name (.v8 ss) (r.map .v8)
  | v16 {ss : List (List U16)} {r : Res (List (List U16))} :
      Called (fun s x => Changes v name (.str16 s) [] (x.map .str16)) ss r → Trimmed v name (.v16 ss) (r.map .v16)
  | v32 {ss : List (List U32)} {r : Res (List (List U32))} :
      Called (fun s x => Changes v name (.str32 s) [] (x.map .str32)) ss r → Trimmed v name (.v32 ss) (r.map .v32)

/-- `split` for the strings of a vector; the pieces make one vector. -/
inductive Vec.Cut (v : Version) (d : Nat) : Vec → Res Vec → Prop
  | v8 {ss : List (List Byte)} {r : Res (List (List (List Byte)))} :
      Called (fun s x => Runs v (name% "split") [.str8 s, .char8 (BitVec.ofNat 8 d)] (x.map .vec8)) ss r →
      Cut v d (.v8 ss) (r.map fun ps => .v8 ps.flatten)
  | v16 {ss : List (List U16)} {r : Res (List (List (List U16)))} :
      Called (fun s x => Runs v (name% "split") [.str16 s, .char16 (BitVec.ofNat 16 d)] (x.map .vec16)) ss r →
      Cut v d (.v16 ss) (r.map fun ps => .v16 ps.flatten)
  | v32 {ss : List (List U32)} {r : Res (List (List (List U32)))} :
      Called (fun s x => Runs v (name% "split") [.str32 s, .char32 (BitVec.ofNat 32 d)] (x.map .vec32)) ss r →
      Cut v d (.v32 ss) (r.map fun ps => .v32 ps.flatten)

/-- `join` of a vector. -/
inductive Vec.Joined (v : Version) (d : Nat) : Vec → Res Vec → Prop
  | v8 {ss : List (List Byte)} {r : Res (List Byte)} :
      Runs v (name% "join") [.vec8 ss, .char8 (BitVec.ofNat 8 d)] (r.map .str8) → Joined v d (.v8 ss) (r.map fun s => .v8 [s])
  | v16 {ss : List (List U16)} {r : Res (List U16)} :
      Runs v (name% "join") [.vec16 ss, .char16 (BitVec.ofNat 16 d)] (r.map .str16) → Joined v d (.v16 ss) (r.map fun s => .v16 [s])
  | v32 {ss : List (List U32)} {r : Res (List U32)} :
      Runs v (name% "join") [.vec32 ss, .char32 (BitVec.ofNat 32 d)] (r.map .str32) → Joined v d (.v32 ss) (r.map fun s => .v32 [s])

/-- `isUtf8(s, r)`, `isUtf16(s, r)` or `isUcs4(s, r)` for the strings of a vector: do all calls return `true`? -/
inductive Vec.Fitting (v : Version) (range : Spec.Range) : Vec → Res Bool → Prop
  | v8 {ss : List (List Byte)} {r : Res (List Bool)} :
      Called (fun s x => Runs v (name% "isUtf8") [.str8 s, .range range.code] (x.map .bool)) ss r →
      Fitting v range (.v8 ss) (r.map (·.all id))
  | v16 {ss : List (List U16)} {r : Res (List Bool)} :
      Called (fun s x => Runs v (name% "isUtf16") [.str16 s, .range range.code] (x.map .bool)) ss r →
      Fitting v range (.v16 ss) (r.map (·.all id))
  | v32 {ss : List (List U32)} {r : Res (List Bool)} :
      Called (fun s x => Runs v (name% "isUcs4") [.str32 s, .range range.code] (x.map .bool)) ss r →
      Fitting v range (.v32 ss) (r.map (·.all id))

/-- `unicodeLength(s) == n` for all strings of a vector. -/
inductive Vec.Counted (v : Version) (n : Nat) : Vec → Res Bool → Prop
  | v8 {ss : List (List Byte)} {r : Res (List U32)} :
      Called (fun s x => Runs v (name% "unicodeLength") [.str8 s] (x.map .uint)) ss r →
      Counted v n (.v8 ss) (r.map (·.all fun k => k.toNat == n))
  | v16 {ss : List (List U16)} {r : Res (List U32)} :
      Called (fun s x => Runs v (name% "unicodeLength") [.str16 s] (x.map .uint)) ss r →
      Counted v n (.v16 ss) (r.map (·.all fun k => k.toNat == n))
  | v32 {ss : List (List U32)} {r : Res (List U32)} :
      Called (fun s x => Runs v (name% "unicodeLength") [.str32 s] (x.map .uint)) ss r →
      Counted v n (.v32 ss) (r.map (·.all fun k => k.toNat == n))

/-- What a statement leads to. -/
inductive Strings.Executed (v : Version) (σ : Strings) : Op → Res Strings → Prop
  | literal (x : Nat) (e : Enc) (t : List Nat) : Executed v σ (.literal x e t) (.ok (σ.set x (.literal t e)))
  | copy (x y : Nat) : Executed v σ (.copy x y) (.ok (σ.set x (σ y)))
  | convert {x : Nat} {e : Enc} {r : Res Vec} : (σ x).Converted v e r → Executed v σ (.convert x e) (r.map (σ.set x))
  | lower {x : Nat} {lang : Lang} {r : Res Vec} : (σ x).Lowered v (langPtr lang) r → Executed v σ (.lower x lang) (r.map (σ.set x))
  | trim {x : Nat} {r : Res Vec} : (σ x).Trimmed v (name% "trim") r → Executed v σ (.trim x) (r.map (σ.set x))
  | trimWhite {x : Nat} {r : Res Vec} : (σ x).Trimmed v (name% "trimWhiteSpace") r → Executed v σ (.trimWhite x) (r.map (σ.set x))
  | split {x d : Nat} {r : Res Vec} : (σ x).Cut v d r → Executed v σ (.split x d) (r.map (σ.set x))
  | join {x d : Nat} {r : Res Vec} : (σ x).Joined v d r → Executed v σ (.join x d) (r.map (σ.set x))
  | glue (x : Nat) : Executed v σ (.glue x) (.ok (σ.set x (σ x).glue))
  | concat {x y : Nat} {r : Res Vec} : (σ y).Converted v (σ x).enc r →
      Executed v σ (.concat x y) (r.map fun w => σ.set x ((σ x).append w))
  | pick (x i : Nat) : Executed v σ (.pick x i) (.ok (σ.set x ((σ x).pick i)))

/-- What a condition leads to. -/
inductive Strings.Tested (v : Version) (σ : Strings) : Test → Res Bool → Prop
  | same {x y : Nat} {r : Res Vec} : (σ y).Converted v (σ x).enc r → Tested v σ (.same x y) (r.map (σ x).same)
  | fits {x : Nat} {range : Spec.Range} {r : Res Bool} : (σ x).Fitting v range r → Tested v σ (.fits x range) r
  | count {x n : Nat} {r : Res Bool} : (σ x).Counted v n r → Tested v σ (.count x n) r
  | size (x n : Nat) : Tested v σ (.size x n) (.ok ((σ x).size == n))

/-- All strings of a vector have lengths that a string can have. -/
def Vec.Stored : Vec → Prop
  | .v8 ss => ∀ s ∈ ss, s.length < 18446744073709551615
  | .v16 ss => ∀ s ∈ ss, s.length < 18446744073709551615
  | .v32 ss => ∀ s ∈ ss, s.length < 18446744073709551615

/-- All strings have lengths that a string can have. -/
def Strings.Stored (σ : Strings) : Prop := ∀ x, (σ x).Stored

/-- A program that calls the text of the library leads to `r`, and the strings that it makes fit into memory. -/
def LeadsTo (v : Version) : Prog → Strings → Res Strings → Prop :=
  Prog.Leads (fun o σ r => σ.Executed v o r ∧ ∀ σ', r = .ok σ' → σ'.Stored) (fun t σ r => σ.Tested v t r)

/-- The same program leads to `r` on texts, and each text on the way has the property `P`. -/
def LeadsTextsTo (low : Lang → Nat → Nat) (P : List Nat → Prop) : Prog → Spec.Texts → Res Spec.Texts → Prop :=
  Prog.Leads (fun o τ r => Spec.textExec low o τ = r ∧ ∀ τ', r = .ok τ' → ∀ x, ∀ t ∈ τ' x, P t) (fun t τ r => .ok (Spec.textTest t τ) = r)

/-- Fewer than 2^61 characters, so that the text fits into a string in each encoding. -/
abbrev Short (t : List Nat) : Prop := t.length < 0x2000000000000000

/-- Both are undefined, or the strings are the texts. -/
def Matches : Res Strings → Res Spec.Texts → Prop
  | .ub, .ub => True
  | .ok σ, .ok τ => σ.Holds τ
  | _, _ => False

/-- `low` is the lower-casing of single characters by the text of the library. -/
def LowerOfText (v : Version) (low : Lang → Nat → Nat) : Prop :=
  ∀ (lang : Lang) (c : U32), ∃ d : U32,
    Spec.Returns v (name% "toLower") [.str32 [c], .ptr8 (langPtr lang)] (.str32 [d]) ∧ low lang c.toNat = d.toNat

end Ansak
