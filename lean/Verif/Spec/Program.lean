import Verif.Model.ToLower
import Verif.Model.Trim
import Verif.Model.SplitJoin
import Verif.Model.StringIs
import Verif.Model.UnicodeLength
import Verif.Spec.Utf8
import Verif.Spec.Edit
import Verif.Spec.Turkic
import Verif.Spec.Args

/-!
# Specification: programs that handle text, and what they should compute

A program has variables that hold vectors of strings, and it works on them through the library. The same
program is run by two machines: one has strings in the encodings the program chose and calls the library,
the other one has texts, that is lists of characters, and knows nothing of encodings.
-/

namespace Ansak

open Spec (Lang)

/-- The encodings a variable may be kept in. -/
inductive Enc | utf8 | utf16 | ucs4
  deriving DecidableEq

/-- A statement of a C++ program. `x`, `y` are variables of type `vector<utf8String>`,
`vector<utf16String>` or `vector<ucs4String>`; a statement works on all strings of the vector. -/
inductive Op
  /-- `x = { text };`, a literal in the encoding `e` -/
  | literal (x : Nat) (e : Enc) (text : List Nat)
  /-- `x = y;` -/
  | copy (x y : Nat)
  /-- `x = toUtf8(x)`, `x = toUtf16(x)` or `x = toUcs4(x)` -/
  | convert (x : Nat) (e : Enc)
  /-- `x = toLower(x, lang)` -/
  | lower (x : Nat) (lang : Lang)
  /-- `trim(x)` -/
  | trim (x : Nat)
  /-- `trimWhiteSpace(x)` -/
  | trimWhite (x : Nat)
  /-- `x` becomes the vector of the pieces `split(s, d)` of all its strings `s` -/
  | split (x : Nat) (d : Nat)
  /-- `x = { join(x, d) };` -/
  | join (x : Nat) (d : Nat)
  /-- `x = { x[0] + x[1] + ... };` -/
  | glue (x : Nat)
  /-- The strings of `y`, converted to the encoding of `x`, are appended to the vector `x`. -/
  | concat (x y : Nat)
  /-- `x = { x[i] };`, the empty vector if there is no `x[i]` -/
  | pick (x i : Nat)

/-- A condition of a C++ program. -/
inductive Test
  /-- `x == y` after converting `y` to the encoding of `x` -/
  | same (x y : Nat)
  /-- All strings of `x` are accepted by `isUtf8(s, r)`, `isUtf16(s, r)` or `isUcs4(s, r)`. -/
  | fits (x : Nat) (r : Spec.Range)
  /-- `unicodeLength(s) == n` for all strings `s` of `x` -/
  | count (x n : Nat)
  /-- `x.size() == n` -/
  | size (x n : Nat)

/-- A program. -/
inductive Prog
  | op (o : Op)
  | seq (p q : Prog)
  | ite (t : Test) (p q : Prog)
  | loop (t : Test) (p : Prog)

/-- What a machine does for statements and conditions on its states `σ`. -/
structure Machine (σ : Type) where
  exec : Op → σ → Res σ
  test : Test → σ → Res Bool

/-- The state of a run after a limited number of steps. -/
inductive Outcome (σ : Type)
  /-- the steps did not suffice -/
  | running
  /-- undefined behaviour -/
  | ub
  | done (s : σ)

/-- The outcome of a single statement or condition. -/
def Outcome.of {σ : Type} : Res σ → Outcome σ
  | .ok s => .done s
  | .ub => .ub

/-- Go on from the state that was reached. -/
def Outcome.bind {σ τ : Type} : Outcome σ → (σ → Outcome τ) → Outcome τ
  | .running, _ => .running
  | .ub, _ => .ub
  | .done s, f => f s

/-- Run a program, nested at most `n` levels deep (each round of a loop is one level). A program that
ends does so for all large `n`; one that does not is `running` for every `n`. -/
def Prog.run {σ : Type} (m : Machine σ) : Nat → Prog → σ → Outcome σ
  | 0, _, _ => .running
  | _ + 1, .op o, s => .of (m.exec o s)
  | n + 1, .seq p q, s => (p.run m n s).bind (q.run m n)
  | n + 1, .ite t p q, s => (Outcome.of (m.test t s)).bind fun b => if b then p.run m n s else q.run m n s
  | n + 1, .loop t p, s =>
    (Outcome.of (m.test t s)).bind fun b =>
      if b then (p.run m n s).bind ((Prog.loop t p).run m n) else .done s

/-- Delimiters are ASCII and not NUL, literals are made of characters. -/
def Op.Good : Op → Prop
  | .literal _ _ text => ∀ v ∈ text, Spec.Scalar v
  | .split _ d => 1 ≤ d ∧ d < 0x80
  | .join _ d => 1 ≤ d ∧ d < 0x80
  | _ => True

/-- All statements of the program are good. -/
def Prog.Good : Prog → Prop
  | .op o => o.Good
  | .seq p q => p.Good ∧ q.Good
  | .ite _ p q => p.Good ∧ q.Good
  | .loop _ p => p.Good

/-- The program without its choices of encodings: every literal is UCS-4, and in the place of a conversion is
`x = x`. Two programs with the same plain program differ only in the encodings they choose. -/
def Op.plain : Op → Op
  | .convert x _ => .copy x x
  | .literal x _ t => .literal x .ucs4 t
  | o => o

/-- The program with its statements made plain. -/
def Prog.plain : Prog → Prog
  | .op o => .op o.plain
  | .seq p q => .seq p.plain q.plain
  | .ite t p q => .ite t p.plain q.plain
  | .loop t p => .loop t p.plain

/-! ## The machine that knows only texts -/

namespace Spec

/-- The variables hold vectors of texts. -/
abbrev Texts := Nat → List (List Nat)

/-- Give a variable another value. -/
def Texts.set (τ : Texts) (x : Nat) (ts : List (List Nat)) : Texts := fun y => if y = x then ts else τ y

/-- A text without its outer blanks. -/
def strip (blank : Nat → Bool) (t : List Nat) : List Nat :=
  ((t.dropWhile blank).reverse.dropWhile blank).reverse

/-- The parts of a text between the delimiters. -/
def cut (d : Nat) : List Nat → List (List Nat)
  | [] => [[]]
  | c :: t =>
    if c = d then [] :: cut d t
    else (c :: (cut d t).headD []) :: (cut d t).tail

/-- The parts of all texts; the empty text has none. -/
def cutAll (d : Nat) (ts : List (List Nat)) : List (List Nat) :=
  ts.flatMap fun t => if t = [] then [] else cut d t

/-- What the statements mean for texts. `low` is the lower-case mapping for each language. More than
2^31 - 1 delimiters in a text are too many for `split` (C31). -/
def textExec (low : Lang → Nat → Nat) : Op → Texts → Res Texts
  | .literal x _ t, τ => .ok (τ.set x [t])
  | .copy x y, τ => .ok (τ.set x (τ y))
  | .convert _ _, τ => .ok τ
  | .lower x lang, τ => .ok (τ.set x ((τ x).map (List.map (low lang))))
  | .trim x, τ => .ok (τ.set x ((τ x).map (strip (· = 0x20))))
  | .trimWhite x, τ => .ok (τ.set x ((τ x).map (strip (TrimBlank ·))))
  | .split x d, τ =>
    if ∀ t ∈ τ x, t.count d ≤ 0x7FFFFFFF then .ok (τ.set x (cutAll d (τ x))) else .ub
  | .join x d, τ => .ok (τ.set x [List.intercalate [d] (τ x)])
  | .glue x, τ => .ok (τ.set x [(τ x).flatten])
  | .concat x y, τ => .ok (τ.set x (τ x ++ τ y))
  | .pick x i, τ => .ok (τ.set x (τ x)[i]?.toList)

/-- What the conditions mean for texts. `unicodeLength` returns a 32-bit number. -/
def textTest : Test → Texts → Bool
  | .same x y, τ => τ x == τ y
  | .fits x r, τ => decide (∀ t ∈ τ x, ∀ v ∈ t, r.Has v)
  | .count x n, τ => decide (∀ t ∈ τ x, t.length % 0x100000000 = n)
  | .size x n, τ => decide ((τ x).length = n)

/-- The machine that knows only texts. -/
def textMachine (low : Lang → Nat → Nat) : Machine Texts where
  exec := textExec low
  test t τ := .ok (textTest t τ)

end Spec

/-! ## The machine that calls the library -/

/-- The value of a variable. -/
inductive Vec
  | v8 (ss : List (List Byte))
  | v16 (ss : List (List U16))
  | v32 (ss : List (List U32))

/-- The variables hold vectors of strings. -/
abbrev Strings := Nat → Vec

/-- Give a variable another value. -/
def Strings.set (σ : Strings) (x : Nat) (v : Vec) : Strings := fun y => if y = x then v else σ y

/-- The type of the variable. -/
def Vec.enc : Vec → Enc
  | .v8 _ => .utf8
  | .v16 _ => .utf16
  | .v32 _ => .ucs4

/-- A literal: `{ u8"..." }`, `{ u"..." }`, `{ U"..." }`. -/
def Vec.literal (t : List Nat) : Enc → Vec
  | .utf8 => .v8 [Spec.utf8Of t]
  | .utf16 => .v16 [Spec.utf16Of t]
  | .ucs4 => .v32 [Spec.ucs4Of t]

/-- Call a function on each string of a vector. -/
def onEach {α β : Type} (f : α → Res β) : List α → Res (List β)
  | [] => .ok []
  | a :: as => (f a).bind fun b => (onEach f as).map (b :: ·)

/-- `toUtf8`, `toUtf16` or `toUcs4` for the strings of a vector; strings that are in this encoding stay as they are. -/
def Vec.to : Enc → Vec → Res Vec
  | .utf8, .v8 ss => .ok (.v8 ss)
  | .utf8, .v16 ss => (onEach toUtf8From16S ss).map .v8
  | .utf8, .v32 ss => (onEach toUtf8From32S ss).map .v8
  | .utf16, .v8 ss => (onEach toUtf16From8S ss).map .v16
  | .utf16, .v16 ss => .ok (.v16 ss)
  | .utf16, .v32 ss => (onEach toUtf16From32S ss).map .v16
  | .ucs4, .v8 ss => (onEach toUcs4From8S ss).map .v32
  | .ucs4, .v16 ss => (onEach toUcs4From16S ss).map .v32
  | .ucs4, .v32 ss => .ok (.v32 ss)

/-- `toLower` for the strings of a vector. -/
def Vec.lower (v : Version) (lang : Ptr Byte) : Vec → Res Vec
  | .v8 ss => (onEach (toLower8S v · lang) ss).map .v8
  | .v16 ss => (onEach (toLower16S v · lang) ss).map .v16
  | .v32 ss => (onEach (toLower32S v · lang) ss).map .v32

/-- `trim` for the strings of a vector. -/
def Vec.trim : Vec → Vec
  | .v8 ss => .v8 (ss.map Ansak.trim)
  | .v16 ss => .v16 (ss.map Ansak.trim)
  | .v32 ss => .v32 (ss.map Ansak.trim)

/-- `trimWhiteSpace` for the strings of a vector. -/
def Vec.trimWhite : Vec → Res Vec
  | .v8 ss => (onEach trimWhiteSpace8 ss).map .v8
  | .v16 ss => .ok (.v16 (ss.map trimWhiteSpace16))
  | .v32 ss => .ok (.v32 (ss.map trimWhiteSpace32))

/-- `split` for the strings of a vector; the pieces make one vector. -/
def Vec.split (d : Nat) : Vec → Res Vec
  | .v8 ss => (onEach (Ansak.split · (BitVec.ofNat 8 d)) ss).map fun ps => .v8 ps.flatten
  | .v16 ss => (onEach (Ansak.split · (BitVec.ofNat 16 d)) ss).map fun ps => .v16 ps.flatten
  | .v32 ss => (onEach (Ansak.split · (BitVec.ofNat 32 d)) ss).map fun ps => .v32 ps.flatten

/-- `join` of a vector. -/
def Vec.join (d : Nat) : Vec → Res Vec
  | .v8 ss => (Ansak.join ss (BitVec.ofNat 8 d)).map fun s => .v8 [s]
  | .v16 ss => (Ansak.join ss (BitVec.ofNat 16 d)).map fun s => .v16 [s]
  | .v32 ss => (Ansak.join ss (BitVec.ofNat 32 d)).map fun s => .v32 [s]

/-- The strings of a vector, put together with `+`. -/
def Vec.glue : Vec → Vec
  | .v8 ss => .v8 [ss.flatten]
  | .v16 ss => .v16 [ss.flatten]
  | .v32 ss => .v32 [ss.flatten]

/-- Both vectors have the same type whenever this is called; otherwise the first is left as it is. -/
def Vec.append : Vec → Vec → Vec
  | .v8 ss, .v8 ts => .v8 (ss ++ ts)
  | .v16 ss, .v16 ts => .v16 (ss ++ ts)
  | .v32 ss, .v32 ts => .v32 (ss ++ ts)
  | a, _ => a

/-- The vector with the string at `i` alone. -/
def Vec.pick (i : Nat) : Vec → Vec
  | .v8 ss => .v8 ss[i]?.toList
  | .v16 ss => .v16 ss[i]?.toList
  | .v32 ss => .v32 ss[i]?.toList

/-- What the statements do. -/
def libraryExec (v : Version) : Op → Strings → Res Strings
  | .literal x e t, σ => .ok (σ.set x (.literal t e))
  | .copy x y, σ => .ok (σ.set x (σ y))
  | .convert x e, σ => ((σ x).to e).map (σ.set x)
  | .lower x lang, σ => ((σ x).lower v (langPtr lang)).map (σ.set x)
  | .trim x, σ => .ok (σ.set x (σ x).trim)
  | .trimWhite x, σ => (σ x).trimWhite.map (σ.set x)
  | .split x d, σ => ((σ x).split d).map (σ.set x)
  | .join x d, σ => ((σ x).join d).map (σ.set x)
  | .glue x, σ => .ok (σ.set x (σ x).glue)
  | .concat x y, σ => ((σ y).to (σ x).enc).map fun w => σ.set x ((σ x).append w)
  | .pick x i, σ => .ok (σ.set x ((σ x).pick i))

/-- `==` of two vectors of the same type. -/
def Vec.same : Vec → Vec → Bool
  | .v8 ss, .v8 ts => ss == ts
  | .v16 ss, .v16 ts => ss == ts
  | .v32 ss, .v32 ts => ss == ts
  | _, _ => false

/-- Do all calls return `true`? -/
def allTrue {α : Type} (f : α → Res Bool) (as : List α) : Res Bool := (onEach f as).map (·.all id)

/-- `isUtf8(s, r)`, `isUtf16(s, r)` or `isUcs4(s, r)` for all strings of a vector. -/
def Vec.fits (v : Version) (r : Spec.Range) : Vec → Res Bool
  | .v8 ss => allTrue (isUtf8S (Unicode.charClass v) · r.code Pred.none) ss
  | .v16 ss => allTrue (isUtf16S (Unicode.charClass v) · r.code Pred.none) ss
  | .v32 ss => allTrue (isUcs4S (Unicode.charClass v) · r.code Pred.none) ss

/-- `unicodeLength(s) == n` for all strings of a vector. -/
def Vec.count (n : Nat) : Vec → Res Bool
  | .v8 ss => allTrue (fun s => (unicodeLength8S s).map (·.toNat == n)) ss
  | .v16 ss => allTrue (fun s => (unicodeLength16S s).map (·.toNat == n)) ss
  | .v32 ss => allTrue (fun s => (unicodeLength32S s).map (·.toNat == n)) ss

/-- The number of strings. -/
def Vec.size : Vec → Nat
  | .v8 ss => ss.length
  | .v16 ss => ss.length
  | .v32 ss => ss.length

/-- What the conditions give. -/
def libraryTest (v : Version) : Test → Strings → Res Bool
  | .same x y, σ => ((σ y).to (σ x).enc).map (σ x).same
  | .fits x r, σ => (σ x).fits v r
  | .count x n, σ => (σ x).count n
  | .size x n, σ => .ok ((σ x).size == n)

/-- The machine that calls the library. -/
def library (v : Version) : Machine Strings where
  exec := libraryExec v
  test := libraryTest v

/-! ## What the strings stand for -/

/-- The vector holds these texts, each in the encoding of the vector. -/
def Vec.Holds : Vec → List (List Nat) → Prop
  | .v8 ss, ts => ss = ts.map Spec.utf8Of ∧ ∀ t ∈ ts, ∀ v ∈ t, Spec.Scalar v
  | .v16 ss, ts => ss = ts.map Spec.utf16Of ∧ ∀ t ∈ ts, ∀ v ∈ t, Spec.Scalar v
  | .v32 ss, ts => ss = ts.map Spec.ucs4Of ∧ ∀ t ∈ ts, ∀ v ∈ t, Spec.Scalar v

/-- The variables hold these texts, each in an encoding of its own. -/
def Strings.Holds (σ : Strings) (τ : Spec.Texts) : Prop := ∀ x, (σ x).Holds (τ x)

/-- How a run of the library machine relates to a run of the text machine: both go on, both are undefined,
or both end and the strings are the texts. -/
def Follows : Outcome Strings → Outcome Spec.Texts → Prop
  | .running, .running => True
  | .ub, .ub => True
  | .done σ, .done τ => σ.Holds τ
  | _, _ => False

/-- `low` is the library's lower-casing of single characters. -/
def LowerOf (v : Version) (low : Lang → Nat → Nat) : Prop :=
  ∀ (lang : Lang) (c : U32), ∃ d : U32, toLower32S v [c] (langPtr lang) = .ok [d] ∧ low lang c.toNat = d.toNat

/-- The strings of the two stores stand for the same texts. -/
def SameTexts (σ σ' : Strings) : Prop := ∃ τ, σ.Holds τ ∧ σ'.Holds τ

/-- Two runs: both go on, both are undefined, or both end with the same texts. -/
def SameOutcome : Outcome Strings → Outcome Strings → Prop
  | .running, .running => True
  | .ub, .ub => True
  | .done σ, .done σ' => SameTexts σ σ'
  | _, _ => False

end Ansak
