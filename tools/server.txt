import Verif.Spec.Library
import Verif.Model.Unicode
open Ansak Ansak.Cpp Ansak.Spec
instance : Inhabited Arg := ⟨.bool false⟩
instance : Inhabited Version := ⟨.v7⟩

def X (v : Version) (sc : Bool) : Externals where
  fn name t n :=
    let U := Unicode.charClass v
    let b (x : Bool) : Option Int := some (if x then 1 else 0)
    let w := (match t with | .char => 256 | .c16 => 65536 | _ => 4294967296 : Nat)
    let c := (n % w).toNat
    if name = (name% "isUnicodeAssigned") then (match t with | .c16 => b (U.assigned16 c) | .c32 => b (U.assigned32 c) | _ => none)
    else if name = (name% "isUnicodePrivate") then (match t with | .c16 => b (U.private16 c) | .c32 => b (U.private32 c) | _ => none)
    else if name = (name% "isControlChar") then (match t with | .char => b (U.control8 c) | .c16 => b (U.control16 c) | _ => b (U.control32 c))
    else if name = (name% "isWhitespaceChar") then (match t with | .char => b (U.white8 c) | .c16 => b (U.white16 c) | _ => b (U.white32 c))
    else if name = (name% "toLower") then some (Unicode.toLowerChar v (BitVec.ofNat 32 c)).toNat
    else if name = (name% "turkicToLower") then some (Unicode.turkicToLowerChar v (BitVec.ofNat 32 c)).toNat
    else none
  str name := if name = (name% "supportedUnicodeVersion") then some (units8 sc (bytesOf (Unicode.supportedUnicodeVersion v))) else none

def nameText (n : Nat) : String := Id.run do
  let mut s := ""
  let mut n := n
  while n > 0 do
    s := (Char.ofNat (n % 256)).toString ++ s
    n := n / 256
  return s
def tyText : Ty → String
  | .bool => "bool" | .char => "char" | .uchar => "uchar" | .c16 => "c16" | .c32 => "c32" | .wchar => "wchar"
  | .int => "int" | .uint => "uint" | .long => "long" | .ulong => "ulong" | .enum n => nameText n
def listText (l : List Int) : String := ",".intercalate (l.map toString)
def showVal : Val → String
  | .int t n => s!"i/{tyText t}/{n}"
  | .str t s => s!"s/{tyText t}/{listText s}"
  | .obj _ f => s!"o/{listText (f.map fun x => x.2.2)}"
  | .ptr t (some (l, n)) => s!"p/{tyText t}/{listText l}/{n}"
  | .ptr t none => s!"p/{tyText t}/null"
  | .vec t l => if l.isEmpty then s!"v/{tyText t}/-" else s!"v/{tyText t}/{";".intercalate (l.map listText)}"
  | .void => "void" | .null => "null" | _ => "?"
def showOut : Out → String
  | .done v r => s!"{showVal v}|{"|".intercalate (r.map fun o => match o with | some v => showVal v | none => "-")}"
  | .ub => "ub" | .timeout => "timeout" | .stuck => "stuck"

def ints (s : String) : List Int := if s == "" then [] else (s.splitOn ",").map (·.toInt!)
def nameOf (s : String) : Nat := if s == "-" then 0 else s.toList.foldl (fun n c => n * 256 + c.toNat) 0
def ty (s : String) : Ty :=
  match s with
  | "bool" => .bool | "char" => .char | "uchar" => .uchar | "c16" => .c16 | "c32" => .c32 | "wchar" => .wchar
  | "int" => .int | "uint" => .uint | "long" => .long | "ulong" => .ulong | e => .enum (nameOf e)
def val (s : String) : Val :=
  match s.splitOn "/" with
  | ["i", t, n] => .int (ty t) n.toInt!
  | ["s", t, l] => .str (ty t) (ints l)
  | ["p", t, "null"] => .ptr (ty t) none
  | ["p", t, l, n] => .ptr (ty t) (some (ints l, n.toInt!))
  | ["v", t, l] => .vec (ty t) (if l == "-" then [] else (l.splitOn ";").map ints)
  | ["o", l] => .obj (name% "EncodingCheckPredicate")
      (match ints l with | [a, b] => [(name% "m_mask", .uint, a), (name% "m_value", .uint, b)] | _ => [])
  | ["null"] => .null
  | _ => .void
def versions : List Version := [.v7, .v8, .v9, .v10, .v11, .v12, .v13, .v14, .v15, .v16]

partial def serve (ps : Array (Option (List Item))) (progs : List ((Nat × Bool × Bool) × Option Program)) : IO Unit := do
  let l ← (← IO.getStdin).getLine
  if l == "" then return
  match (l.trimAscii.toString.splitOn " ") with
  | w :: v :: sc :: fuel :: cls :: name :: args =>
    let w := w == "32"
    let sc := sc == "1"
    let vn := v.toNat!
    let v := versions[vn - 7]!
    let (P, progs) := match progs.find? (·.1 == (vn, w, sc)) with
      | some p => (p.2, progs)
      | none => let P := match ps[if w then 1 else 0]! with | some is => program (X v sc) sc (wideType w) is | none => none
                (P, ((vn, w, sc), P) :: progs)
    match P with
    | none => IO.println "noprogram"
    | some P =>
      let fuel := fuel.toNat!
      IO.println (showOut (P.call (X v sc) sc fuel fuel (nameOf cls) (nameOf name) (args.map val) .done))
    (← IO.getStdout).flush
    serve ps progs
  | _ => IO.println "bad"; (← IO.getStdout).flush; serve ps progs
def main : IO Unit := do
  let t ← IO.monoMsNow
  let ps := #[parseAll (Source.pieces false), parseAll (Source.pieces true)]
  IO.eprintln s!"parsed {ps.map (·.isSome)} {(← IO.monoMsNow) - t}"
  serve ps []
