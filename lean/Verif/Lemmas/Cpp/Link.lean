import Verif.Spec.Library
import Verif.Lemmas.Cxx.All
import Verif.Lemmas.Cpp.Text
import Verif.Lemmas.Cpp.Api

/-! # The library, linked with the tables of a version -/

namespace Ansak.Cpp

open Spec (Arg enough Yields Runs RunsOn Changes RunsMember bytesOf)

theorem ofInt_charVal (sc : Bool) (c : Byte) : BitVec.ofInt 8 (charVal sc c) = c := by
  cases sc
  · exact (BitVec.ofInt_natCast _ _).trans ((BitVec.ofNat_toNat _ _).trans (BitVec.setWidth_eq _))
  · exact BitVec.ofInt_toInt

theorem ofInt_toNat {w : Nat} (c : BitVec w) : BitVec.ofInt w (c.toNat : Int) = c :=
  (BitVec.ofInt_natCast _ _).trans ((BitVec.ofNat_toNat _ _).trans (BitVec.setWidth_eq _))

theorem bit_map (b : Bool) : (some (if b = true then 1 else 0 : Cxx.Word)).map (fun w => (w.toNat : Int)) =
    some (bit b) := by
  cases b <;> rfl

theorem link_are (v : Version) (sc : Bool) :
    (link v sc).Are sc (Unicode.charClass v) (Unicode.toLowerChar v) (Unicode.turkicToLowerChar v) where
  assigned16 c := by
    show (Cxx.call16 sc (Cxx.isUnicodeSource v) _ (BitVec.ofInt 16 c.toNat)).map _ = _
    rw [ofInt_toNat, Cxx.isUnicodeAssigned16_source, bit_map]; rfl
  assigned32 c := by
    show (Cxx.call32 sc (Cxx.isUnicodeSource v) _ (BitVec.ofInt 32 c.toNat)).map _ = _
    rw [ofInt_toNat, Cxx.isUnicodeAssigned32_source, bit_map]; rfl
  private16 c := by
    show (Cxx.call16 sc (Cxx.isUnicodeSource v) _ (BitVec.ofInt 16 c.toNat)).map _ = _
    rw [ofInt_toNat, Cxx.isUnicodePrivate16_source, bit_map]; rfl
  private32 c := by
    show (Cxx.call32 sc (Cxx.isUnicodeSource v) _ (BitVec.ofInt 32 c.toNat)).map _ = _
    rw [ofInt_toNat, Cxx.isUnicodePrivate32_source, bit_map]; rfl
  control8 c := by
    show (Cxx.call8 sc (Cxx.isUnicodeSource v) _ (BitVec.ofInt 8 (charVal sc c))).map _ = _
    rw [ofInt_charVal, Cxx.isControlChar8_source, bit_map]; rfl
  control16 c := by
    show (Cxx.call16 sc (Cxx.isUnicodeSource v) _ (BitVec.ofInt 16 c.toNat)).map _ = _
    rw [ofInt_toNat, Cxx.isControlChar16_source, bit_map]; rfl
  control32 c := by
    show (Cxx.call32 sc (Cxx.isUnicodeSource v) _ (BitVec.ofInt 32 c.toNat)).map _ = _
    rw [ofInt_toNat, Cxx.isControlChar32_source, bit_map]; rfl
  white8 c := by
    show (Cxx.call8 sc (Cxx.isUnicodeSource v) _ (BitVec.ofInt 8 (charVal sc c))).map _ = _
    rw [ofInt_charVal, Cxx.isWhitespaceChar8_source, bit_map]; rfl
  white16 c := by
    show (Cxx.call16 sc (Cxx.isUnicodeSource v) _ (BitVec.ofInt 16 c.toNat)).map _ = _
    rw [ofInt_toNat, Cxx.isWhitespaceChar16_source, bit_map]; rfl
  white32 c := by
    show (Cxx.call32 sc (Cxx.isUnicodeSource v) _ (BitVec.ofInt 32 c.toNat)).map _ = _
    rw [ofInt_toNat, Cxx.isWhitespaceChar32_source, bit_map]; rfl
  lower c := by
    show (Cxx.call32 sc (Cxx.toLowerSource v) _ (BitVec.ofInt 32 c.toNat)).map _ = _
    rw [ofInt_toNat, Cxx.toLower_source]; rfl
  turkic c := by
    show (Cxx.call32 sc (Cxx.toLowerSource v) _ (BitVec.ofInt 32 c.toNat)).map _ = _
    rw [ofInt_toNat, Cxx.turkicToLower_source]; rfl

theorem characters_version (v : Version) :
    characters ((Cxx.nameNumber (Unicode.supportedUnicodeVersion v)).log2 + 1)
      (Cxx.nameNumber (Unicode.supportedUnicodeVersion v)) [] = bytesOf (Unicode.supportedUnicodeVersion v) := by
  cases v <;> decide +kernel

/-- The value of `supportedUnicodeVersion`. -/
abbrev versionText (v : Version) (sc : Bool) : List Int := units8 sc (bytesOf (Unicode.supportedUnicodeVersion v))

theorem link_str (v : Version) (sc : Bool) :
    (link v sc).str (name% "supportedUnicodeVersion") = some (versionText v sc) := by
  show (Cxx.constant (Cxx.isUnicodeSource v) (name% "supportedUnicodeVersion")).map _ = _
  rw [Cxx.version_source, Option.map_some, characters_version]

theorem runsOn_of {α : Type} {w : Bool} {v : Version} {name : Nat} {args : List Arg} {x : Res α} {f : α → Arg}
    {refs : List (Option Val)}
    (h : ∀ sc n, enough args ≤ n →
      Sealed.real.call (Ast.program w (versionText v sc)) (link v sc) sc n n (nat_lit 0) name (args.map (Arg.val sc)) .done =
        x.out fun a => .done ((f a).val sc) refs)
    (hr : ∀ r ∈ refs, r = none := by simp) :
    RunsOn w v name args (x.map f) := by
  intro sc n hn
  rw [callText_eq (link_str v sc)]
  have h := h sc n hn
  cases x with
  | ok a => exact ⟨refs, h, hr⟩
  | ub => exact h

theorem runs_of {α : Type} {v : Version} {name : Nat} {args : List Arg} {x : Res α} {f : α → Arg}
    {refs : List (Option Val)}
    (h : ∀ w sc n, enough args ≤ n →
      Sealed.real.call (Ast.program w (versionText v sc)) (link v sc) sc n n (nat_lit 0) name (args.map (Arg.val sc)) .done =
        x.out fun a => .done ((f a).val sc) refs)
    (hr : ∀ r ∈ refs, r = none := by simp) :
    Runs v name args (x.map f) :=
  fun w => runsOn_of (h w) hr

theorem changes_of {α : Type} {v : Version} {name : Nat} {victim : Arg} {args : List Arg} {x : Res α} {f : α → Arg}
    (h : ∀ w sc n, enough (victim :: args) ≤ n →
      Sealed.real.call (Ast.program w (versionText v sc)) (link v sc) sc n n (nat_lit 0) name
        ((victim :: args).map (Arg.val sc)) .done =
        x.out fun a => .done .void (some ((f a).val sc) :: args.map fun _ => none)) :
    Changes v name victim args (x.map f) := by
  intro w sc n hn
  rw [callText_eq (link_str v sc)]
  have h := h w sc n hn
  cases x with
  | ok a => exact h
  | ub => exact h

theorem runsMember_of {v : Version} {name : Nat} {self self' : Pred} {args : List Arg} {result : Arg}
    (h : ∀ w sc n, enough args ≤ n →
      Sealed.real.call (Ast.program w (versionText v sc)) (link v sc) sc n n (name% "EncodingCheckPredicate") name
        (predVal self :: args.map (Arg.val sc)) .done =
      .done (result.val sc) (some (predVal self') :: args.map fun _ => none)) :
    RunsMember v name self args result self' := by
  intro w sc n hn
  rw [callText_eq (link_str v sc)]
  exact h w sc n hn

/-- What is enough is more than the length of an argument. -/
macro "fits" : tactic => `(tactic| first | omega | (unfold size; omega))

set_option hygiene false in
/-- `linked t`: the call is the one that `t` follows; `t` uses `d`, which is 8 less than the limit. -/
macro "linked " t:term : tactic => `(tactic| (
  simp only [enough, Arg.size] at hn
  obtain ⟨d, rfl⟩ : ∃ d, n = d + 8 := ⟨n - 8, by omega⟩
  exact $t))

end Ansak.Cpp
