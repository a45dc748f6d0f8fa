import Verif.Model.Cxx.Source
import Verif.Lemmas.Cxx.Check7
import Verif.Lemmas.Cxx.Check8
import Verif.Lemmas.Cxx.Check9
import Verif.Lemmas.Cxx.Check10
import Verif.Lemmas.Cxx.Check11
import Verif.Lemmas.Cxx.Check12
import Verif.Lemmas.Cxx.Check13
import Verif.Lemmas.Cxx.Check14
import Verif.Lemmas.Cxx.Check15
import Verif.Lemmas.Cxx.Check16

/-!
# The model of the tables is what their source text says
-/

namespace Ansak.Cxx

open Unicode CExpr

def queries (v : Version) : List Query :=
  [⟨name% "isUnicodeAssigned", .c16, .bool, .b (isUnicodeAssigned16 v)⟩,
   ⟨name% "isUnicodeAssigned", .c32, .bool, .b (isUnicodeAssigned32 v)⟩,
   ⟨name% "isUnicodePrivate", .c16, .bool, .b (isUnicodePrivate16 v)⟩,
   ⟨name% "isUnicodePrivate", .c32, .bool, .b (isUnicodePrivate32 v)⟩,
   ⟨name% "isControlChar", .char, .bool, .b (isControlChar8 v)⟩,
   ⟨name% "isControlChar", .c16, .bool, .b (isControlChar16 v)⟩,
   ⟨name% "isControlChar", .c32, .bool, .b (isControlChar32 v)⟩,
   ⟨name% "isWhitespaceChar", .char, .bool, .b (isWhitespaceChar8 v)⟩,
   ⟨name% "isWhitespaceChar", .c16, .bool, .b (isWhitespaceChar16 v)⟩,
   ⟨name% "isWhitespaceChar", .c32, .bool, .b (isWhitespaceChar32 v)⟩]

def versionNumber : Version → Nat
  | .v7 => name% "7.0.0"
  | .v8 => name% "8.0.0"
  | .v9 => name% "9.0.0"
  | .v10 => name% "10.0.0"
  | .v11 => name% "11.0.0"
  | .v12 => name% "12.0.0"
  | .v13 => name% "13.0.0"
  | .v14 => name% "14.0.0"
  | .v15 => name% "15.0.0"
  | .v16 => name% "16.0.0"

theorem isUnicode_ok (v : Version) : ∃ ts, checkFile (isUnicodeSource v) ts (queries v)
    [(name% "supportedUnicodeVersion", versionNumber v)] = true := by
  cases v
  · exact ⟨_, Check7.isUnicode_ok⟩
  · exact ⟨_, Check8.isUnicode_ok⟩
  · exact ⟨_, Check9.isUnicode_ok⟩
  · exact ⟨_, Check10.isUnicode_ok⟩
  · exact ⟨_, Check11.isUnicode_ok⟩
  · exact ⟨_, Check12.isUnicode_ok⟩
  · exact ⟨_, Check13.isUnicode_ok⟩
  · exact ⟨_, Check14.isUnicode_ok⟩
  · exact ⟨_, Check15.isUnicode_ok⟩
  · exact ⟨_, Check16.isUnicode_ok⟩

theorem toLower_ok (v : Version) : ∃ ts, checkFile (toLowerSource v) ts
    [⟨name% "toLower", .c32, .c32, .v (toLower v)⟩, ⟨name% "turkicToLower", .c32, .c32, .v (turkicToLower v)⟩]
    [] = true := by
  cases v
  · exact ⟨_, Check7.toLower_ok⟩
  · exact ⟨_, Check8.toLower_ok⟩
  · exact ⟨_, Check9.toLower_ok⟩
  · exact ⟨_, Check10.toLower_ok⟩
  · exact ⟨_, Check11.toLower_ok⟩
  · exact ⟨_, Check12.toLower_ok⟩
  · exact ⟨_, Check13.toLower_ok⟩
  · exact ⟨_, Check14.toLower_ok⟩
  · exact ⟨_, Check15.toLower_ok⟩
  · exact ⟨_, Check16.toLower_ok⟩

theorem mod32 (c : U32) : c.toNat % 2 ^ width .c32 = c.toNat := Nat.mod_eq_of_lt c.isLt

theorem mod16 (c : U16) : (c.setWidth 32).toNat % 2 ^ width .c16 = c.toNat := by
  have h := c.isLt
  rw [BitVec.toNat_setWidth]
  show c.toNat % 2 ^ 32 % 2 ^ 16 = c.toNat
  omega

theorem mod8 (c : Byte) : (c.setWidth 32).toNat % 2 ^ width .char = c.toNat := by
  have h := c.isLt
  rw [BitVec.toNat_setWidth]
  show c.toNat % 2 ^ 32 % 2 ^ 8 = c.toNat
  omega

theorem convert16 (sc : Bool) (c : U16) : convert sc (c.setWidth 32) .c16 = c.setWidth 32 := by
  apply BitVec.eq_of_toNat_eq
  have h := c.isLt
  unfold convert
  simp only [BitVec.toNat_setWidth]
  omega

theorem call32_bool {v : Version} {name : Nat} {t : B} (hq : ⟨name, .c32, .bool, .b t⟩ ∈ queries v) (sc : Bool)
    (c : U32) :
    call32 sc (isUnicodeSource v) name c = some (if t.eval c.toNat = true then 1 else 0) := by
  obtain ⟨ts, h⟩ := isUnicode_ok v
  have := call_bool h sc hq c
  rw [mod32] at this
  exact this

theorem call16_bool {v : Version} {name : Nat} {t : B} (hq : ⟨name, .c16, .bool, .b t⟩ ∈ queries v) (sc : Bool)
    (c : U16) :
    call16 sc (isUnicodeSource v) name c = some (if t.eval c.toNat = true then 1 else 0) := by
  obtain ⟨ts, h⟩ := isUnicode_ok v
  have := call_bool h sc hq (c.setWidth 32)
  rw [mod16, convert16] at this
  exact this

theorem call8_bool {v : Version} {name : Nat} {t : B} (hq : ⟨name, .char, .bool, .b t⟩ ∈ queries v) (sc : Bool)
    (c : Byte) :
    call8 sc (isUnicodeSource v) name c = some (if t.eval c.toNat = true then 1 else 0) := by
  obtain ⟨ts, h⟩ := isUnicode_ok v
  have := call_bool h sc hq (c.setWidth 32)
  rw [mod8] at this
  exact this

theorem isUnicodeAssigned16_source (v : Version) (sc : Bool) (c : U16) :
    call16 sc (isUnicodeSource v) (name% "isUnicodeAssigned") c =
      some (if (isUnicodeAssigned16 v).eval c.toNat = true then 1 else 0) :=
  call16_bool (.head _) sc c

theorem isUnicodeAssigned32_source (v : Version) (sc : Bool) (c : U32) :
    call32 sc (isUnicodeSource v) (name% "isUnicodeAssigned") c =
      some (if (isUnicodeAssigned32 v).eval c.toNat = true then 1 else 0) :=
  call32_bool (.tail _ <| .head _) sc c

theorem isUnicodePrivate16_source (v : Version) (sc : Bool) (c : U16) :
    call16 sc (isUnicodeSource v) (name% "isUnicodePrivate") c =
      some (if (isUnicodePrivate16 v).eval c.toNat = true then 1 else 0) :=
  call16_bool (.tail _ <| .tail _ <| .head _) sc c

theorem isUnicodePrivate32_source (v : Version) (sc : Bool) (c : U32) :
    call32 sc (isUnicodeSource v) (name% "isUnicodePrivate") c =
      some (if (isUnicodePrivate32 v).eval c.toNat = true then 1 else 0) :=
  call32_bool (.tail _ <| .tail _ <| .tail _ <| .head _) sc c

theorem isControlChar8_source (v : Version) (sc : Bool) (c : Byte) :
    call8 sc (isUnicodeSource v) (name% "isControlChar") c =
      some (if (isControlChar8 v).eval c.toNat = true then 1 else 0) :=
  call8_bool (.tail _ <| .tail _ <| .tail _ <| .tail _ <| .head _) sc c

theorem isControlChar16_source (v : Version) (sc : Bool) (c : U16) :
    call16 sc (isUnicodeSource v) (name% "isControlChar") c =
      some (if (isControlChar16 v).eval c.toNat = true then 1 else 0) :=
  call16_bool (.tail _ <| .tail _ <| .tail _ <| .tail _ <| .tail _ <| .head _) sc c

theorem isControlChar32_source (v : Version) (sc : Bool) (c : U32) :
    call32 sc (isUnicodeSource v) (name% "isControlChar") c =
      some (if (isControlChar32 v).eval c.toNat = true then 1 else 0) :=
  call32_bool (.tail _ <| .tail _ <| .tail _ <| .tail _ <| .tail _ <| .tail _ <| .head _) sc c

theorem isWhitespaceChar8_source (v : Version) (sc : Bool) (c : Byte) :
    call8 sc (isUnicodeSource v) (name% "isWhitespaceChar") c =
      some (if (isWhitespaceChar8 v).eval c.toNat = true then 1 else 0) :=
  call8_bool (.tail _ <| .tail _ <| .tail _ <| .tail _ <| .tail _ <| .tail _ <| .tail _ <| .head _) sc c

theorem isWhitespaceChar16_source (v : Version) (sc : Bool) (c : U16) :
    call16 sc (isUnicodeSource v) (name% "isWhitespaceChar") c =
      some (if (isWhitespaceChar16 v).eval c.toNat = true then 1 else 0) :=
  call16_bool (.tail _ <| .tail _ <| .tail _ <| .tail _ <| .tail _ <| .tail _ <| .tail _ <| .tail _ <| .head _) sc c

theorem isWhitespaceChar32_source (v : Version) (sc : Bool) (c : U32) :
    call32 sc (isUnicodeSource v) (name% "isWhitespaceChar") c =
      some (if (isWhitespaceChar32 v).eval c.toNat = true then 1 else 0) :=
  call32_bool (.tail _ <| .tail _ <| .tail _ <| .tail _ <| .tail _ <| .tail _ <| .tail _ <| .tail _ <| .tail _ <| .head _) sc c

theorem toLower_source (v : Version) (sc : Bool) (c : U32) :
    call32 sc (toLowerSource v) (name% "toLower") c = some (toLowerChar v c) := by
  obtain ⟨ts, h⟩ := toLower_ok v
  have := call_char h sc (t := toLower v) (.head _) c
  rw [mod32] at this
  exact this

theorem turkicToLower_source (v : Version) (sc : Bool) (c : U32) :
    call32 sc (toLowerSource v) (name% "turkicToLower") c = some (turkicToLowerChar v c) := by
  obtain ⟨ts, h⟩ := toLower_ok v
  have := call_char h sc (t := turkicToLower v) (.tail _ <| .head _) c
  rw [mod32] at this
  exact this

theorem versionNumber_eq (v : Version) : versionNumber v = nameNumber (supportedUnicodeVersion v) := by
  cases v <;> decide +kernel

theorem version_source (v : Version) :
    constant (isUnicodeSource v) (name% "supportedUnicodeVersion") =
      some (nameNumber (supportedUnicodeVersion v)) := by
  obtain ⟨ts, h⟩ := isUnicode_ok v
  rw [← versionNumber_eq]
  exact constant_eq h (.head _)

end Ansak.Cxx
