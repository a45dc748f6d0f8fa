import Verif.Props.Text
import Verif.Props.Length
import Verif.Props.CodePage
import Verif.Props.ToLower

/-!
# C67: no allowed call has undefined behaviour

Everything here is about the text of the library.
-/

namespace Ansak.Props

open Cpp
open Spec (Arg Runs RunsMember enough bytesOf Text8 Text16 Text32 Options Allowed StaysInBounds NulFree Lang)

theorem bind_eq_ok {α β : Type} {x : Res α} {f : α → Res β} {b : β} (h : x.bind f = .ok b) :
    ∃ a, x = .ok a ∧ f a = .ok b := by
  cases x with
  | ok a => exact ⟨a, rfl, h⟩
  | ub => nomatch h

theorem split_at_nul {w : Nat} {l : List (BitVec w)} (h : 0 ∈ l) : ∃ s post, NulFree s ∧ l = s ++ 0 :: post := by
  rcases textOf_split l with e | ⟨r, e⟩
  · rw [e] at h
    exact absurd rfl (textOf_nulFree l 0 h)
  · exact ⟨_, r, textOf_nulFree l, e⟩

/-- A function that stays in bounds has a result on every text. -/
theorem defined_buffer {w : Nat} {β : Type} {f : Ptr (BitVec w) → Res β} (hf : StaysInBounds f) {l : List (BitVec w)}
    (h : 0 ∈ l) : ∃ r, f (some l) = .ok r := by
  obtain ⟨s, post, hs, rfl⟩ := split_at_nul h
  obtain ⟨r, _, hr⟩ := hf s hs
  exact ⟨r, hr post⟩

theorem defined_string {w : Nat} {β : Type} {f : Ptr (BitVec w) → Res β} (hf : StaysInBounds f)
    (s : List (BitVec w)) : ∃ r, f (cStr s) = .ok r :=
  defined_buffer (f := f) hf (List.mem_append_right s (List.mem_singleton_self 0))

theorem runs_ok {α : Type} {v : Version} {name : Nat} {args : List Arg} {x : Res α} {f : α → Arg}
    (h : Runs v name args (x.map f)) (hx : ∃ a, x = .ok a) : ∃ r, Runs v name args (.ok r) := by
  obtain ⟨a, rfl⟩ := hx
  exact ⟨f a, h⟩

theorem isUtf8_null_defined (U : CharClass) (t : Int) (q : Pred) : ∃ r, isUtf8 U none t q = .ok r := by
  rcases range_cases t with h | ⟨r, rfl⟩
  · exact ⟨_, (C14_illegal_range U q h).1 _⟩
  · exact ⟨_, (C13_validators U r q).1.1⟩

theorem isUtf16_null_defined (U : CharClass) (t : Int) (q : Pred) : ∃ r, isUtf16 U none t q = .ok r := by
  rcases range_cases t with h | ⟨r, rfl⟩
  · exact ⟨_, (C14_illegal_range U q h).2.1 _⟩
  · exact ⟨_, (C13_validators U r q).2.1.1⟩

theorem isUcs2_null_defined (U : CharClass) (t : Int) (q : Pred) : ∃ r, isUcs2 U none t q = .ok r := by
  rcases range_cases t with h | ⟨r, rfl⟩
  · exact ⟨_, (C14_illegal_range U q h).2.2.1 _⟩
  · exact ⟨_, (C13_validators U r q).2.2.1.1⟩

theorem isUcs4_null_defined (U : CharClass) (t : Int) (q : Pred) : ∃ r, isUcs4 U none t q = .ok r := by
  rcases range_cases t with h | ⟨r, rfl⟩
  · exact ⟨_, (C14_illegal_range U q h).2.2.2 _⟩
  · exact ⟨_, (C13_validators U r q).2.2.2.1⟩

theorem isUtf8_defined (v : Version) {a : Arg} {as : List Arg} (ha : Text8 a) (h : Options as) :
    ∃ r, Runs v (name% "isUtf8") (a :: as) (.ok r) := by
  cases ha with
  | string s =>
    cases h with
    | none => exact runs_ok (C67_isUtf8_S1 v s) (defined_string (C10_isUtf8 _ kUtf8 Pred.none) s)
    | range t => exact runs_ok (C67_isUtf8_SR v s t) (defined_string (C10_isUtf8 _ _ _) s)
    | pred q => exact runs_ok (C67_isUtf8_S2 v s q) (defined_string (C10_isUtf8 _ kUtf8 q) s)
    | both t q => exact runs_ok (C67_isUtf8_S3 v s t q) (defined_string (C10_isUtf8 _ _ _) s)
  | null =>
    cases h with
    | none => exact runs_ok (C67_isUtf8_P1 v _) (isUtf8_null_defined _ _ _)
    | range t => exact runs_ok (C67_isUtf8_PR v _ t) (isUtf8_null_defined _ _ _)
    | pred q => exact runs_ok (C67_isUtf8_P2 v _ q) (isUtf8_null_defined _ _ _)
    | both t q => exact runs_ok (C67_isUtf8_P3 v _ t q) (isUtf8_null_defined _ _ _)
  | buffer h0 =>
    cases h with
    | none => exact runs_ok (C67_isUtf8_P1 v _) (defined_buffer (C10_isUtf8 _ _ _) h0)
    | range t => exact runs_ok (C67_isUtf8_PR v _ t) (defined_buffer (C10_isUtf8 _ _ _) h0)
    | pred q => exact runs_ok (C67_isUtf8_P2 v _ q) (defined_buffer (C10_isUtf8 _ _ _) h0)
    | both t q => exact runs_ok (C67_isUtf8_P3 v _ t q) (defined_buffer (C10_isUtf8 _ _ _) h0)

theorem isUtf16_defined (v : Version) {a : Arg} {as : List Arg} (ha : Text16 a) (h : Options as) :
    ∃ r, Runs v (name% "isUtf16") (a :: as) (.ok r) := by
  cases ha with
  | string s =>
    cases h with
    | none => exact runs_ok (C67_isUtf16_S1 v s) (defined_string (C10_isUtf16 _ kUtf16 Pred.none) s)
    | range t => exact runs_ok (C67_isUtf16_SR v s t) (defined_string (C10_isUtf16 _ _ _) s)
    | pred q => exact runs_ok (C67_isUtf16_S2 v s q) (defined_string (C10_isUtf16 _ kUtf16 q) s)
    | both t q => exact runs_ok (C67_isUtf16_S3 v s t q) (defined_string (C10_isUtf16 _ _ _) s)
  | null =>
    cases h with
    | none => exact runs_ok (C67_isUtf16_P1 v _) (isUtf16_null_defined _ _ _)
    | range t => exact runs_ok (C67_isUtf16_PR v _ t) (isUtf16_null_defined _ _ _)
    | pred q => exact runs_ok (C67_isUtf16_P2 v _ q) (isUtf16_null_defined _ _ _)
    | both t q => exact runs_ok (C67_isUtf16_P3 v _ t q) (isUtf16_null_defined _ _ _)
  | buffer h0 =>
    cases h with
    | none => exact runs_ok (C67_isUtf16_P1 v _) (defined_buffer (C10_isUtf16 _ _ _) h0)
    | range t => exact runs_ok (C67_isUtf16_PR v _ t) (defined_buffer (C10_isUtf16 _ _ _) h0)
    | pred q => exact runs_ok (C67_isUtf16_P2 v _ q) (defined_buffer (C10_isUtf16 _ _ _) h0)
    | both t q => exact runs_ok (C67_isUtf16_P3 v _ t q) (defined_buffer (C10_isUtf16 _ _ _) h0)

theorem isUcs2_defined (v : Version) {a : Arg} {as : List Arg} (ha : Text16 a) (h : Options as) :
    ∃ r, Runs v (name% "isUcs2") (a :: as) (.ok r) := by
  cases ha with
  | string s =>
    cases h with
    | none => exact runs_ok (C67_isUcs2_S1 v s) (defined_string (C10_isUcs2 _ kUcs2 Pred.none) s)
    | range t => exact runs_ok (C67_isUcs2_SR v s t) (defined_string (C10_isUcs2 _ _ _) s)
    | pred q => exact runs_ok (C67_isUcs2_S2 v s q) (defined_string (C10_isUcs2 _ kUcs2 q) s)
    | both t q => exact runs_ok (C67_isUcs2_S3 v s t q) (defined_string (C10_isUcs2 _ _ _) s)
  | null =>
    cases h with
    | none => exact runs_ok (C67_isUcs2_P1 v _) (isUcs2_null_defined _ _ _)
    | range t => exact runs_ok (C67_isUcs2_PR v _ t) (isUcs2_null_defined _ _ _)
    | pred q => exact runs_ok (C67_isUcs2_P2 v _ q) (isUcs2_null_defined _ _ _)
    | both t q => exact runs_ok (C67_isUcs2_P3 v _ t q) (isUcs2_null_defined _ _ _)
  | buffer h0 =>
    cases h with
    | none => exact runs_ok (C67_isUcs2_P1 v _) (defined_buffer (C10_isUcs2 _ _ _) h0)
    | range t => exact runs_ok (C67_isUcs2_PR v _ t) (defined_buffer (C10_isUcs2 _ _ _) h0)
    | pred q => exact runs_ok (C67_isUcs2_P2 v _ q) (defined_buffer (C10_isUcs2 _ _ _) h0)
    | both t q => exact runs_ok (C67_isUcs2_P3 v _ t q) (defined_buffer (C10_isUcs2 _ _ _) h0)

theorem isUcs4_defined (v : Version) {a : Arg} {as : List Arg} (ha : Text32 a) (h : Options as) :
    ∃ r, Runs v (name% "isUcs4") (a :: as) (.ok r) := by
  cases ha with
  | string s =>
    cases h with
    | none => exact runs_ok (C67_isUcs4_S1 v s) (defined_string (C10_isUcs4 _ kUcs4 Pred.none) s)
    | range t => exact runs_ok (C67_isUcs4_SR v s t) (defined_string (C10_isUcs4 _ _ _) s)
    | pred q => exact runs_ok (C67_isUcs4_S2 v s q) (defined_string (C10_isUcs4 _ kUcs4 q) s)
    | both t q => exact runs_ok (C67_isUcs4_S3 v s t q) (defined_string (C10_isUcs4 _ _ _) s)
  | null =>
    cases h with
    | none => exact runs_ok (C67_isUcs4_P1 v _) (isUcs4_null_defined _ _ _)
    | range t => exact runs_ok (C67_isUcs4_PR v _ t) (isUcs4_null_defined _ _ _)
    | pred q => exact runs_ok (C67_isUcs4_P2 v _ q) (isUcs4_null_defined _ _ _)
    | both t q => exact runs_ok (C67_isUcs4_P3 v _ t q) (isUcs4_null_defined _ _ _)
  | buffer h0 =>
    cases h with
    | none => exact runs_ok (C67_isUcs4_P1 v _) (defined_buffer (C10_isUcs4 _ _ _) h0)
    | range t => exact runs_ok (C67_isUcs4_PR v _ t) (defined_buffer (C10_isUcs4 _ _ _) h0)
    | pred q => exact runs_ok (C67_isUcs4_P2 v _ q) (defined_buffer (C10_isUcs4 _ _ _) h0)
    | both t q => exact runs_ok (C67_isUcs4_P3 v _ t q) (defined_buffer (C10_isUcs4 _ _ _) h0)

theorem unicodeLength8_defined (v : Version) {a : Arg} (ha : Text8 a) :
    ∃ r, Runs v (name% "unicodeLength") [a] (.ok r) := by
  cases ha with
  | string s => exact runs_ok (C67_unicodeLength_S8 v s) (defined_string C10_unicodeLength.1 s)
  | null => exact runs_ok (C67_unicodeLength_P8 v _) ⟨_, C13_unicodeLength_partial.1 0⟩
  | buffer h0 => exact runs_ok (C67_unicodeLength_P8 v _) (defined_buffer C10_unicodeLength.1 h0)

theorem unicodeLength16_defined (v : Version) {a : Arg} (ha : Text16 a) (hn : a ≠ .ptr16 none) :
    ∃ r, Runs v (name% "unicodeLength") [a] (.ok r) := by
  cases ha with
  | string s => exact runs_ok (C67_unicodeLength_S16 v s) (defined_string C10_unicodeLength.2.1 s)
  | null => exact absurd rfl hn
  | buffer h0 => exact runs_ok (C67_unicodeLength_P16 v _) (defined_buffer C10_unicodeLength.2.1 h0)

theorem unicodeLength32_defined (v : Version) {a : Arg} (ha : Text32 a) (hn : a ≠ .ptr32 none) :
    ∃ r, Runs v (name% "unicodeLength") [a] (.ok r) := by
  cases ha with
  | string s => exact runs_ok (C67_unicodeLength_S32 v s) (defined_string C10_unicodeLength.2.2 s)
  | null => exact absurd rfl hn
  | buffer h0 => exact runs_ok (C67_unicodeLength_P32 v _) (defined_buffer C10_unicodeLength.2.2 h0)

theorem toUtf8_16_defined (v : Version) {a : Arg} (ha : Text16 a) : ∃ r, Runs v (name% "toUtf8") [a] (.ok r) := by
  cases ha with
  | string s => exact runs_ok (C67_toUtf8_S16 v s) (defined_string C10_from_utf16.2 s)
  | null => exact runs_ok (C67_toUtf8_P16 v _) ⟨[], rfl⟩
  | buffer h0 => exact runs_ok (C67_toUtf8_P16 v _) (defined_buffer C10_from_utf16.2 h0)

theorem toUtf8_32_defined (v : Version) {a : Arg} (ha : Text32 a) : ∃ r, Runs v (name% "toUtf8") [a] (.ok r) := by
  cases ha with
  | string s => exact runs_ok (C67_toUtf8_S32 v s) (defined_string C10_from_ucs4.1 s)
  | null => exact runs_ok (C67_toUtf8_P32 v _) ⟨[], rfl⟩
  | buffer h0 => exact runs_ok (C67_toUtf8_P32 v _) (defined_buffer C10_from_ucs4.1 h0)

theorem toUcs2_8_defined (v : Version) {a : Arg} (ha : Text8 a) : ∃ r, Runs v (name% "toUcs2") [a] (.ok r) := by
  cases ha with
  | string s => exact runs_ok (C67_toUcs2_S8 v s) (defined_string C10_from_utf8.2.2 s)
  | null => exact runs_ok (C67_toUcs2_P8 v _) ⟨[], rfl⟩
  | buffer h0 => exact runs_ok (C67_toUcs2_P8 v _) (defined_buffer C10_from_utf8.2.2 h0)

theorem toUcs2_32_defined (v : Version) {a : Arg} (ha : Text32 a) : ∃ r, Runs v (name% "toUcs2") [a] (.ok r) := by
  cases ha with
  | string s => exact runs_ok (C67_toUcs2_S32 v s) (defined_string C10_from_ucs4.2.2 s)
  | null => exact runs_ok (C67_toUcs2_P32 v _) ⟨[], rfl⟩
  | buffer h0 => exact runs_ok (C67_toUcs2_P32 v _) (defined_buffer C10_from_ucs4.2.2 h0)

theorem toUtf16_8_defined (v : Version) {a : Arg} (ha : Text8 a) : ∃ r, Runs v (name% "toUtf16") [a] (.ok r) := by
  cases ha with
  | string s => exact runs_ok (C67_toUtf16_S8 v s) (defined_string C10_from_utf8.2.1 s)
  | null => exact runs_ok (C67_toUtf16_P8 v _) ⟨[], rfl⟩
  | buffer h0 => exact runs_ok (C67_toUtf16_P8 v _) (defined_buffer C10_from_utf8.2.1 h0)

theorem toUtf16_32_defined (v : Version) {a : Arg} (ha : Text32 a) : ∃ r, Runs v (name% "toUtf16") [a] (.ok r) := by
  cases ha with
  | string s => exact runs_ok (C67_toUtf16_S32 v s) (defined_string C10_from_ucs4.2.1 s)
  | null => exact runs_ok (C67_toUtf16_P32 v _) ⟨[], rfl⟩
  | buffer h0 => exact runs_ok (C67_toUtf16_P32 v _) (defined_buffer C10_from_ucs4.2.1 h0)

theorem toUcs4_8_defined (v : Version) {a : Arg} (ha : Text8 a) : ∃ r, Runs v (name% "toUcs4") [a] (.ok r) := by
  cases ha with
  | string s => exact runs_ok (C67_toUcs4_S8 v s) (defined_string C10_from_utf8.1 s)
  | null => exact runs_ok (C67_toUcs4_P8 v _) ⟨[], rfl⟩
  | buffer h0 => exact runs_ok (C67_toUcs4_P8 v _) (defined_buffer C10_from_utf8.1 h0)

theorem toUcs4_16_defined (v : Version) {a : Arg} (ha : Text16 a) : ∃ r, Runs v (name% "toUcs4") [a] (.ok r) := by
  cases ha with
  | string s => exact runs_ok (C67_toUcs4_S16 v s) (defined_string C10_from_utf16.1 s)
  | null => exact runs_ok (C67_toUcs4_P16 v _) ⟨[], rfl⟩
  | buffer h0 => exact runs_ok (C67_toUcs4_P16 v _) (defined_buffer C10_from_utf16.1 h0)

theorem page_defined {l : List Byte} (h : 0 ∈ l) (t : Int) : ∃ r, toUtf8FromPage (some l) t = .ok r := by
  obtain ⟨s, post, hs, rfl⟩ := split_at_nul h
  by_cases h0 : t = kSrcUnicode
  · exact ⟨_, h0 ▸ C35_unicode hs post⟩
  by_cases h1 : t = kSrcCP1252
  · obtain ⟨r, hr, _⟩ := C35_cp1252 hs post
    exact ⟨r, h1 ▸ hr⟩
  by_cases h2 : t = kSrcCP1250
  · obtain ⟨r, hr, _⟩ := C35_cp1250 hs post
    exact ⟨r, h2 ▸ hr⟩
  · exact ⟨_, C35_other h0 h1 h2 post⟩

theorem turkic_defined {p : Ptr Byte} (h : Text8 (.ptr8 p)) : ∃ lang, isTurkicLang p = isTurkicLang (langPtr lang) := by
  cases h with
  | null => exact ⟨none, rfl⟩
  | buffer h =>
    obtain ⟨s, post, hs, rfl⟩ := split_at_nul h
    exact ⟨some s, (isTurkicLang_text hs post).trans (isTurkicLang_text hs []).symm⟩

theorem toLower32_of_turkic (v : Version) (s : List U32) {p q : Ptr Byte} (h : isTurkicLang p = isTurkicLang q) :
    toLower32S v s p = toLower32S v s q := by
  unfold toLower32S; rw [h]

theorem toLower8_defined (v : Version) (s : List Byte) {p : Ptr Byte} (h : Text8 (.ptr8 p)) :
    ∃ r, toLower8S v s p = .ok r := by
  obtain ⟨lang, h⟩ := turkic_defined h
  obtain ⟨vs, h4, he⟩ := chars8 s
  refine ⟨_, Eq.trans ?_ (toLower8S_chars v lang h4 he)⟩
  unfold toLower8S
  simp only [toLower32_of_turkic v _ h]

theorem toLower16_defined (v : Version) (s : List U16) {p : Ptr Byte} (h : Text8 (.ptr8 p)) :
    ∃ r, toLower16S v s p = .ok r := by
  obtain ⟨lang, h⟩ := turkic_defined h
  obtain ⟨vs, h4, he⟩ := chars16 s
  refine ⟨_, Eq.trans ?_ (toLower16S_chars v lang h4 he)⟩
  unfold toLower16S
  simp only [toLower32_of_turkic v _ h]

theorem toLower32_defined (v : Version) (s : List U32) {p : Ptr Byte} (h : Text8 (.ptr8 p)) :
    ∃ r, toLower32S v s p = .ok r := by
  obtain ⟨lang, h⟩ := turkic_defined h
  exact ⟨_, (toLower32_of_turkic v s h).trans (toLower32S_eq v s lang)⟩

/-- Every allowed call returns a value. It does not depend on whether `char` is signed. -/
theorem C67_defined (v : Version) {name : Nat} {args : List Arg} (h : Allowed name args) :
    ∃ r, Runs v name args (.ok r) := by
  cases h with
  | isUtf8 ha h => exact isUtf8_defined v ha h
  | isUtf16 ha h => exact isUtf16_defined v ha h
  | isUcs2 ha h => exact isUcs2_defined v ha h
  | isUcs4 ha h => exact isUcs4_defined v ha h
  | toUtf8_16 ha => exact toUtf8_16_defined v ha
  | toUtf8_32 ha => exact toUtf8_32_defined v ha
  | toUcs2_8 ha => exact toUcs2_8_defined v ha
  | toUcs2_32 ha => exact toUcs2_32_defined v ha
  | toUtf16_8 ha => exact toUtf16_8_defined v ha
  | toUtf16_32 ha => exact toUtf16_32_defined v ha
  | toUcs4_8 ha => exact toUcs4_8_defined v ha
  | toUcs4_16 ha => exact toUcs4_16_defined v ha
  | page t ha =>
    cases ha with
    | null => exact runs_ok (C67_toUtf8_page v none t) ⟨[], rfl⟩
    | buffer h0 => exact runs_ok (C67_toUtf8_page v _ t) (page_defined h0 t)
  | unicodeLength8 ha => exact unicodeLength8_defined v ha
  | unicodeLength16 ha hn => exact unicodeLength16_defined v ha hn
  | unicodeLength32 ha hn => exact unicodeLength32_defined v ha hn
  | toLower8 s => exact runs_ok (C67_toLower_S8 v s) (toLower8_defined v s .null)
  | toLower16 s => exact runs_ok (C67_toLower_S16 v s) (toLower16_defined v s .null)
  | toLower32 s => exact runs_ok (C67_toLower_S32 v s) (toLower32_defined v s .null)
  | toLower8_lang s h => exact runs_ok (C67_toLower_S8_lang v s _) (toLower8_defined v s h)
  | toLower16_lang s h => exact runs_ok (C67_toLower_S16_lang v s _) (toLower16_defined v s h)
  | toLower32_lang s h => exact runs_ok (C67_toLower_S32_lang v s _) (toLower32_defined v s h)
  | validIf t => exact ⟨_, C67_validIf v t⟩
  | validIfNot t => exact ⟨_, C67_validIfNot v t⟩
  | checkIf t => exact ⟨_, C67_checkIf v t⟩
  | checkIfNot t => exact ⟨_, C67_checkIfNot v t⟩
  | version => exact ⟨_, C67_version v⟩

/-! ## There is only one outcome -/

theorem charVal_injective (sc : Bool) {a b : Byte} (h : charVal sc a = charVal sc b) : a = b := by
  rw [← ofInt_charVal sc a, h, ofInt_charVal]

theorem toNat_injective {w : Nat} {a b : BitVec w} (h : (a.toNat : Int) = b.toNat) : a = b :=
  BitVec.eq_of_toNat_eq (Int.ofNat.inj h)

theorem map_injective {α β : Type} {f : α → β} (hf : ∀ {a b}, f a = f b → a = b) :
    ∀ {l m : List α}, l.map f = m.map f → l = m
  | [], [], _ => rfl
  | [], _ :: _, h => nomatch h
  | _ :: _, [], h => nomatch h
  | a :: l, b :: m, h => by
    injection h with h1 h2
    rw [hf h1, map_injective hf h2]

theorem option_injective {α β : Type} {f : α → β} (hf : ∀ {a b}, f a = f b → a = b) :
    ∀ {l m : Option α}, l.map f = m.map f → l = m
  | none, none, _ => rfl
  | none, some _, h => nomatch h
  | some _, none, h => nomatch h
  | some a, some b, h => by
    injection h with h1
    rw [hf h1]

theorem bit_injective {a b : Bool} (h : bit a = bit b) : a = b := by
  cases a <;> cases b <;> first | rfl | exact absurd h (by decide)

theorem units8_injective (sc : Bool) {a b : List Byte} (h : units8 sc a = units8 sc b) : a = b :=
  map_injective (charVal_injective sc) h

theorem units16_injective {a b : List U16} (h : units16 a = units16 b) : a = b := map_injective toNat_injective h

theorem units32_injective {a b : List U32} (h : units32 a = units32 b) : a = b := map_injective toNat_injective h

theorem ptr_injective {w : Nat} {f : List (BitVec w) → List Int} (hf : ∀ {a b}, f a = f b → a = b)
    {p q : Ptr (BitVec w)}
    (h : p.map (fun l => (f l, ((0 : Nat) : Int))) = q.map (fun l => (f l, ((0 : Nat) : Int)))) : p = q :=
  option_injective (fun h => hf (Prod.mk.inj h).1) h

theorem pred_injective {p q : Pred} (h1 : (p.mask.toNat : Int) = q.mask.toNat)
    (h2 : (p.value.toNat : Int) = q.value.toNat) : p = q := by
  cases p; cases q
  exact congr (congrArg Pred.mk (toNat_injective h1)) (toNat_injective h2)

theorem val_injective (sc : Bool) {a b : Arg} (h : a.val sc = b.val sc) : a = b := by
  cases a <;> cases b <;> first | (exfalso; simp [Arg.val] at h; done) | skip
  all_goals
    injection h with h1 h2
    first
    | rw [bit_injective h2]
    | rw [toNat_injective h2]
    | rw [charVal_injective sc h2]
    | rw [units8_injective sc h2]
    | rw [units16_injective h2]
    | rw [units32_injective h2]
    | rw [ptr_injective (units8_injective sc) h2]
    | rw [ptr_injective units16_injective h2]
    | rw [ptr_injective units32_injective h2]
    | rw [map_injective (units8_injective sc) h2]
    | rw [map_injective units16_injective h2]
    | rw [map_injective units32_injective h2]
    | rw [h2]
    | skip
  simp only [List.cons.injEq, Prod.mk.injEq, true_and, and_true] at h2
  rw [pred_injective h2.1 h2.2]

theorem yields_unique {sc : Bool} {o : Cpp.Out} {x y : Res Arg} (hx : Spec.Yields sc o x) (hy : Spec.Yields sc o y) :
    x = y := by
  cases x with
  | ok a =>
    obtain ⟨_, hx, _⟩ := hx
    subst hx
    cases y with
    | ok b =>
      obtain ⟨_, hy, _⟩ := hy
      injection hy with h
      rw [val_injective sc h]
    | ub => nomatch hy
  | ub =>
    have hx : o = .ub := hx
    subst hx
    cases y with
    | ok b =>
      obtain ⟨_, hy, _⟩ := hy
      nomatch hy
    | ub => rfl

/-- The outcome of a call is determined. -/
theorem C67_unique {v : Version} {name : Nat} {args : List Arg} {x y : Res Arg} (hx : Runs v name args x)
    (hy : Runs v name args y) : x = y :=
  yields_unique (hx false false _ (Nat.le_refl _)) (hy false false _ (Nat.le_refl _))

/-- A buffer with a NUL and something after it, a range and a predicate; a code page; a null pointer. -/
example : Allowed (name% "isUtf8") [.ptr8 (some [0xE2, 0x82, 0, 0xFF]), .range 3, .pred (Pred.validIf 1)] ∧
    Allowed (name% "toUtf8") [.ptr8 (some [0x80, 0]), .page kSrcCP1252] ∧
    Allowed (name% "toUcs4") [.ptr16 none] :=
  ⟨.isUtf8 (.buffer (by decide)) (.both _ _), .page _ (.buffer (by decide)), .toUcs4_16 .null⟩

end Ansak.Props
