import Verif.Props.TextPredicate
import Verif.Props.Exact
import Verif.Props.Truncate
import Verif.Props.Defaults
import Verif.Props.Order
import Verif.Props.Find
import Verif.Props.Ascii
import Verif.Props.Size
import Verif.Props.LowerAcross
import Verif.Props.Distinct
import Verif.Props.Caseless
import Verif.Props.CodePageMore

/-!
# More properties of the functions as they are written

C36, C40, C41, C43 to C45, C48, C51 to C56, C59 and C60 for calls of the text of the library.
-/

namespace Ansak.Props

open Spec (Arg Runs RunsMember Returns NulFree Utf8Text Encodable Scalar Bmp Utf8Incomplete Utf8Reads Surrogate
  LowSurrogate utf8Of ucs4Of utf16Of ucs2Of textOf Utf16Incomplete Lang Turkic Before asciiLower cpChar
  SameUtf8 SameUtf16)
open Unicode (charClass)

/-! ## C36: concatenation -/

theorem C36_text_from_utf8 (v : Version) {a b : List Byte} {vs ws : List Nat} {t : List Byte} (ha : Utf8Text a vs)
    (hb : Utf8Reads b ws t) :
    (∃ x y, Returns v (name% "toUcs4") [.str8 a] (.str32 x) ∧ Returns v (name% "toUcs4") [.str8 b] (.str32 y) ∧
      Returns v (name% "toUcs4") [.str8 (a ++ b)] (.str32 (x ++ y))) ∧
    ((∀ c ∈ vs, c ≤ 0x10FFFF) → (∀ c ∈ ws, c ≤ 0x10FFFF) →
      ∃ x y, Returns v (name% "toUtf16") [.str8 a] (.str16 x) ∧ Returns v (name% "toUtf16") [.str8 b] (.str16 y) ∧
        Returns v (name% "toUtf16") [.str8 (a ++ b)] (.str16 (x ++ y))) ∧
    ((∀ c ∈ vs, c ≤ 0xFFFF) → (∀ c ∈ ws, c ≤ 0xFFFF) →
      ∃ x y, Returns v (name% "toUcs2") [.str8 a] (.str16 x) ∧ Returns v (name% "toUcs2") [.str8 b] (.str16 y) ∧
        Returns v (name% "toUcs2") [.str8 (a ++ b)] (.str16 (x ++ y))) := by
  simp only [text_iff]
  exact ⟨C36_utf8_to_ucs4 ha hb, fun h h' => C36_utf8_to_utf16 ha h hb h', fun h h' => C36_utf8_to_ucs2 ha h hb h'⟩

/-- `t` is nothing or an unpaired high surrogate at the end. -/
theorem C36_text_from_utf16 (v : Version) {vs ws : List Nat} (hv : ∀ c ∈ vs, Scalar c) (hw : ∀ c ∈ ws, Scalar c)
    {t : List U16} (ht : t = [] ∨ Utf16Incomplete t) :
    (∃ x y, Returns v (name% "toUcs4") [.str16 (utf16Of vs)] (.str32 x) ∧
      Returns v (name% "toUcs4") [.str16 (utf16Of ws ++ t)] (.str32 y) ∧
      Returns v (name% "toUcs4") [.str16 (utf16Of vs ++ (utf16Of ws ++ t))] (.str32 (x ++ y))) ∧
    (∃ x y, Returns v (name% "toUtf8") [.str16 (utf16Of vs)] (.str8 x) ∧
      Returns v (name% "toUtf8") [.str16 (utf16Of ws ++ t)] (.str8 y) ∧
      Returns v (name% "toUtf8") [.str16 (utf16Of vs ++ (utf16Of ws ++ t))] (.str8 (x ++ y))) := by
  simp only [text_iff]
  exact C36_utf16_to_ucs4_and_utf8 hv hw ht

theorem C36_text_from_ucs4 (v : Version) {a b : List U32} (na : NulFree a) (nb : NulFree b) :
    ((∀ c ∈ a ++ b, c.toNat ≤ 0x7FFFFFFF ∧ ¬ Surrogate c.toNat) →
      ∃ x y, Returns v (name% "toUtf8") [.str32 a] (.str8 x) ∧ Returns v (name% "toUtf8") [.str32 b] (.str8 y) ∧
        Returns v (name% "toUtf8") [.str32 (a ++ b)] (.str8 (x ++ y))) ∧
    ((∀ c ∈ a ++ b, c.toNat ≤ 0x10FFFF ∧ ¬ Surrogate c.toNat) →
      ∃ x y, Returns v (name% "toUtf16") [.str32 a] (.str16 x) ∧ Returns v (name% "toUtf16") [.str32 b] (.str16 y) ∧
        Returns v (name% "toUtf16") [.str32 (a ++ b)] (.str16 (x ++ y))) ∧
    ((∀ c ∈ a ++ b, c.toNat ≤ 0xFFFF ∧ ¬ Surrogate c.toNat) →
      ∃ x y, Returns v (name% "toUcs2") [.str32 a] (.str16 x) ∧ Returns v (name% "toUcs2") [.str32 b] (.str16 y) ∧
        Returns v (name% "toUcs2") [.str32 (a ++ b)] (.str16 (x ++ y))) := by
  simp only [text_iff]
  exact C36_from_ucs4 na nb

/-- For an accepted, complete `a` the answer for `a + b` is the answer for `b`. -/
theorem C36_text_valid (v : Version) (r : Spec.Range) (pred : Pred) (answer : Bool) :
    (∀ (a b : List Byte) vs, Utf8Text a vs → NulFree b →
      Returns v (name% "isUtf8") [.str8 a, .range r.code, .pred pred] (.bool true) →
      (Returns v (name% "isUtf8") [.str8 (a ++ b), .range r.code, .pred pred] (.bool answer) ↔
        Returns v (name% "isUtf8") [.str8 b, .range r.code, .pred pred] (.bool answer))) ∧
    (∀ (vs : List Nat) (b : List U16), (∀ c ∈ vs, Scalar c) → NulFree b →
      Returns v (name% "isUtf16") [.str16 (utf16Of vs), .range r.code, .pred pred] (.bool true) →
      (Returns v (name% "isUtf16") [.str16 (utf16Of vs ++ b), .range r.code, .pred pred] (.bool answer) ↔
        Returns v (name% "isUtf16") [.str16 b, .range r.code, .pred pred] (.bool answer))) ∧
    (∀ a b : List U16, NulFree a → NulFree b →
      Returns v (name% "isUcs2") [.str16 a, .range r.code, .pred pred] (.bool true) →
      (Returns v (name% "isUcs2") [.str16 (a ++ b), .range r.code, .pred pred] (.bool answer) ↔
        Returns v (name% "isUcs2") [.str16 b, .range r.code, .pred pred] (.bool answer))) ∧
    (∀ a b : List U32, NulFree a → NulFree b →
      Returns v (name% "isUcs4") [.str32 a, .range r.code, .pred pred] (.bool true) →
      (Returns v (name% "isUcs4") [.str32 (a ++ b), .range r.code, .pred pred] (.bool answer) ↔
        Returns v (name% "isUcs4") [.str32 b, .range r.code, .pred pred] (.bool answer))) := by
  simp only [text_iff]
  refine ⟨fun a b vs ha nb h => ?_, fun vs b hv nb h => ?_, fun a b na nb h => ?_, fun a b na nb h => ?_⟩
  · rw [C36_isUtf8 _ r pred ha h nb]
  · rw [C36_isUtf16 _ r pred hv h nb]
  · rw [(C36_isUcs _ r pred).1 a b na nb h]
  · rw [(C36_isUcs _ r pred).2 a b na nb h]

example (v : Version) : Returns v (name% "isUcs4") [.str32 [0x41, 0xD800], .range kUcs4, .pred Pred.none] (.bool false) :=
  ((C36_text_valid v .ucs4 Pred.none false).2.2.2 [0x41] [0xD800] (by decide) (by decide)
    (by simp only [text_iff]; cases v <;> decide +kernel)).2 (by simp only [text_iff]; cases v <;> decide +kernel)

/-! ## C40: single characters -/

theorem C40_text (v : Version) {c : Nat} (h : Encodable c) :
    Returns v (name% "toUtf8") [.str32 [BitVec.ofNat 32 c]] (.str8 (Spec.utf8 c)) ∧
    Returns v (name% "toUcs4") [.str8 (Spec.utf8 c)] (.str32 [BitVec.ofNat 32 c]) ∧
    (Spec.utf8 c).length = (if c ≤ 0x7F then 1 else if c ≤ 0x7FF then 2 else if c ≤ 0xFFFF then 3
      else if c ≤ 0x1FFFFF then 4 else if c ≤ 0x3FFFFFF then 5 else 6) := by
  simp only [text_iff]
  refine ⟨C40_encode h, C40_decode h, ?_⟩
  have := C40_length h
  rw [C40_encode h] at this
  exact Res.ok.inj this

theorem C40_text_injective (v : Version) {c d : Nat} (hc : Encodable c) (hd : Encodable d) {s : List Byte}
    (h : Returns v (name% "toUtf8") [.str32 [BitVec.ofNat 32 c]] (.str8 s))
    (h' : Returns v (name% "toUtf8") [.str32 [BitVec.ofNat 32 d]] (.str8 s)) : c = d := by
  simp only [text_iff] at h h'
  exact C40_injective hc hd (h.trans h'.symm)

theorem C40_text_standard (v : Version) (c : Char) (h : c.val ≠ 0) :
    Returns v (name% "toUtf8") [.str32 [BitVec.ofNat 32 c.val.toNat]]
      (.str8 ((String.utf8EncodeChar c).map fun b => b.toBitVec)) := by
  simp only [text_iff]
  exact C40_standard c h

example (v : Version) : Returns v (name% "toUtf8") [.str32 [0x1F600]] (.str8 [0xF0, 0x9F, 0x98, 0x80]) :=
  (C40_text v (c := 0x1F600) (by unfold Encodable; decide)).1

/-! ## C41: all or nothing -/

theorem C41_text_from_ucs4 (v : Version) (s : List U32) :
    (((∀ c ∈ textOf s, c.toNat ≤ 0x7FFFFFFF ∧ ¬ Surrogate c.toNat) →
        Returns v (name% "toUtf8") [.str32 s] (.str8 (utf8Of (vals (textOf s))))) ∧
      ((∃ c ∈ textOf s, ¬ (c.toNat ≤ 0x7FFFFFFF ∧ ¬ Surrogate c.toNat)) →
        Returns v (name% "toUtf8") [.str32 s] (.str8 []))) ∧
    (((∀ c ∈ textOf s, c.toNat ≤ 0x10FFFF ∧ ¬ Surrogate c.toNat) →
        Returns v (name% "toUtf16") [.str32 s] (.str16 (utf16Of (vals (textOf s))))) ∧
      ((∃ c ∈ textOf s, ¬ (c.toNat ≤ 0x10FFFF ∧ ¬ Surrogate c.toNat)) →
        Returns v (name% "toUtf16") [.str32 s] (.str16 []))) ∧
    (((∀ c ∈ textOf s, c.toNat ≤ 0xFFFF ∧ ¬ Surrogate c.toNat) →
        Returns v (name% "toUcs2") [.str32 s] (.str16 (ucs2Of (vals (textOf s))))) ∧
      ((∃ c ∈ textOf s, ¬ (c.toNat ≤ 0xFFFF ∧ ¬ Surrogate c.toNat)) →
        Returns v (name% "toUcs2") [.str32 s] (.str16 []))) := by
  simp only [text_iff]
  exact ⟨C41_ucs4_to_utf8 s, C41_ucs4_to_utf16 s, C41_ucs4_to_ucs2 s⟩

theorem C41_text_from_utf8 (v : Version) (s : List Byte) :
    (∀ vs t, Utf8Reads (textOf s) vs t →
      Returns v (name% "toUcs4") [.str8 s] (.str32 (ucs4Of vs)) ∧
      Returns v (name% "toUtf16") [.str8 s] (.str16 (if ∀ c ∈ vs, c ≤ 0x10FFFF then utf16Of vs else [])) ∧
      Returns v (name% "toUcs2") [.str8 s] (.str16 (if ∀ c ∈ vs, c ≤ 0xFFFF then ucs2Of vs else []))) ∧
    ((¬ ∃ vs t, Utf8Reads (textOf s) vs t) →
      Returns v (name% "toUcs4") [.str8 s] (.str32 []) ∧ Returns v (name% "toUtf16") [.str8 s] (.str16 []) ∧
      Returns v (name% "toUcs2") [.str8 s] (.str16 [])) := by
  simp only [text_iff]
  exact ⟨fun vs t h => ⟨(C41_utf8_to_ucs4 s).1 vs t h, (C41_utf8_to_utf16 s).1 vs t h, (C41_utf8_to_ucs2 s).1 vs t h⟩,
    fun h => ⟨(C41_utf8_to_ucs4 s).2 h, (C41_utf8_to_utf16 s).2 h, (C41_utf8_to_ucs2 s).2 h⟩⟩

/-- From UTF-16. Missing from the full property: `toUtf8` takes a low surrogate by itself for a character. -/
theorem C41_text_from_utf16_partial (v : Version) (s : List U16) :
    ((∀ vs t, textOf s = utf16Of vs ++ t → (∀ c ∈ vs, Scalar c) → (t = [] ∨ Utf16Incomplete t) →
        Returns v (name% "toUcs4") [.str16 s] (.str32 (ucs4Of vs))) ∧
      ((¬ ∃ vs t, textOf s = utf16Of vs ++ t ∧ (∀ c ∈ vs, Scalar c) ∧ (t = [] ∨ Utf16Incomplete t)) →
        Returns v (name% "toUcs4") [.str16 s] (.str32 []))) ∧
    ((∀ vs t, textOf s = utf16Of vs ++ t → (∀ c ∈ vs, Scalar c ∨ LowSurrogate c) → (t = [] ∨ Utf16Incomplete t) →
        Returns v (name% "toUtf8") [.str16 s] (.str8 (utf8Of vs))) ∧
      ((¬ ∃ vs t, textOf s = utf16Of vs ++ t ∧ (∀ c ∈ vs, Scalar c ∨ LowSurrogate c) ∧ (t = [] ∨ Utf16Incomplete t)) →
        Returns v (name% "toUtf8") [.str16 s] (.str8 []))) := by
  simp only [text_iff]
  exact ⟨C41_utf16_to_ucs4 s, C41_utf16_to_utf8_partial s⟩

theorem C41_text_violated (v : Version) :
    Returns v (name% "toUtf8") [.str16 [0x41, 0xDC00]] (.str8 [0x41, 0xED, 0xB0, 0x80]) ∧
    Returns v (name% "toUcs4") [.str16 [0x41, 0xDC00]] (.str32 []) := by
  simp only [text_iff]
  exact C41_utf16_to_utf8_violated

example (v : Version) : Returns v (name% "toUtf16") [.str32 [0x41, 0x110000, 0x42]] (.str16 []) :=
  (C41_text_from_ucs4 v _).2.1.2 ⟨0x110000, by decide +kernel, by decide⟩

/-! ## C43: lower case stays valid -/

/-- For every range other than ASCII, every predicate and every language, the validator says the same of a text and of
its lower case. -/
theorem C43_text (v : Version) (lang : Lang) {r : Spec.Range} (hr : r ≠ .ascii) (pred : Pred) :
    (∀ s : List U32, ∃ t b, Returns v (name% "toLower") [.str32 s, .ptr8 (langPtr lang)] (.str32 t) ∧
      Returns v (name% "isUcs4") [.str32 s, .range r.code, .pred pred] (.bool b) ∧
      Returns v (name% "isUcs4") [.str32 t, .range r.code, .pred pred] (.bool b)) ∧
    (∀ (s : List Byte) us, Utf8Text s us → ∃ t b, Returns v (name% "toLower") [.str8 s, .ptr8 (langPtr lang)] (.str8 t) ∧
      Returns v (name% "isUtf8") [.str8 s, .range r.code, .pred pred] (.bool b) ∧
      Returns v (name% "isUtf8") [.str8 t, .range r.code, .pred pred] (.bool b)) ∧
    (∀ us : List Nat, (∀ c ∈ us, Scalar c) → ∃ t b,
      Returns v (name% "toLower") [.str16 (utf16Of us), .ptr8 (langPtr lang)] (.str16 t) ∧
      Returns v (name% "isUtf16") [.str16 (utf16Of us), .range r.code, .pred pred] (.bool b) ∧
      Returns v (name% "isUtf16") [.str16 t, .range r.code, .pred pred] (.bool b)) := by
  simp only [text_iff]
  refine ⟨fun s => ?_, fun s us hs => ?_, fun us hu => ?_⟩
  · obtain ⟨b, hb, _⟩ := isUcs4S_any (charClass v) r pred s
    obtain ⟨t, h1, h2⟩ := bind_eq_ok ((C43_ucs4 v lang hr pred s).trans hb)
    exact ⟨t, b, h1, hb, h2⟩
  · obtain ⟨vs, e, hsc⟩ := scan_exists (textOf_nulFree s)
    obtain ⟨b, hb, _⟩ := isUtf8S_any (charClass v) r pred hsc
    obtain ⟨t, h1, h2⟩ := bind_eq_ok ((C43_utf8 v lang hr pred hs).trans hb)
    exact ⟨t, b, h1, hb, h2⟩
  · obtain ⟨vs, e, hsc⟩ := scan16_exists false (textOf_nulFree (utf16Of us))
    obtain ⟨b, hb, _⟩ := isUtf16S_any (charClass v) r pred hsc
    obtain ⟨t, h1, h2⟩ := bind_eq_ok ((C43_utf16 v lang hr pred hu).trans hb)
    exact ⟨t, b, h1, hb, h2⟩

/-- ASCII text stays ASCII text, unless the language is Turkic. -/
theorem C43_text_ascii (v : Version) {lang : Lang} (hl : ¬ Turkic lang) (pred : Pred) :
    (∀ s : List U32, Returns v (name% "isUcs4") [.str32 s, .range Spec.Range.ascii.code, .pred pred] (.bool true) →
      ∃ t, Returns v (name% "toLower") [.str32 s, .ptr8 (langPtr lang)] (.str32 t) ∧
        Returns v (name% "isUcs4") [.str32 t, .range Spec.Range.ascii.code, .pred pred] (.bool true)) ∧
    (∀ s : List Byte, Returns v (name% "isUtf8") [.str8 s, .range Spec.Range.ascii.code, .pred pred] (.bool true) →
      ∃ t, Returns v (name% "toLower") [.str8 s, .ptr8 (langPtr lang)] (.str8 t) ∧
        Returns v (name% "isUtf8") [.str8 t, .range Spec.Range.ascii.code, .pred pred] (.bool true)) := by
  simp only [text_iff]
  exact ⟨fun s h => bind_eq_ok ((C43_ascii v hl pred).1 s h), fun s h => bind_eq_ok ((C43_ascii v hl pred).2 s h)⟩

example : Spec.Range.unicode ≠ .ascii ∧ ¬ Turkic none := ⟨by decide, by simp [Turkic]⟩

/-! ## C44, C45: cutting -/

theorem C44_text (v : Version) (r : Spec.Range) (pred : Pred) {p s : List Byte} (hp : p <+: s)
    (h : Returns v (name% "isUtf8") [.str8 s, .range r.code, .pred pred] (.bool true)) :
    Returns v (name% "isUtf8") [.str8 p, .range r.code, .pred pred] (.bool true) := by
  simp only [text_iff] at h ⊢
  exact C44_accepted _ r pred hp h

/-- The characters of the beginning are the first of the whole, and only the character that was cut is lost. -/
theorem C44_text_characters (v : Version) {a p s : List Byte} {us : List Nat} (ha : Utf8Text a us) (hap : a <+: p)
    (hps : p <+: s) {vs : List Nat} {t : List Byte} (hs : Utf8Reads (textOf s) vs t) :
    Returns v (name% "toUcs4") [.str8 s] (.str32 (ucs4Of vs)) ∧
    ∃ ws, us <+: ws ∧ ws <+: vs ∧ Returns v (name% "toUcs4") [.str8 p] (.str32 (ucs4Of ws)) := by
  simp only [text_iff]
  exact ⟨(C41_utf8_to_ucs4 s).1 vs t hs, C44_nothing_lost ha hap hps hs⟩

theorem C44_text_utf16 (v : Version) {p s : List Byte} (hp : p <+: s)
    (h : Returns v (name% "isUtf8") [.str8 s, .range Spec.Range.unicode.code] (.bool true)) :
    ∃ x y, Returns v (name% "toUtf16") [.str8 p] (.str16 x) ∧ Returns v (name% "toUtf16") [.str8 s] (.str16 y) ∧
      x <+: y := by
  simp only [text_iff] at h ⊢
  exact C44_to_utf16 _ hp h

theorem C45_text (v : Version) (r : Spec.Range) (pred : Pred) :
    (∀ p s : List U16, p <+: s → Returns v (name% "isUtf16") [.str16 s, .range r.code, .pred pred] (.bool true) →
      Returns v (name% "isUtf16") [.str16 p, .range r.code, .pred pred] (.bool true)) ∧
    (∀ p s : List U16, p <+: s → Returns v (name% "isUcs2") [.str16 s, .range r.code, .pred pred] (.bool true) →
      Returns v (name% "isUcs2") [.str16 p, .range r.code, .pred pred] (.bool true)) ∧
    (∀ p s : List U32, p <+: s → Returns v (name% "isUcs4") [.str32 s, .range r.code, .pred pred] (.bool true) →
      Returns v (name% "isUcs4") [.str32 p, .range r.code, .pred pred] (.bool true)) := by
  simp only [text_iff]
  exact ⟨fun _ _ hp h => C45_accepted _ r pred hp h, C45_ucs _ r pred⟩

theorem C45_text_characters (v : Version) {p s : List U16} {vs : List Nat} {t : List U16}
    (hs : textOf s = utf16Of vs ++ t) (hv : ∀ c ∈ vs, Scalar c) (ht : t = [] ∨ Utf16Incomplete t) (hp : p <+: s) :
    ∃ us, us <+: vs ∧ Returns v (name% "toUcs4") [.str16 p] (.str32 (ucs4Of us)) ∧
      Returns v (name% "toUcs4") [.str16 s] (.str32 (ucs4Of vs)) ∧
      Returns v (name% "toUtf8") [.str16 p] (.str8 (utf8Of us)) ∧
      Returns v (name% "toUtf8") [.str16 s] (.str8 (utf8Of vs)) := by
  simp only [text_iff]
  exact C45_characters hs hv ht hp

/-- The euro sign cut after two of its three bytes. -/
example (v : Version) : Returns v (name% "isUtf8") [.str8 [0x41, 0xE2, 0x82], .range kUtf8, .pred Pred.none] (.bool true) :=
  C44_text v .utf8 Pred.none (s := [0x41, 0xE2, 0x82, 0xAC]) ⟨[0xAC], rfl⟩ (by simp only [text_iff]; cases v <;> decide +kernel)

/-! ## C48: no range -/

theorem C48_text (v : Version) (pred : Pred) :
    (∀ s : List Byte, ∃ b, Returns v (name% "isUtf8") [.str8 s, .pred pred] (.bool b) ∧
      (b = true ↔ ∃ vs t, Utf8Reads (textOf s) vs t ∧ ∀ c ∈ vs, pred.call32 (charClass v) c = true)) ∧
    (∀ s : List U16, ∃ b, Returns v (name% "isUcs2") [.str16 s, .pred pred] (.bool b) ∧
      (b = true ↔ ∀ c ∈ textOf s, ¬ Surrogate c.toNat ∧ RunsMember v (name% "operator()") pred [.char16 c] (.bool true) pred)) ∧
    (∀ s : List U32, ∃ b, Returns v (name% "isUcs4") [.str32 s, .pred pred] (.bool b) ∧
      (b = true ↔ ∀ c ∈ textOf s, ¬ Surrogate c.toNat ∧
        RunsMember v (name% "operator()") pred [.char32 c] (.bool true) pred)) := by
  have h16 : ∀ c : U16, RunsMember v (name% "operator()") pred [.char16 c] (.bool true) pred ↔
      pred.call16 (charClass v) c.toNat = true := fun c =>
    ⟨fun h => (Arg.bool.inj (C67_member_unique h (C67_apply16 v pred c)).1).symm, fun h => h ▸ C67_apply16 v pred c⟩
  have h32 : ∀ c : U32, RunsMember v (name% "operator()") pred [.char32 c] (.bool true) pred ↔
      pred.call32 (charClass v) c.toNat = true := fun c =>
    ⟨fun h => (Arg.bool.inj (C67_member_unique h (C67_apply32 v pred c)).1).symm, fun h => h ▸ C67_apply32 v pred c⟩
  simp only [text_iff, h16, h32]
  exact ⟨C48_utf8 _ pred, C48_ucs2 _ pred, C48_ucs4 _ pred⟩

/-- The overloads without a predicate, and those for pointers. -/
theorem C48_text_agree (v : Version) (pred : Pred) (b : Bool) :
    (∀ s : List Byte,
      (Returns v (name% "isUtf8") [.str8 s] (.bool b) ↔ Returns v (name% "isUtf8") [.str8 s, .pred Pred.none] (.bool b)) ∧
      (Returns v (name% "isUtf8") [.ptr8 (cStr s)] (.bool b) ↔ Returns v (name% "isUtf8") [.str8 s] (.bool b)) ∧
      (Returns v (name% "isUtf8") [.ptr8 (cStr s), .pred pred] (.bool b) ↔
        Returns v (name% "isUtf8") [.str8 s, .pred pred] (.bool b))) ∧
    (∀ s : List U16,
      (Returns v (name% "isUtf16") [.str16 s] (.bool b) ↔ Returns v (name% "isUtf16") [.str16 s, .pred Pred.none] (.bool b)) ∧
      (Returns v (name% "isUtf16") [.ptr16 (cStr s)] (.bool b) ↔ Returns v (name% "isUtf16") [.str16 s] (.bool b)) ∧
      (Returns v (name% "isUtf16") [.ptr16 (cStr s), .pred pred] (.bool b) ↔
        Returns v (name% "isUtf16") [.str16 s, .pred pred] (.bool b))) ∧
    (∀ s : List U16,
      (Returns v (name% "isUcs2") [.str16 s] (.bool b) ↔ Returns v (name% "isUcs2") [.str16 s, .pred Pred.none] (.bool b)) ∧
      (Returns v (name% "isUcs2") [.ptr16 (cStr s)] (.bool b) ↔ Returns v (name% "isUcs2") [.str16 s] (.bool b)) ∧
      (Returns v (name% "isUcs2") [.ptr16 (cStr s), .pred pred] (.bool b) ↔
        Returns v (name% "isUcs2") [.str16 s, .pred pred] (.bool b))) ∧
    (∀ s : List U32,
      (Returns v (name% "isUcs4") [.str32 s] (.bool b) ↔ Returns v (name% "isUcs4") [.str32 s, .pred Pred.none] (.bool b)) ∧
      (Returns v (name% "isUcs4") [.ptr32 (cStr s)] (.bool b) ↔ Returns v (name% "isUcs4") [.str32 s] (.bool b)) ∧
      (Returns v (name% "isUcs4") [.ptr32 (cStr s), .pred pred] (.bool b) ↔
        Returns v (name% "isUcs4") [.str32 s, .pred pred] (.bool b))) := by
  obtain ⟨h1, h2, h3, h4, _⟩ := C48_no_predicate (charClass v)
  obtain ⟨p1, p2, p3, p4⟩ := C48_pointers (charClass v) pred
  simp only [text_iff]
  exact ⟨fun s => ⟨by rw [h1], by rw [(p1 s).2], by rw [(p1 s).1]⟩, fun s => ⟨by rw [h2], by rw [(p2 s).2], by rw [(p2 s).1]⟩,
    fun s => ⟨by rw [h3], by rw [(p3 s).2], by rw [(p3 s).1]⟩, fun s => ⟨by rw [h4], by rw [(p4 s).2], by rw [(p4 s).1]⟩⟩

/-! ## C51: order -/

theorem C51_text_from_ucs4 (v : Version) {s t : List U32} :
    ((∀ c ∈ s, Encodable c.toNat) → (∀ c ∈ t, Encodable c.toNat) →
      ∃ a b, Returns v (name% "toUtf8") [.str32 s] (.str8 a) ∧ Returns v (name% "toUtf8") [.str32 t] (.str8 b) ∧
        (Before a b ↔ Before s t)) ∧
    ((∀ c ∈ s, Bmp c.toNat) → (∀ c ∈ t, Bmp c.toNat) →
      ∃ a b, Returns v (name% "toUcs2") [.str32 s] (.str16 a) ∧ Returns v (name% "toUcs2") [.str32 t] (.str16 b) ∧
        (Before a b ↔ Before s t)) := by
  simp only [text_iff]
  exact ⟨C51_utf8, C51_ucs2⟩

theorem C51_text_from_utf8 (v : Version) {vs ws : List Nat} (hv : ∀ c ∈ vs, Encodable c) (hw : ∀ c ∈ ws, Encodable c) :
    ∃ a b, Returns v (name% "toUcs4") [.str8 (utf8Of vs)] (.str32 a) ∧
      Returns v (name% "toUcs4") [.str8 (utf8Of ws)] (.str32 b) ∧ (Before a b ↔ Before (utf8Of vs) (utf8Of ws)) := by
  simp only [text_iff]
  exact C51_from_utf8 hv hw

/-- UTF-16 keeps the order where there are not both characters from U+E000 to U+FFFF and later ones. -/
theorem C51_text_utf16_partial (v : Version) {s t : List U32} (hs : ∀ c ∈ s, Scalar c.toNat)
    (ht : ∀ c ∈ t, Scalar c.toNat)
    (h : (∀ c ∈ s ++ t, c.toNat ≤ 0xFFFF) ∨ (∀ c ∈ s ++ t, c.toNat < 0xE000 ∨ 0xFFFF < c.toNat)) :
    ∃ a b, Returns v (name% "toUtf16") [.str32 s] (.str16 a) ∧ Returns v (name% "toUtf16") [.str32 t] (.str16 b) ∧
      (Before a b ↔ Before s t) := by
  simp only [text_iff]
  exact C51_utf16_partial hs ht h

theorem C51_text_utf16_violated (v : Version) : ∃ s t : List U32, (∀ c ∈ s ++ t, Scalar c.toNat) ∧ Before s t ∧
    ∃ a b, Returns v (name% "toUtf16") [.str32 s] (.str16 a) ∧ Returns v (name% "toUtf16") [.str32 t] (.str16 b) ∧
      Before b a := by
  simp only [text_iff]
  exact C51_utf16_violated

/-! ## C52: searching -/

theorem C52_text_utf8 (v : Version) {s t : List U32} (hs : ∀ c ∈ s, Encodable c.toNat)
    (ht : ∀ c ∈ t, Encodable c.toNat) (hne : t ≠ []) :
    ∃ hay needle, Returns v (name% "toUtf8") [.str32 s] (.str8 hay) ∧ Returns v (name% "toUtf8") [.str32 t] (.str8 needle) ∧
      ∀ a, (∃ b, hay = a ++ needle ++ b) ↔ ∃ u x, s = u ++ t ++ x ∧ Returns v (name% "toUtf8") [.str32 u] (.str8 a) := by
  simp only [text_iff]
  exact C52_utf8_search hs ht hne

theorem C52_text_utf16 (v : Version) {s t : List U32} (hs : ∀ c ∈ s, Scalar c.toNat)
    (ht : ∀ c ∈ t, Scalar c.toNat) (hne : t ≠ []) :
    ∃ hay needle, Returns v (name% "toUtf16") [.str32 s] (.str16 hay) ∧
      Returns v (name% "toUtf16") [.str32 t] (.str16 needle) ∧
      ∀ a, (∃ b, hay = a ++ needle ++ b) ↔ ∃ u x, s = u ++ t ++ x ∧ Returns v (name% "toUtf16") [.str32 u] (.str16 a) := by
  simp only [text_iff]
  exact C52_utf16_search hs ht hne

theorem C52_text_pair_violated (v : Version) : ∃ hay needle : List Byte, ∃ m,
    Returns v (name% "toUcs4") [.str8 hay] (.str32 m) ∧ Returns v (name% "toUcs4") [.str8 needle] (.str32 m) ∧ m ≠ [] ∧
    ¬ ∃ a b, hay = a ++ needle ++ b := by
  simp only [text_iff]
  exact C52_pair_violated

/-! ## C53: ASCII -/

theorem C53_text (v : Version) :
    (∀ s : List Byte, Ascii s →
      Returns v (name% "toUtf16") [.str8 s] (.str16 (s.map (BitVec.setWidth 16))) ∧
      Returns v (name% "toUcs2") [.str8 s] (.str16 (s.map (BitVec.setWidth 16))) ∧
      Returns v (name% "toUcs4") [.str8 s] (.str32 (s.map (BitVec.setWidth 32)))) ∧
    (∀ s : List U16, Ascii s →
      Returns v (name% "toUtf8") [.str16 s] (.str8 (s.map (BitVec.setWidth 8))) ∧
      Returns v (name% "toUcs4") [.str16 s] (.str32 (s.map (BitVec.setWidth 32)))) ∧
    (∀ s : List U32, Ascii s →
      Returns v (name% "toUtf8") [.str32 s] (.str8 (s.map (BitVec.setWidth 8))) ∧
      Returns v (name% "toUtf16") [.str32 s] (.str16 (s.map (BitVec.setWidth 16))) ∧
      Returns v (name% "toUcs2") [.str32 s] (.str16 (s.map (BitVec.setWidth 16)))) := by
  simp only [text_iff]
  exact ⟨fun _ => C53_from_utf8, fun _ => C53_from_utf16, fun _ => C53_from_ucs4⟩

theorem C53_text_accepted (v : Version) (r : Spec.Range) :
    (∀ s : List Byte, Ascii s → Returns v (name% "isUtf8") [.str8 s, .range r.code] (.bool true)) ∧
    (∀ s : List U16, Ascii s → Returns v (name% "isUtf16") [.str16 s, .range r.code] (.bool true) ∧
      Returns v (name% "isUcs2") [.str16 s, .range r.code] (.bool true)) ∧
    (∀ s : List U32, Ascii s → Returns v (name% "isUcs4") [.str32 s, .range r.code] (.bool true)) ∧
    (∀ s : List Byte, Returns v (name% "isUtf8") [.str8 s, .range Spec.Range.ascii.code] (.bool true) → Ascii (textOf s)) := by
  have h8 : Ascii ([] : List Byte) := fun _ h => nomatch h
  have h16 : Ascii ([] : List U16) := fun _ h => nomatch h
  have h32 : Ascii ([] : List U32) := fun _ h => nomatch h
  simp only [text_iff]
  exact ⟨fun s hs => (C53_accepted _ r hs h16 h32).1,
    fun s hs => ⟨(C53_accepted _ r h8 hs h32).2.1, (C53_accepted _ r h8 hs h32).2.2.1⟩,
    fun s hs => (C53_accepted _ r h8 h16 hs).2.2.2, fun s hs => C53_only _ hs⟩

theorem C53_text_length (v : Version) {s : List Byte} (hs : Ascii s) (h8 : s.length < 4294967296) {t : List U16}
    (ht : Ascii t) (h16 : t.length < 4294967296) {u : List U32} (hu : Ascii u) (h32 : u.length < 4294967296) :
    (∃ n, Returns v (name% "unicodeLength") [.str8 s] (.uint n) ∧ n.toNat = s.length) ∧
    (∃ n, Returns v (name% "unicodeLength") [.str16 t] (.uint n) ∧ n.toNat = t.length) ∧
    (∃ n, Returns v (name% "unicodeLength") [.str32 u] (.uint n) ∧ n.toNat = u.length) := by
  simp only [text_iff]
  exact C53_length hs h8 ht h16 hu h32

example (v : Version) : Returns v (name% "toUtf16") [.str8 [0x41, 0x7E]] (.str16 [0x41, 0x7E]) :=
  ((C53_text v).1 [0x41, 0x7E] (by unfold Ascii; decide)).1

/-! ## C54: sizes -/

theorem C54_text (v : Version) :
    (∀ s : List Byte, ∃ a b c, Returns v (name% "toUtf16") [.str8 s] (.str16 a) ∧
      Returns v (name% "toUcs2") [.str8 s] (.str16 b) ∧ Returns v (name% "toUcs4") [.str8 s] (.str32 c) ∧
      a.length ≤ s.length ∧ b.length ≤ s.length ∧ c.length ≤ s.length) ∧
    (∀ s : List U16, ∃ a b, Returns v (name% "toUtf8") [.str16 s] (.str8 a) ∧
      Returns v (name% "toUcs4") [.str16 s] (.str32 b) ∧ a.length ≤ 3 * s.length ∧ b.length ≤ s.length) ∧
    (∀ s : List U32, ∃ a b c, Returns v (name% "toUtf8") [.str32 s] (.str8 a) ∧
      Returns v (name% "toUtf16") [.str32 s] (.str16 b) ∧ Returns v (name% "toUcs2") [.str32 s] (.str16 c) ∧
      a.length ≤ 6 * s.length ∧ b.length ≤ 2 * s.length ∧ c.length ≤ s.length) ∧
    (∀ s : List U32, (∀ c ∈ s, c.toNat ≤ 0x10FFFF) →
      ∃ a, Returns v (name% "toUtf8") [.str32 s] (.str8 a) ∧ a.length ≤ 4 * s.length) ∧
    (∀ s : List U32, (∀ c ∈ s, Scalar c.toNat) → ∃ a b, Returns v (name% "toUtf8") [.str32 s] (.str8 a) ∧
      Returns v (name% "toUtf16") [.str32 s] (.str16 b) ∧ s.length ≤ b.length ∧ b.length ≤ a.length ∧
      a.length ≤ 3 * b.length) := by
  simp only [text_iff]
  exact ⟨C54_from_utf8, C54_from_utf16, C54_from_ucs4, fun _ => C54_unicode, fun _ => C54_at_least⟩

/-! ## C55, C59: lower case in the three encodings -/

theorem C55_text (v : Version) (lang : Lang) {vs : List Nat} (hv : ∀ x ∈ vs, Scalar x) :
    ∃ a b c, Returns v (name% "toLower") [.str8 (utf8Of vs), .ptr8 (langPtr lang)] (.str8 a) ∧
      Returns v (name% "toLower") [.str16 (utf16Of vs), .ptr8 (langPtr lang)] (.str16 b) ∧
      Returns v (name% "toLower") [.str32 (ucs4Of vs), .ptr8 (langPtr lang)] (.str32 c) ∧
      Returns v (name% "toUtf16") [.str8 a] (.str16 b) ∧ Returns v (name% "toUtf8") [.str16 b] (.str8 a) ∧
      Returns v (name% "toUtf8") [.str32 c] (.str8 a) ∧ Returns v (name% "toUcs4") [.str8 a] (.str32 c) ∧
      a.length ≤ 2 * (utf8Of vs).length ∧ b.length = (utf16Of vs).length ∧ c.length = vs.length := by
  simp only [text_iff]
  have hE : ∀ x ∈ vs, Encodable x := fun x hx => scalar_encodable (hv x hx)
  have hm := map_scalar v (turkicLang lang) hv
  have hE' := fun x hx => scalar_encodable (hm x hx)
  have e8 := toLower8S_chars v lang (toUcs4From8S_utf8Of hE) hE
  have e16 := toLower16S_chars v lang (toUcs4From16S_utf16Of hv) hv
  refine ⟨_, _, _, e8, e16, by rw [toLower32S_eq, map_lowerChar_ucs4Of v _ hE], toUtf16From8S_utf8Of hm,
    toUtf8From16S_utf16Of hm, toUtf8From32S_ucs4Of hE', toUcs4From8S_utf8Of hE', ?_, ?_, ?_⟩
  · obtain ⟨t, ht, hl⟩ := C55_utf8_size v lang (text_utf8Of hE)
    rw [Res.ok.inj (e8.symm.trans ht)]
    exact hl
  · obtain ⟨t, ht, hl⟩ := C55_utf16_size v lang hv
    rw [Res.ok.inj (e16.symm.trans ht)]
    exact hl
  · unfold ucs4Of
    rw [List.length_map, List.length_map]

/-- UTF-8 can grow. -/
theorem C55_text_grows (v : Version) : ∃ s t : List Byte, (∃ vs, Utf8Text s vs) ∧
    Returns v (name% "toLower") [.str8 s, .ptr8 (langPtr none)] (.str8 t) ∧ s.length < t.length := by
  simp only [text_iff]
  exact C55_utf8_grows v

/-- Two texts are the same but for their case in one encoding iff they are in the others. -/
theorem C59_text (v : Version) (lang : Lang) {vs ws : List Nat} (hv : ∀ x ∈ vs, Scalar x) (hw : ∀ x ∈ ws, Scalar x) :
    ((∃ t, Returns v (name% "toLower") [.str8 (utf8Of vs), .ptr8 (langPtr lang)] (.str8 t) ∧
        Returns v (name% "toLower") [.str8 (utf8Of ws), .ptr8 (langPtr lang)] (.str8 t)) ↔
      ∃ t, Returns v (name% "toLower") [.str32 (ucs4Of vs), .ptr8 (langPtr lang)] (.str32 t) ∧
        Returns v (name% "toLower") [.str32 (ucs4Of ws), .ptr8 (langPtr lang)] (.str32 t)) ∧
    ((∃ t, Returns v (name% "toLower") [.str16 (utf16Of vs), .ptr8 (langPtr lang)] (.str16 t) ∧
        Returns v (name% "toLower") [.str16 (utf16Of ws), .ptr8 (langPtr lang)] (.str16 t)) ↔
      ∃ t, Returns v (name% "toLower") [.str32 (ucs4Of vs), .ptr8 (langPtr lang)] (.str32 t) ∧
        Returns v (name% "toLower") [.str32 (ucs4Of ws), .ptr8 (langPtr lang)] (.str32 t)) := by
  have both : ∀ {α : Type} {x y : Res α}, (∃ a, x = .ok a) → ((∃ t, x = .ok t ∧ y = .ok t) ↔ x = y) := by
    rintro α x y ⟨a, rfl⟩
    exact ⟨fun ⟨t, h, h'⟩ => h.trans h'.symm, fun h => ⟨a, rfl, h.symm⟩⟩
  have hE : ∀ x ∈ vs, Encodable x := fun x hx => scalar_encodable (hv x hx)
  simp only [text_iff]
  rw [both ⟨_, toLower8S_chars v lang (toUcs4From8S_utf8Of hE) hE⟩,
    both ⟨_, toLower16S_chars v lang (toUcs4From16S_utf16Of hv) hv⟩, both ⟨_, toLower32S_eq v _ lang⟩]
  exact C59_same_answer v lang hv hw

theorem C59_text_ascii (v : Version) {lang : Lang} (hl : ¬ Turkic lang) :
    (∀ s : List Byte, Ascii s →
      Returns v (name% "toLower") [.str8 s, .ptr8 (langPtr lang)] (.str8 (s.map asciiLower))) ∧
    (∀ s : List U16, Ascii s →
      Returns v (name% "toLower") [.str16 s, .ptr8 (langPtr lang)] (.str16 (s.map asciiLower))) ∧
    (∀ s : List U32, Ascii s →
      Returns v (name% "toLower") [.str32 s, .ptr8 (langPtr lang)] (.str32 (s.map asciiLower))) := by
  simp only [text_iff]
  exact C59_ascii v hl

example (v : Version) : Returns v (name% "toLower") [.str8 [0x41, 0x7A], .ptr8 (langPtr none)] (.str8 [0x61, 0x7A]) :=
  (C59_text_ascii v (lang := none) (by simp [Turkic])).1 [0x41, 0x7A] (by unfold Ascii; decide)

/-! ## C56: different texts stay different -/

theorem C56_text_from_ucs4 (v : Version) {s t : List U32} :
    (∀ u : List Byte, u ≠ [] → Returns v (name% "toUtf8") [.str32 s] (.str8 u) →
      Returns v (name% "toUtf8") [.str32 t] (.str8 u) → textOf s = textOf t) ∧
    (∀ u : List U16, u ≠ [] → Returns v (name% "toUtf16") [.str32 s] (.str16 u) →
      Returns v (name% "toUtf16") [.str32 t] (.str16 u) → textOf s = textOf t) ∧
    (∀ u : List U16, u ≠ [] → Returns v (name% "toUcs2") [.str32 s] (.str16 u) →
      Returns v (name% "toUcs2") [.str32 t] (.str16 u) → textOf s = textOf t) := by
  simp only [text_iff]
  exact ⟨fun u hu h h' => C56_ucs4.1 (h.trans h'.symm) fun e => hu (Res.ok.inj (h.symm.trans e)),
    fun u hu h h' => C56_ucs4.2.1 (h.trans h'.symm) fun e => hu (Res.ok.inj (h.symm.trans e)),
    fun u hu h h' => C56_ucs4.2.2 (h.trans h'.symm) fun e => hu (Res.ok.inj (h.symm.trans e))⟩

theorem C56_text_from_utf16 (v : Version) {s t : List U16} :
    (∀ u : List Byte, u ≠ [] → Returns v (name% "toUtf8") [.str16 s] (.str8 u) →
      Returns v (name% "toUtf8") [.str16 t] (.str8 u) → SameUtf16 s t) ∧
    (∀ u : List U32, u ≠ [] → Returns v (name% "toUcs4") [.str16 s] (.str32 u) →
      Returns v (name% "toUcs4") [.str16 t] (.str32 u) → SameUtf16 s t) := by
  simp only [text_iff]
  exact ⟨fun u hu h h' => C56_utf16.1 (h.trans h'.symm) fun e => hu (Res.ok.inj (h.symm.trans e)),
    fun u hu h h' => C56_utf16.2 (h.trans h'.symm) fun e => hu (Res.ok.inj (h.symm.trans e))⟩

theorem C56_text_from_utf8 (v : Version) {s t : List Byte} :
    (∀ u : List U32, u ≠ [] → Returns v (name% "toUcs4") [.str8 s] (.str32 u) →
      Returns v (name% "toUcs4") [.str8 t] (.str32 u) → SameUtf8 s t) ∧
    (∀ u : List U16, u ≠ [] → Returns v (name% "toUtf16") [.str8 s] (.str16 u) →
      Returns v (name% "toUtf16") [.str8 t] (.str16 u) → SameUtf8 s t) ∧
    (∀ u : List U16, u ≠ [] → Returns v (name% "toUcs2") [.str8 s] (.str16 u) →
      Returns v (name% "toUcs2") [.str8 t] (.str16 u) → SameUtf8 s t) := by
  simp only [text_iff]
  exact ⟨fun u hu h h' => C56_utf8.1 (h.trans h'.symm) fun e => hu (Res.ok.inj (h.symm.trans e)),
    fun u hu h h' => C56_utf8.2.1 (h.trans h'.symm) fun e => hu (Res.ok.inj (h.symm.trans e)),
    fun u hu h h' => C56_utf8.2.2 (h.trans h'.symm) fun e => hu (Res.ok.inj (h.symm.trans e))⟩

/-! ## C60: code pages -/

theorem C60_text (v : Version) {e : SourceEncoding} {u : List Nat} (he : Page e u) {s : List Byte} (hs : NulFree s)
    (hu : ∀ b ∈ s, cpChar u b ≠ 0) (hlen : s.length < 4294967296) (post : List Byte) :
    ∃ r n t, Returns v (name% "toUtf8") [.ptr8 (some (s ++ 0 :: post)), .page e] (.str8 r) ∧
      r.length ≤ 3 * s.length ∧ Returns v (name% "unicodeLength") [.str8 r] (.uint n) ∧ n.toNat = s.length ∧
      Returns v (name% "toUtf16") [.str8 r] (.str16 t) ∧ t.length = s.length := by
  simp only [text_iff]
  obtain ⟨r, n, t, h, h'⟩ := C60_length he hs hu hlen post
  obtain ⟨r', h1, h2⟩ := C60_size he hs post
  rw [← Res.ok.inj (h.symm.trans h1)] at h2
  exact ⟨r, n, t, h, h2, h'⟩

theorem C60_text_append (v : Version) {e : SourceEncoding} {u : List Nat} (he : Page e u) {a b : List Byte}
    (ha : NulFree a) (hb : NulFree b) (hu : ∀ x ∈ a ++ b, cpChar u x ≠ 0) (post post' post'' : List Byte) :
    ∃ x y, Returns v (name% "toUtf8") [.ptr8 (some (a ++ 0 :: post)), .page e] (.str8 x) ∧
      Returns v (name% "toUtf8") [.ptr8 (some (b ++ 0 :: post')), .page e] (.str8 y) ∧
      Returns v (name% "toUtf8") [.ptr8 (some (a ++ b ++ 0 :: post'')), .page e] (.str8 (x ++ y)) := by
  simp only [text_iff]
  exact C60_append he ha hb hu post post' post''

theorem C60_text_ascii (v : Version) {e : SourceEncoding} (he : e = kSrcUnicode ∨ e = kSrcCP1252 ∨ e = kSrcCP1250)
    {s : List Byte} (h : Ascii s) (post : List Byte) :
    Returns v (name% "toUtf8") [.ptr8 (some (s ++ 0 :: post)), .page e] (.str8 s) := by
  simp only [text_iff]
  exact C60_ascii he h post

theorem C60_text_latin1 (v : Version) {s : List Byte} (hs : NulFree s)
    (h : ∀ b ∈ s, b.toNat < 0x80 ∨ 0xA0 ≤ b.toNat) (post : List Byte) :
    Returns v (name% "toUtf8") [.ptr8 (some (s ++ 0 :: post)), .page kSrcCP1252] (.str8 (utf8Of (vals s))) := by
  simp only [text_iff]
  exact C60_latin1 hs h post

example (v : Version) : Returns v (name% "toUtf8") [.ptr8 (some [0x41, 0xE9, 0]), .page kSrcCP1252]
    (.str8 [0x41, 0xC3, 0xA9]) :=
  C60_text_latin1 v (s := [0x41, 0xE9]) (by decide) (by decide) []

end Ansak.Props
