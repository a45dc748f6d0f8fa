import Verif.Model.ToLower
import Verif.Lemmas.Unicode.Stable
import Verif.Lemmas.Compose
import Verif.Spec.Args

/-!
# Lower-casing evaluated
-/

namespace Ansak

open Spec (Scalar Encodable Surrogate textOf utf8Of utf16Of ucs4Of Lang Turkic NulFree)
open Unicode
open CExpr (beq_of not_beq_of)

/-! ## The language test -/

/-- The language test on the text before the NUL. -/
def turkicText : List Byte → Bool
  | [c0, c1] =>
    (c0 == lit 't' && c1 == lit 'r') || (c0 == lit 'a' && c1 == lit 'z') ||
      (c0 == lit 't' && c1 == lit 't') || (c0 == lit 'k' && c1 == lit 'k')
  | [c0, c1, c2] =>
    (c0 == lit 't' && c1 == lit 'u' && c2 == lit 'r') ||
      (c0 == lit 't' && c1 == lit 'a' && c2 == lit 't') ||
      (c0 == lit 'k' && c1 == lit 'a' && c2 == lit 'z') ||
      (c0 == lit 'a' && c1 == lit 'z' && (c2 == lit 'e' || c2 == lit 'b' || c2 == lit 'j'))
  | _ => false

theorem isTurkicLang_text {l : List Byte} (h : NulFree l) (post : List Byte) :
    isTurkicLang (some (l ++ 0 :: post)) = .ok (turkicText l) := by
  match l, h with
  | [], _ => rfl
  | [c0], h =>
    have h0 : c0 ≠ 0 := h c0 (List.mem_cons_self ..)
    show (if c0 = 0 then _ else _) = _
    rw [if_neg h0]; rfl
  | [c0, c1], h =>
    have h0 : c0 ≠ 0 := h c0 (List.mem_cons_self ..)
    have h1 : c1 ≠ 0 := h c1 (List.mem_cons_of_mem _ (List.mem_cons_self ..))
    show (if c0 = 0 then _ else if c1 = 0 then _ else _) = _
    rw [if_neg h0, if_neg h1]; rfl
  | [c0, c1, c2], h =>
    have h0 : c0 ≠ 0 := h c0 (List.mem_cons_self ..)
    have h1 : c1 ≠ 0 := h c1 (List.mem_cons_of_mem _ (List.mem_cons_self ..))
    have h2 : c2 ≠ 0 := h c2
      (List.mem_cons_of_mem _ (List.mem_cons_of_mem _ (List.mem_cons_self ..)))
    show (if c0 = 0 then _ else if c1 = 0 then _ else if c2 = 0 then _ else _) = _
    rw [if_neg h0, if_neg h1, if_neg h2]; rfl
  | c0 :: c1 :: c2 :: c3 :: l, h =>
    have h0 : c0 ≠ 0 := h c0 (List.mem_cons_self ..)
    have h1 : c1 ≠ 0 := h c1 (List.mem_cons_of_mem _ (List.mem_cons_self ..))
    have h2 : c2 ≠ 0 := h c2
      (List.mem_cons_of_mem _ (List.mem_cons_of_mem _ (List.mem_cons_self ..)))
    have h3 : c3 ≠ 0 := h c3
      (List.mem_cons_of_mem _ (List.mem_cons_of_mem _ (List.mem_cons_of_mem _
        (List.mem_cons_self ..))))
    show (if c0 = 0 then _ else if c1 = 0 then _ else if c2 = 0 then _ else
      if c3 = 0 then _ else _) = _
    rw [if_neg h0, if_neg h1, if_neg h2, if_neg h3]; rfl

theorem turkicText_iff (l : List Byte) :
    turkicText l = true ↔ ∃ code ∈ Spec.turkicCodes, l = Spec.ascii code := by
  constructor
  · intro h
    match l, h with
    | [c0, c1], h =>
      simp only [turkicText, Bool.or_eq_true, Bool.and_eq_true, beq_iff_eq] at h
      rcases h with ((⟨rfl, rfl⟩ | ⟨rfl, rfl⟩) | ⟨rfl, rfl⟩) | ⟨rfl, rfl⟩
      · exact ⟨['t', 'r'], by decide, by decide⟩
      · exact ⟨['a', 'z'], by decide, by decide⟩
      · exact ⟨['t', 't'], by decide, by decide⟩
      · exact ⟨['k', 'k'], by decide, by decide⟩
    | [c0, c1, c2], h =>
      simp only [turkicText, Bool.or_eq_true, Bool.and_eq_true, beq_iff_eq] at h
      rcases h with ((⟨⟨rfl, rfl⟩, rfl⟩ | ⟨⟨rfl, rfl⟩, rfl⟩) | ⟨⟨rfl, rfl⟩, rfl⟩) |
        ⟨⟨rfl, rfl⟩, (rfl | rfl) | rfl⟩
      · exact ⟨['t', 'u', 'r'], by decide, by decide⟩
      · exact ⟨['t', 'a', 't'], by decide, by decide⟩
      · exact ⟨['k', 'a', 'z'], by decide, by decide⟩
      · exact ⟨['a', 'z', 'e'], by decide, by decide⟩
      · exact ⟨['a', 'z', 'b'], by decide, by decide⟩
      · exact ⟨['a', 'z', 'j'], by decide, by decide⟩
    | [], h => cases h
    | [_], h => cases h
    | _ :: _ :: _ :: _ :: _, h => cases h
  · have key : ∀ code ∈ Spec.turkicCodes, turkicText (Spec.ascii code) = true := by decide
    rintro ⟨code, hc, rfl⟩
    exact key code hc

/-- The language test, computed from the argument. -/
def turkicLang : Lang → Bool
  | none => false
  | some l => turkicText (textOf l)

theorem turkicLang_iff (lang : Lang) : turkicLang lang = true ↔ Turkic lang := by
  cases lang with
  | none => exact ⟨fun h => (by cases h), False.elim⟩
  | some l => exact turkicText_iff (textOf l)

theorem isTurkicLang_lang (lang : Lang) : isTurkicLang (langPtr lang) = .ok (turkicLang lang) := by
  cases lang with
  | none => rfl
  | some l =>
    obtain ⟨post, hp⟩ := cStr_text l
    show isTurkicLang (cStr l) = _
    rw [hp, isTurkicLang_text (textOf_nulFree l)]
    rfl

/-! ## The character function -/

/-- The function a language selects. -/
def lowerChar (v : Version) (turkic : Bool) (c : U32) : U32 :=
  if turkic then turkicToLowerChar v c else toLowerChar v c

/-- The same on numbers. -/
def lowerNat (v : Version) (turkic : Bool) (x : Nat) : Nat :=
  if turkic ∧ x = 0x49 then 0x131 else (toLower v).eval x

theorem toLower_dotted (v : Version) : (toLower v).eval 0x130 = 0x69 := by
  cases v <;> decide +kernel

theorem toLower_I (v : Version) : (toLower v).eval 0x49 = 0x69 := by
  cases v <;> decide +kernel

theorem toLower_dotless (v : Version) : (toLower v).eval 0x131 = 0x131 := by
  cases v <;> decide +kernel

theorem turkicToLower_eval (v : Version) (x : Nat) : (turkicToLower v).eval x =
    bif CExpr.memNat x [0x130] then 0x69 else bif CExpr.memNat x [0x49] then 0x131 else
      Nat.mod ((toLower v).eval x) (Nat.pow 2 32) := by
  cases v <;> rfl

theorem memNat_one (x k : Nat) : CExpr.memNat x [k] = decide (x = k) := by
  unfold CExpr.memNat CExpr.memNat
  by_cases h : x = k
  · rw [beq_of h, decide_eq_true h]; rfl
  · rw [not_beq_of h, decide_eq_false h]; rfl

theorem turkicToLower_eq (v : Version) {x : Nat} (hx : x ≤ 0xFFFFFFFF) :
    (turkicToLower v).eval x = lowerNat v true x := by
  rw [turkicToLower_eval, memNat_one, memNat_one]
  unfold lowerNat
  by_cases h1 : x = 0x130
  · subst h1
    rw [decide_eq_true rfl, if_neg (by decide), toLower_dotted]; rfl
  · rw [decide_eq_false h1]
    by_cases h2 : x = 0x49
    · rw [decide_eq_true h2, if_pos ⟨rfl, h2⟩]; rfl
    · rw [decide_eq_false h2, if_neg fun h => h2 h.2]
      have := toLower_le v hx
      exact Nat.mod_eq_of_lt (by show _ < 2 ^ 32; omega)

theorem lowerNat_le (v : Version) (t : Bool) {x : Nat} (hx : x ≤ 0xFFFFFFFF) :
    lowerNat v t x ≤ 0xFFFFFFFF := by
  unfold lowerNat
  split
  · decide
  · exact toLower_le v hx

theorem lowerChar_toNat (v : Version) (t : Bool) (c : U32) :
    (lowerChar v t c).toNat = lowerNat v t c.toNat := by
  have hc : c.toNat ≤ 0xFFFFFFFF := by have := c.isLt; omega
  cases t with
  | false =>
    show (toLowerChar v c).toNat = _
    rw [toLowerChar_toNat]; rfl
  | true =>
    show (BitVec.ofNat 32 ((turkicToLower v).eval c.toNat)).toNat = _
    have := lowerNat_le v true hc
    rw [turkicToLower_eq v hc, BitVec.toNat_ofNat]
    exact Nat.mod_eq_of_lt (by omega)

/-- Lower-casing changes nothing or gives a scalar value from a scalar value. -/
theorem lowerNat_cases (v : Version) (t : Bool) {x : Nat} (hx : x ≤ 0xFFFFFFFF) :
    lowerNat v t x = x ∨ (Scalar x ∧ Scalar (lowerNat v t x)) := by
  unfold lowerNat
  by_cases h : t = true ∧ x = 0x49
  · rw [if_pos h, h.2]
    exact Or.inr (by decide)
  · rw [if_neg h, toLower_eq v x hx]
    rcases mapOf_cases (maps v) x with e | ⟨p, hp, rfl, e⟩
    · exact Or.inl e
    · rw [e]
      exact Or.inr ⟨(maps_scalar hp).1.1, (maps_scalar hp).2.1⟩

theorem lowerNat_idem (v : Version) (t : Bool) {x : Nat} (hx : x ≤ 0xFFFFFFFF) :
    lowerNat v t (lowerNat v t x) = lowerNat v t x := by
  have plain : (toLower v).eval ((toLower v).eval x) = (toLower v).eval x := by
    rcases mapOf_cases (maps v) x with e | ⟨p, hp, rfl, _⟩
    · rw [toLower_eq v x hx, e, toLower_eq v x hx, e]
    · rw [(toLower_image v hp).1, (toLower_image v hp).2]
  unfold lowerNat
  by_cases h : t = true ∧ x = 0x49
  · rw [if_pos h, if_neg fun h => absurd h.2 (by decide), toLower_dotless]
  · rw [if_neg h]
    have hne : (toLower v).eval x ≠ 0x49 := by
      intro e
      rw [e, toLower_I] at plain
      cases plain
    rw [if_neg fun h => hne h.2, plain]

theorem lowerNat_encodable (v : Version) (t : Bool) {x : Nat} (h : Encodable x) :
    Encodable (lowerNat v t x) := by
  have h' := h
  unfold Encodable at h'
  rcases lowerNat_cases v t (x := x) (by omega) with e | ⟨_, h2⟩
  · rw [e]; exact h
  · exact scalar_encodable h2

theorem lowerNat_scalar (v : Version) (t : Bool) {x : Nat} (h : Scalar x) :
    Scalar (lowerNat v t x) := by
  have h' := h
  unfold Scalar at h'
  rcases lowerNat_cases v t (x := x) (by omega) with e | ⟨_, h2⟩
  · rw [e]; exact h
  · exact h2

/-! ## Strings -/

theorem toLowerLoop_eq (f : U32 → U32) (src result : List U32) :
    toLowerLoop f src result = result ++ src.map f := by
  induction src generalizing result with
  | nil => rw [List.map_nil, List.append_nil]; rfl
  | cons c src ih =>
    unfold toLowerLoop
    rw [ih, List.map_cons, List.append_assoc]; rfl

theorem toLower32S_eq (v : Version) (src : List U32) (lang : Lang) :
    toLower32S v src (langPtr lang) = .ok (src.map (lowerChar v (turkicLang lang))) := by
  unfold toLower32S
  rw [isTurkicLang_lang, Res.bind_ok]
  dsimp only
  rw [toLowerLoop_eq, List.nil_append]
  cases turkicLang lang <;> rfl

theorem map_lowerChar_ucs4Of (v : Version) (t : Bool) {vs : List Nat}
    (h : ∀ x ∈ vs, Encodable x) :
    (ucs4Of vs).map (lowerChar v t) = ucs4Of (vs.map (lowerNat v t)) := by
  unfold ucs4Of
  rw [List.map_map, List.map_map]
  refine List.map_congr_left fun x hx => ?_
  have hx' := h x hx
  unfold Encodable at hx'
  apply BitVec.eq_of_toNat_eq
  have hle := lowerNat_le v t (x := x) (by omega)
  show (lowerChar v t (BitVec.ofNat 32 x)).toNat = (BitVec.ofNat 32 (lowerNat v t x)).toNat
  rw [lowerChar_toNat, BitVec.toNat_ofNat, BitVec.toNat_ofNat, Nat.mod_eq_of_lt (by omega),
    Nat.mod_eq_of_lt (by omega)]

theorem map_encodable (v : Version) (t : Bool) {vs : List Nat} (h : ∀ x ∈ vs, Encodable x) :
    ∀ x ∈ vs.map (lowerNat v t), Encodable x := by
  intro x hx
  obtain ⟨y, hy, rfl⟩ := List.mem_map.1 hx
  exact lowerNat_encodable v t (h y hy)

theorem map_scalar (v : Version) (t : Bool) {vs : List Nat} (h : ∀ x ∈ vs, Scalar x) :
    ∀ x ∈ vs.map (lowerNat v t), Scalar x := by
  intro x hx
  obtain ⟨y, hy, rfl⟩ := List.mem_map.1 hx
  exact lowerNat_scalar v t (h y hy)

/-- UTF-8 lower-casing, from the characters of the text. -/
theorem toLower8S_chars (v : Version) (lang : Lang) {s : List Byte} {vs : List Nat}
    (h4 : toUcs4From8S s = .ok (ucs4Of vs)) (h : ∀ x ∈ vs, Encodable x) :
    toLower8S v s (langPtr lang) = .ok (utf8Of (vs.map (lowerNat v (turkicLang lang)))) := by
  unfold toLower8S
  rw [h4, Res.bind_ok]
  cases vs with
  | nil => rfl
  | cons x vs =>
    rw [if_neg (show ¬ ucs4Of (x :: vs) = [] by intro e; cases e), toLower32S_eq, Res.bind_ok,
      map_lowerChar_ucs4Of v _ h, toUtf8From32S_ucs4Of (map_encodable v _ h)]

theorem toLower16S_chars (v : Version) (lang : Lang) {s : List U16} {vs : List Nat}
    (h4 : toUcs4From16S s = .ok (ucs4Of vs)) (h : ∀ x ∈ vs, Scalar x) :
    toLower16S v s (langPtr lang) = .ok (utf16Of (vs.map (lowerNat v (turkicLang lang)))) := by
  have hE : ∀ x ∈ vs, Encodable x := fun x hx => scalar_encodable (h x hx)
  unfold toLower16S
  rw [h4, Res.bind_ok]
  cases vs with
  | nil => rfl
  | cons x vs =>
    rw [if_neg (show ¬ ucs4Of (x :: vs) = [] by intro e; cases e), toLower32S_eq, Res.bind_ok,
      map_lowerChar_ucs4Of v _ hE, toUtf16From32S_ucs4Of (map_encodable v _ hE), if_pos]
    intro y hy
    have := map_scalar v (turkicLang lang) h y hy
    unfold Scalar at this
    omega

/-- Every UTF-8 string has characters in this sense (none if it is malformed). -/
theorem chars8 (s : List Byte) :
    ∃ vs, toUcs4From8S s = .ok (ucs4Of vs) ∧ ∀ x ∈ vs, Encodable x := by
  obtain ⟨vs, e, hsc, h4, _⟩ := toUcs4From8S_any s
  cases he : e.ok with
  | true => rw [he, if_pos rfl] at h4; exact ⟨vs, h4, scan_encodable hsc⟩
  | false =>
    rw [he] at h4
    exact ⟨[], h4, fun x hx => absurd hx List.not_mem_nil⟩

theorem chars16 (s : List U16) :
    ∃ vs, toUcs4From16S s = .ok (ucs4Of vs) ∧ ∀ x ∈ vs, Scalar x := by
  obtain ⟨vs, e, hsc, h4⟩ := toUcs4From16S_any s
  cases he : e.ok with
  | true => rw [he, if_pos rfl] at h4; exact ⟨vs, h4, scan16_scalar hsc⟩
  | false =>
    rw [he] at h4
    exact ⟨[], h4, fun x hx => absurd hx List.not_mem_nil⟩

end Ansak
