import Verif.Props.TextMore
import Verif.Props.TextRest
import Verif.Props.Pieces
import Verif.Props.PiecesValid

/-!
# C46, C47, C49, C61 for the functions as they are written: pieces of encoded text
-/

namespace Ansak.Props

open Spec (Arg Runs RunsMember Returns Changes NulFree Utf8Text Scalar Surrogate utf8Of ucs4Of utf16Of textOf TrimmedTo)
open Unicode (charClass)

/-! ## C46 -/

/-- UTF-8: the pieces are well-formed, and their characters are those of the text between the delimiters. Missing, as
in C31: 2^31 delimiters or more. -/
theorem C46_text_split_utf8_partial (v : Version) {s : List Byte} {vs : List Nat} (h : Utf8Text s vs) (hne : s ≠ [])
    {d : Byte} (hd : d.toNat < 0x80) (hn : s.count d ≤ 0x7FFFFFFF) (hs : Storable s) :
    ∃ parts : List (List Byte × List Nat),
      Returns v (name% "split") [.str8 s, .char8 d] (.vec8 (parts.map Prod.fst)) ∧
      (∀ p ∈ parts, Utf8Text p.1 p.2 ∧ d.toNat ∉ p.2) ∧ vs = List.intercalate [d.toNat] (parts.map Prod.snd) := by
  obtain ⟨parts, h1, h2⟩ := C46_split_utf8_partial h hne hd hn
  have e := C67_split_8 v s d hs
  rw [h1] at e
  exact ⟨parts, e, h2⟩

/-- UTF-16: no surrogate pair is cut. Missing: as above. -/
theorem C46_text_split_utf16_partial (v : Version) {vs : List Nat} (hv : ∀ c ∈ vs, Scalar c) (hne : vs ≠ []) {d : U16}
    (hd : ¬ Surrogate d.toNat) (hn : vs.count d.toNat ≤ 0x7FFFFFFF) (hs : Storable (utf16Of vs)) :
    ∃ parts : List (List Nat),
      Returns v (name% "split") [.str16 (utf16Of vs), .char16 d] (.vec16 (parts.map utf16Of)) ∧
      (∀ p ∈ parts, d.toNat ∉ p) ∧ vs = List.intercalate [d.toNat] parts := by
  obtain ⟨parts, h1, h2⟩ := C46_split_utf16_partial hv hne hd hn
  have e := C67_split_16 v (utf16Of vs) d hs
  rw [h1] at e
  exact ⟨parts, e, h2⟩

theorem C46_text_join (v : Version) :
    (∀ (parts : List (List Byte × List Nat)) (d : Byte), (∀ p ∈ parts, Utf8Text p.1 p.2) → d ≠ 0 → d.toNat < 0x80 →
      ∃ s, Returns v (name% "join") [.vec8 (parts.map Prod.fst), .char8 d] (.str8 s) ∧
        Utf8Text s (List.intercalate [d.toNat] (parts.map Prod.snd))) ∧
    (∀ (parts : List (List Nat)) (d : U16), d ≠ 0 →
      Returns v (name% "join") [.vec16 (parts.map utf16Of), .char16 d]
        (.str16 (utf16Of (List.intercalate [d.toNat] parts)))) := by
  refine ⟨fun parts d h hd hd' => ?_, fun parts d hd => ?_⟩
  · obtain ⟨s, h1, h2⟩ := C46_join_utf8 h hd hd'
    have e := C67_join_8 v (parts.map Prod.fst) d
    rw [h1] at e
    exact ⟨s, e, h2⟩
  · have e := C67_join_16 v (parts.map utf16Of) d
    rw [C46_join_utf16 parts hd] at e
    exact e

theorem each_pairs {α β : Type} {f : α → Res β} {l : List α} {r : List β} (h : each f l = .ok r) :
    ∃ ps : List (α × β), l = ps.map Prod.fst ∧ r = ps.map Prod.snd ∧ ∀ p ∈ ps, f p.1 = .ok p.2 := by
  induction l generalizing r with
  | nil => cases h; exact ⟨[], rfl, rfl, fun _ h => nomatch h⟩
  | cons a l ih =>
    obtain ⟨b, h1, h2⟩ := bind_eq_ok h
    obtain ⟨bs, h3⟩ : ∃ bs, each f l = .ok bs := by
      cases h3 : each f l with
      | ub => rw [h3] at h2; nomatch h2
      | ok bs => exact ⟨bs, rfl⟩
    rw [h3] at h2
    cases h2
    obtain ⟨ps, e1, e2, hp⟩ := ih h3
    refine ⟨(a, b) :: ps, by rw [e1]; rfl, by rw [e2]; rfl, fun p hm => ?_⟩
    rcases List.mem_cons.1 hm with rfl | hm
    · exact h1
    · exact hp p hm

/-- Splitting and converting can be done in either order. Missing: as above. -/
theorem C46_text_converts_partial (v : Version) {s : List Byte} {vs : List Nat} (h : Utf8Text s vs) {d : Byte}
    (hd : d.toNat < 0x80) (hn : s.count d ≤ 0x7FFFFFFF) (hs : Storable s) :
    ∃ (parts : List (List Byte × List U32)) (t : List U32),
      Returns v (name% "split") [.str8 s, .char8 d] (.vec8 (parts.map Prod.fst)) ∧
      Returns v (name% "toUcs4") [.str8 s] (.str32 t) ∧
      Returns v (name% "split") [.str32 t, .char32 (BitVec.ofNat 32 d.toNat)] (.vec32 (parts.map Prod.snd)) ∧
      ∀ p ∈ parts, Returns v (name% "toUcs4") [.str8 p.1] (.str32 p.2) := by
  have e := C46_split_converts_partial h hd hn
  obtain ⟨a, b, t, _, _, h3, _, _, h4⟩ := C54_from_utf8 s
  obtain ⟨l, hl⟩ : ∃ l, split s d = .ok l := by
    by_cases hne : s = []
    · subst hne; exact ⟨[], C32_empty d⟩
    · obtain ⟨l, hl, _⟩ := C32_pieces_partial hne hn; exact ⟨l, hl⟩
  obtain ⟨l', hl'⟩ : ∃ l', each toUcs4From8S l = .ok l' := by
    clear e hl
    induction l with
    | nil => exact ⟨[], rfl⟩
    | cons p l ih =>
      obtain ⟨l', hl'⟩ := ih
      obtain ⟨_, _, t, _, _, h, _⟩ := C54_from_utf8 p
      exact ⟨t :: l', by unfold each; rw [h, Res.bind_ok, hl']; rfl⟩
  rw [hl, Res.bind_ok, hl', h3, Res.bind_ok] at e
  obtain ⟨parts, e1, e2, hp⟩ := each_pairs hl'
  have r1 := C67_split_8 v s d hs
  have r2 := C67_split_32 v t (BitVec.ofNat 32 d.toNat) (by unfold Storable at hs ⊢; omega)
  rw [hl, e1] at r1
  rw [← e, e2] at r2
  refine ⟨parts, t, r1, ?_, r2, ?_⟩ <;> simp only [text_iff]
  · exact h3
  · exact hp

example : Utf8Text [0xC3, 0xA9, 0x2C, 0x41] [0xE9, 0x2C, 0x41] ∧ Storable ([0xC3, 0xA9, 0x2C, 0x41] : List Byte) ∧
    ([0xC3, 0xA9, 0x2C, 0x41] : List Byte).count 0x2C ≤ 0x7FFFFFFF :=
  ⟨text_utf8Of (vs := [0xE9, 0x2C, 0x41]) (by simp [Spec.Encodable, Surrogate]), by decide, by decide⟩

/-! ## C47 -/

theorem C47_text_utf8 (v : Version) {s : List Byte} {vs : List Nat} (h : Utf8Text s vs) (hs : Storable s) :
    (∀ (spaces : List Byte) (ws : List Nat), (∀ d ∈ spaces, d.toNat < 0x80) → Storable spaces →
      TrimmedTo (· ∈ spaces.map BitVec.toNat) vs ws →
      ∃ t, Utf8Text t ws ∧ Changes v (name% "trim") (.str8 s) [.str8 spaces] (.ok (.str8 t))) ∧
    (∀ ws, TrimmedTo (· = 0x20) vs ws →
      ∃ t, Utf8Text t ws ∧ Changes v (name% "trim") (.str8 s) [] (.ok (.str8 t))) ∧
    (∀ ws, TrimmedTo (fun c => c = 0x9 ∨ c = 0xA ∨ c = 0xD ∨ c = 0x20) vs ws →
      ∃ t, Utf8Text t ws ∧ Changes v (name% "trimAscii7WhiteSpace") (.str8 s) [] (.ok (.str8 t))) :=
  ⟨fun spaces _ hsp hst ht => ⟨_, C47_trim_utf8 hsp h ht, C67_trimOf_8 v s spaces hs hst⟩,
    fun _ ht => ⟨_, (C47_trim_ascii h).1 _ ht, C67_trim_8 v s hs⟩,
    fun _ ht => ⟨_, (C47_trim_ascii h).2 _ ht, C67_trimAscii7WhiteSpace v s hs⟩⟩

theorem C47_text_utf16 (v : Version) {spaces : List U16} (hsp : ∀ d ∈ spaces, ¬ Surrogate d.toNat)
    (hst : Storable spaces) {vs ws : List Nat} (hv : ∀ c ∈ vs, Scalar c)
    (ht : TrimmedTo (· ∈ spaces.map BitVec.toNat) vs ws) (hs : Storable (utf16Of vs)) :
    Changes v (name% "trim") (.str16 (utf16Of vs)) [.str16 spaces] (.ok (.str16 (utf16Of ws))) := by
  have e := C67_trimOf_16 v (utf16Of vs) spaces hs hst
  rw [C47_trim_utf16 hsp hv ht] at e
  exact e

/-! ## C49 -/

/-- `trimWhiteSpace` removes only white space. -/
theorem C49_text_partial (v : Version) {s : List U32} (hs : Storable s) {p : Pred}
    (hp : Spec.Built v [⟨.whiteSpace, true⟩] p) :
    ∃ pre r suf, s = pre ++ r ++ suf ∧ Changes v (name% "trimWhiteSpace") (.str32 s) [] (.ok (.str32 r)) ∧
      ∀ c ∈ pre ++ suf, RunsMember v (name% "operator()") p [.char32 c] (.bool true) p := by
  obtain rfl : p = Pred.validIf kIsWhitespace := ((built_iff v _ p).1 hp).trans (also_none ⟨.whiteSpace, true⟩)
  obtain ⟨pre, suf, e, h1, h2⟩ := C49_trimmed_partial v s
  refine ⟨pre, _, suf, e, C67_trimWhiteSpace_32 v s hs, fun c hc => ?_⟩
  have := C67_apply32 v (Pred.validIf kIsWhitespace) c
  rwa [(List.mem_append.1 hc).elim (h1 c) (h2 c)] at this

/-- The form feed is white space, and is not removed. -/
theorem C49_text_violated (v : Version) : ∃ p, Spec.Built v [⟨.whiteSpace, true⟩] p ∧
    RunsMember v (name% "operator()") p [.char32 0xC] (.bool true) p ∧
    Changes v (name% "trimWhiteSpace") (.str32 [0x41, 0xC]) [] (.ok (.str32 [0x41, 0xC])) ∧
    Changes v (name% "trimWhiteSpace") (.str16 [0x41, 0xC]) [] (.ok (.str16 [0x41, 0xC])) ∧
    Changes v (name% "trimWhiteSpace") (.str8 [0x41, 0xC]) [] (.ok (.str8 [0x41, 0xC])) := by
  obtain ⟨h1, h2, h3, h4⟩ := C49_violated v
  have e1 := C67_apply32 v (Pred.validIf kIsWhitespace) 0xC
  have e2 := C67_trimWhiteSpace_32 v [0x41, 0xC] (by decide)
  have e3 := C67_trimWhiteSpace_16 v [0x41, 0xC] (by decide)
  have e4 := C67_trimWhiteSpace_8 v [0x41, 0xC] (by decide)
  rw [show (0xC : U32).toNat = 0xC from rfl, h1] at e1
  rw [h2] at e2
  rw [h3] at e3
  rw [h4] at e4
  exact ⟨_, (built_iff v _ _).2 (also_none ⟨.whiteSpace, true⟩).symm, e1, e2, e3, e4⟩

/-! ## C61: pieces of accepted text are accepted -/

theorem C61_text_split (v : Version) (r : Spec.Range) (pred : Pred) :
    (∀ (s : List Byte) vs (d : Byte) ps, Utf8Text s vs → d.toNat < 0x80 → Storable s →
      Returns v (name% "isUtf8") [.str8 s, .range r.code, .pred pred] (.bool true) →
      Returns v (name% "split") [.str8 s, .char8 d] (.vec8 ps) →
      ∀ p ∈ ps, Returns v (name% "isUtf8") [.str8 p, .range r.code, .pred pred] (.bool true)) ∧
    (∀ vs (d : U16) ps, (∀ c ∈ vs, Scalar c) → ¬ Surrogate d.toNat → Storable (utf16Of vs) →
      Returns v (name% "isUtf16") [.str16 (utf16Of vs), .range r.code, .pred pred] (.bool true) →
      Returns v (name% "split") [.str16 (utf16Of vs), .char16 d] (.vec16 ps) →
      ∀ p ∈ ps, Returns v (name% "isUtf16") [.str16 p, .range r.code, .pred pred] (.bool true)) ∧
    (∀ (s : List U16) (d : U16) ps, NulFree s → Storable s →
      Returns v (name% "isUcs2") [.str16 s, .range r.code, .pred pred] (.bool true) →
      Returns v (name% "split") [.str16 s, .char16 d] (.vec16 ps) →
      ∀ p ∈ ps, Returns v (name% "isUcs2") [.str16 p, .range r.code, .pred pred] (.bool true)) ∧
    (∀ (s : List U32) (d : U32) ps, NulFree s → Storable s →
      Returns v (name% "isUcs4") [.str32 s, .range r.code, .pred pred] (.bool true) →
      Returns v (name% "split") [.str32 s, .char32 d] (.vec32 ps) →
      ∀ p ∈ ps, Returns v (name% "isUcs4") [.str32 p, .range r.code, .pred pred] (.bool true)) := by
  have i8 : ∀ {a b : List (List Byte)}, Arg.vec8 a = .vec8 b → a = b := fun h => by injection h
  have i16 : ∀ {a b : List (List U16)}, Arg.vec16 a = .vec16 b → a = b := fun h => by injection h
  have i32 : ∀ {a b : List (List U32)}, Arg.vec32 a = .vec32 b → a = b := fun h => by injection h
  refine ⟨fun s vs d ps h hd hs ha hp => ?_, fun vs d ps h hd hs ha hp => ?_, fun s d ps h hs ha hp => ?_,
    fun s d ps h hs ha hp => ?_⟩
  · rw [returns_iff (C67_split_8 v s d hs) i8] at hp
    simp only [text_iff] at ha ⊢
    exact C61_split_utf8 h ha hd hp
  · rw [returns_iff (C67_split_16 v (utf16Of vs) d hs) i16] at hp
    simp only [text_iff] at ha ⊢
    exact C61_split_utf16 h ha hd hp
  · rw [returns_iff (C67_split_16 v s d hs) i16] at hp
    simp only [text_iff] at ha ⊢
    exact C61_split_ucs2 h ha hp
  · rw [returns_iff (C67_split_32 v s d hs) i32] at hp
    simp only [text_iff] at ha ⊢
    exact C61_split_ucs4 h ha hp

theorem C61_text_trim (v : Version) (r : Spec.Range) (pred : Pred) :
    (∀ (s : List Byte) vs (spaces : List Byte), Utf8Text s vs → (∀ d ∈ spaces, d.toNat < 0x80) → Storable s →
      Storable spaces → Returns v (name% "isUtf8") [.str8 s, .range r.code, .pred pred] (.bool true) →
      ∃ t, Changes v (name% "trim") (.str8 s) [.str8 spaces] (.ok (.str8 t)) ∧
        Returns v (name% "isUtf8") [.str8 t, .range r.code, .pred pred] (.bool true)) ∧
    (∀ vs (spaces : List U16), (∀ c ∈ vs, Scalar c) → (∀ d ∈ spaces, ¬ Surrogate d.toNat) → Storable (utf16Of vs) →
      Storable spaces → Returns v (name% "isUtf16") [.str16 (utf16Of vs), .range r.code, .pred pred] (.bool true) →
      ∃ t, Changes v (name% "trim") (.str16 (utf16Of vs)) [.str16 spaces] (.ok (.str16 t)) ∧
        Returns v (name% "isUtf16") [.str16 t, .range r.code, .pred pred] (.bool true)) ∧
    (∀ s spaces : List U16, NulFree s → Storable s → Storable spaces →
      Returns v (name% "isUcs2") [.str16 s, .range r.code, .pred pred] (.bool true) →
      ∃ t, Changes v (name% "trim") (.str16 s) [.str16 spaces] (.ok (.str16 t)) ∧
        Returns v (name% "isUcs2") [.str16 t, .range r.code, .pred pred] (.bool true)) ∧
    (∀ s spaces : List U32, NulFree s → Storable s → Storable spaces →
      Returns v (name% "isUcs4") [.str32 s, .range r.code, .pred pred] (.bool true) →
      ∃ t, Changes v (name% "trim") (.str32 s) [.str32 spaces] (.ok (.str32 t)) ∧
        Returns v (name% "isUcs4") [.str32 t, .range r.code, .pred pred] (.bool true)) := by
  obtain ⟨h1, h2, h3, h4⟩ := C61_trim (U := charClass v) (r := r) (pred := pred)
  simp only [text_iff]
  exact ⟨fun s vs sp h hd hs hsp ha => ⟨_, C67_trimOf_8 v s sp hs hsp, h1 h ha sp hd⟩,
    fun vs sp h hd hs hsp ha => ⟨_, C67_trimOf_16 v _ sp hs hsp, h2 h ha sp hd⟩,
    fun s sp h hs hsp ha => ⟨_, C67_trimOf_16 v s sp hs hsp, h3 h ha sp⟩,
    fun s sp h hs hsp ha => ⟨_, C67_trimOf_32 v s sp hs hsp, h4 h ha sp⟩⟩

theorem C61_text_join (v : Version) (r : Spec.Range) (pred : Pred) :
    (∀ (parts : List (List Byte)) (d : Byte), d ≠ 0 → d.toNat < 0x80 →
      (∀ p ∈ parts, (∃ vs, Utf8Text p vs) ∧ Returns v (name% "isUtf8") [.str8 p, .range r.code, .pred pred] (.bool true)) →
      Returns v (name% "isUtf8") [.str8 [d], .range r.code, .pred pred] (.bool true) →
      ∃ s, Returns v (name% "join") [.vec8 parts, .char8 d] (.str8 s) ∧
        Returns v (name% "isUtf8") [.str8 s, .range r.code, .pred pred] (.bool true)) ∧
    (∀ (parts : List (List Nat)) (d : U16), (∀ p ∈ parts, ∀ c ∈ p, Scalar c) → d ≠ 0 → ¬ Surrogate d.toNat →
      (∀ p ∈ parts, Returns v (name% "isUtf16") [.str16 (utf16Of p), .range r.code, .pred pred] (.bool true)) →
      Returns v (name% "isUtf16") [.str16 [d], .range r.code, .pred pred] (.bool true) →
      ∃ s, Returns v (name% "join") [.vec16 (parts.map utf16Of), .char16 d] (.str16 s) ∧
        Returns v (name% "isUtf16") [.str16 s, .range r.code, .pred pred] (.bool true)) ∧
    (∀ (parts : List (List U16)) (d : U16), d ≠ 0 →
      (∀ p ∈ parts, NulFree p ∧ Returns v (name% "isUcs2") [.str16 p, .range r.code, .pred pred] (.bool true)) →
      Returns v (name% "isUcs2") [.str16 [d], .range r.code, .pred pred] (.bool true) →
      ∃ s, Returns v (name% "join") [.vec16 parts, .char16 d] (.str16 s) ∧
        Returns v (name% "isUcs2") [.str16 s, .range r.code, .pred pred] (.bool true)) ∧
    (∀ (parts : List (List U32)) (d : U32), d ≠ 0 →
      (∀ p ∈ parts, NulFree p ∧ Returns v (name% "isUcs4") [.str32 p, .range r.code, .pred pred] (.bool true)) →
      Returns v (name% "isUcs4") [.str32 [d], .range r.code, .pred pred] (.bool true) →
      ∃ s, Returns v (name% "join") [.vec32 parts, .char32 d] (.str32 s) ∧
        Returns v (name% "isUcs4") [.str32 s, .range r.code, .pred pred] (.bool true)) := by
  simp only [text_iff]
  refine ⟨fun parts d hd hd' h ha => ?_, fun parts d hp hd hd' h ha => ?_, fun parts d hd h ha => ?_,
    fun parts d hd h ha => ?_⟩
  · obtain ⟨s, h1, h2⟩ := C61_join_utf8 hd hd' h ha
    have e := C67_join_8 v parts d
    rw [h1] at e
    exact ⟨s, e, h2⟩
  · obtain ⟨s, h1, h2⟩ := C61_join_utf16 hp hd hd' h ha
    have e := C67_join_16 v (parts.map utf16Of) d
    rw [h1] at e
    exact ⟨s, e, h2⟩
  · obtain ⟨s, h1, h2⟩ := (C61_join_ucs (U := charClass v) (r := r) (pred := pred)).1 hd h ha
    have e := C67_join_16 v parts d
    rw [h1] at e
    exact ⟨s, e, h2⟩
  · obtain ⟨s, h1, h2⟩ := (C61_join_ucs (U := charClass v) (r := r) (pred := pred)).2 hd h ha
    have e := C67_join_32 v parts d
    rw [h1] at e
    exact ⟨s, e, h2⟩

end Ansak.Props
