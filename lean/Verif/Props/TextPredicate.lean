import Verif.Spec.Built
import Verif.Props.TextMain
import Verif.Props.Predicate
import Verif.Props.History

/-!
# Predicates, character classes, lower case and code pages of the library as it is written
-/

namespace Ansak.Props

open Spec (Arg Runs RunsMember Returns NulFree Utf8Text Scalar Utf8Reads utf8Of ucs4Of utf16Of textOf Lang Turkic
  Built InClass Cond Class Consistent Assigned bytesOf lowerOf lowerDeviations InRanges)
open Unicode (charClass)

/-! ## Members have one outcome -/

theorem done_unique {sc : Bool} {o : Cpp.Out} {a b : Arg} {p q : Pred} {l l' : List (Option Cpp.Val)}
    (h : o = .done (a.val sc) (some ((Arg.pred p).val sc) :: l))
    (h' : o = .done (b.val sc) (some ((Arg.pred q).val sc) :: l')) : a = b ∧ p = q := by
  subst h
  injection h' with h1 h2
  injection h2 with h2 _
  injection h2 with h2
  exact ⟨val_injective sc h1, Arg.pred.inj (val_injective sc h2)⟩

/-- The result of a member function and what it does to its object are determined. -/
theorem C67_member_unique {v : Version} {name : Nat} {self p q : Pred} {args : List Arg} {a b : Arg}
    (h : RunsMember v name self args a p) (h' : RunsMember v name self args b q) : a = b ∧ p = q :=
  done_unique (h false false _ (Nat.le_refl _)) (h' false false _ (Nat.le_refl _))

/-! ## C24: chains of conditions -/

theorem first_runs (v : Version) (k : Cond) : Returns v k.first [.encoding k.cls.code] (.pred (start k)) := by
  obtain ⟨c, w⟩ := k
  cases w with
  | true => exact C67_validIf v c.code
  | false => exact C67_validIfNot v c.code

theorem further_runs (v : Version) (p : Pred) (k : Cond) :
    RunsMember v k.further p [.encoding k.cls.code] (.pred (also p k)) (also p k) := by
  obtain ⟨c, w⟩ := k
  cases w with
  | true => exact C67_andIf v p c.code
  | false => exact C67_andIfNot v p c.code

theorem C67_construct (v : Version) : Spec.Constructs v Pred.none := by
  intro w sc n hn
  rw [Cpp.callText_eq (Cpp.link_str v sc)]
  obtain ⟨d, rfl⟩ : ∃ d, n = d + 8 := ⟨n - 8, by omega⟩
  exact Cpp.construct_default (E := Cpp.Sealed.real) (d := d + 7)

/-- The object that the default constructor makes is determined. -/
theorem C67_construct_unique {v : Version} {p q : Pred} (h : Spec.Constructs v p) (h' : Spec.Constructs v q) : p = q := by
  have e := (h false false 8 (Nat.le_refl _)).symm.trans (h' false false 8 (Nat.le_refl _))
  injection e with e
  exact Arg.pred.inj (val_injective false e)

/-- A program can build each chain, and the object it gets is determined. -/
theorem built_iff (v : Version) (ks : List Cond) (p : Pred) : Built v ks p ↔ p = predOf ks := by
  constructor
  · intro h
    induction h with
    | fresh h => exact C67_construct_unique h (C67_construct v)
    | @first k p h => exact (Arg.pred.inj (Res.ok.inj (C67_unique h (first_runs v k)))).trans (also_none k).symm
    | @further l p k r p' _ h ih =>
      rw [(C67_member_unique h (further_runs v p k)).2, ih, predOf_append]
  · rintro rfl
    suffices H : ∀ (pre : List Cond) (p : Pred), Built v pre p → Built v (pre ++ ks) (ks.foldl also p) from
      H [] _ (.fresh (C67_construct v))
    induction ks with
    | nil => exact fun pre p h => by rw [List.append_nil]; exact h
    | cons j js ih =>
      intro pre p h
      have := ih (pre ++ [j]) _ (.further h (further_runs v p j))
      rwa [List.append_assoc] at this

/-- Every chain can be built, and in only one way. -/
theorem C24_text_built (v : Version) (ks : List Cond) : ∃ p, Built v ks p ∧ ∀ q, Built v ks q → q = p :=
  ⟨predOf ks, (built_iff v ks _).2 rfl, fun q => (built_iff v ks q).1⟩

theorem classes32_iff (v : Version) (X : Class) (c : U32) :
    classes32 (charClass v) c.toNat X = true ↔ InClass v X c.toNat := by
  have h := (C24_conjunction_partial (charClass v) ⟨X, true⟩ [] (by cases X <;> decide) c.toNat).1
  have h' : (Pred.validIf X.code).call32 (charClass v) c.toNat = true ↔ classes32 (charClass v) c.toNat X = true :=
    h.trans ⟨fun h => h _ (List.mem_singleton_self _), fun h j hj => by rw [List.mem_singleton.1 hj]; exact h⟩
  rw [← h']
  cases X with
  | assigned => exact C25_char32 v c
  | privateUse => exact C26_private32 v c
  | control => exact C26_control32 v c
  | whiteSpace => exact C26_white32 v c

theorem holds_iff (v : Version) (k : Cond) (c : U32) : k.Holds (classes32 (charClass v) c.toNat) ↔ k.TrueOf v c.toNat := by
  unfold Spec.Cond.Holds Spec.Cond.TrueOf
  rw [← classes32_iff, Bool.eq_iff_iff]

theorem chain_true (v : Version) {ks : List Cond} {p : Pred} (h : Built v ks p) (hc : Consistent ks) (c : U32) :
    p.call32 (charClass v) c.toNat = true ↔ ∀ k ∈ ks, k.TrueOf v c.toNat := by
  rw [(built_iff v ks p).1 h]
  exact (test_predOf (classes32 (charClass v) c.toNat) ks hc).trans
    (forall_congr' fun j => imp_congr_right fun _ => holds_iff v j c)

/-- A predicate built from conditions that do not contradict each other is true of exactly the characters of which all
the conditions are, and calling it does not change it. Missing from the full property: contradictions, see
`C24_text_violated`. -/
theorem C24_text_partial (v : Version) {ks : List Cond} {p : Pred} (h : Built v ks p) (hc : Consistent ks) :
    (∀ c : U32, ∃ b, RunsMember v (name% "operator()") p [.char32 c] (.bool b) p ∧
      (b = true ↔ ∀ k ∈ ks, k.TrueOf v c.toNat)) ∧
    (∀ c : U16, ∃ b, RunsMember v (name% "operator()") p [.char16 c] (.bool b) p ∧
      (b = true ↔ ∀ k ∈ ks, k.TrueOf v c.toNat)) := by
  refine ⟨fun c => ⟨_, C67_apply32 v p c, chain_true v h hc c⟩, fun c => ⟨_, C67_apply16 v p c, ?_⟩⟩
  have e : (BitVec.ofNat 32 c.toNat).toNat = c.toNat := by
    have := c.isLt
    rw [BitVec.toNat_ofNat]
    exact Nat.mod_eq_of_lt (by omega)
  have := chain_true v h hc (BitVec.ofNat 32 c.toNat)
  rw [e] at this
  rw [C26_overloads_agree]
  exact this

/-- The predicate that is both asked for white space and asked for none is true of white space. -/
theorem C24_text_violated (v : Version) (X : Class) :
    ∃ p, Built v [⟨X, true⟩, ⟨X, false⟩] p ∧ ∀ c : U32, InClass v X c.toNat →
      RunsMember v (name% "operator()") p [.char32 c] (.bool true) p := by
  refine ⟨chain ⟨X, true⟩ [⟨X, false⟩], (built_iff v _ _).2 (predOf_cons _ _).symm, fun c h => ?_⟩
  have h' := C24_contradiction_violated (charClass v) X c.toNat
  have := C67_apply32 v (chain ⟨X, true⟩ [⟨X, false⟩]) c
  rwa [show (chain ⟨X, true⟩ [⟨X, false⟩]).call32 (charClass v) c.toNat = true from
    h'.trans ((classes32_iff v X c).2 h)] at this

/-- White space that is not a control code: U+2003, but not the tab. -/
example (v : Version) : ∃ p, Built v [⟨.whiteSpace, true⟩, ⟨.control, false⟩] p ∧
    RunsMember v (name% "operator()") p [.char32 0x2003] (.bool true) p ∧
    RunsMember v (name% "operator()") p [.char32 0x9] (.bool false) p := by
  refine ⟨predOf [⟨.whiteSpace, true⟩, ⟨.control, false⟩], (built_iff v _ _).2 rfl, ?_⟩
  have hb := (built_iff v [⟨.whiteSpace, true⟩, ⟨.control, false⟩] _).2 rfl
  obtain ⟨b, h1, h2⟩ := (C24_text_partial v hb (by decide)).1 0x2003
  obtain ⟨b', h1', h2'⟩ := (C24_text_partial v hb (by decide)).1 0x9
  have e : b = true := h2.2 fun k hk => by
    rcases List.mem_cons.1 hk with rfl | hk
    · exact ⟨fun _ => rfl, fun _ => show Spec.WhiteSpace 0x2003 by unfold Spec.WhiteSpace; decide⟩
    · rw [List.mem_singleton.1 hk]
      exact ⟨fun h => absurd (show Spec.Control 0x2003 from h) (by unfold Spec.Control; decide), fun h => nomatch h⟩
  have e' : b' = false := Bool.eq_false_iff.2 fun hb => by
    have := (h2'.1 hb ⟨.control, false⟩ (by decide)).1 (show Spec.Control 9 by unfold Spec.Control; decide)
    exact nomatch this
  subst e e'
  exact ⟨h1, h1'⟩

/-! ## C23, C25, C26: a predicate and a text -/

/-- With a predicate exactly those texts are accepted that are accepted without and all of whose characters meet its
conditions. -/
theorem C23_text (v : Version) (r : Spec.Range) {ks : List Cond} {p : Pred} (h : Built v ks p) (hc : Consistent ks) :
    (∀ s : List Byte, Returns v (name% "isUtf8") [.str8 s, .range r.code, .pred p] (.bool true) ↔
      Returns v (name% "isUtf8") [.str8 s, .range r.code] (.bool true) ∧
        ∀ vs t, Utf8Reads (textOf s) vs t → ∀ c ∈ vs, ∀ k ∈ ks, k.TrueOf v c) ∧
    (∀ s : List U16, Returns v (name% "isUcs2") [.str16 s, .range r.code, .pred p] (.bool true) ↔
      Returns v (name% "isUcs2") [.str16 s, .range r.code] (.bool true) ∧
        ∀ c ∈ textOf s, ∀ k ∈ ks, k.TrueOf v c.toNat) ∧
    (∀ s : List U32, Returns v (name% "isUcs4") [.str32 s, .range r.code, .pred p] (.bool true) ↔
      Returns v (name% "isUcs4") [.str32 s, .range r.code] (.bool true) ∧
        ∀ c ∈ textOf s, ∀ k ∈ ks, k.TrueOf v c.toNat) := by
  have key : ∀ x, x < 4294967296 → (p.call32 (charClass v) x = true ↔ ∀ k ∈ ks, k.TrueOf v x) := fun x hx => by
    have e : (BitVec.ofNat 32 x).toNat = x := by
      rw [BitVec.toNat_ofNat]
      exact Nat.mod_eq_of_lt hx
    have := chain_true v h hc (BitVec.ofNat 32 x)
    rwa [e] at this
  simp only [text_iff]
  refine ⟨fun s => ?_, fun s => ?_, fun s => ?_⟩
  · refine (C23_isUtf8 _ r p s).trans (and_congr_right fun _ => forall_congr' fun vs => forall_congr' fun t =>
      forall_congr' fun hr => forall_congr' fun x => forall_congr' fun hx => key x ?_)
    have := reads_encodable hr x hx
    unfold Spec.Encodable at this
    omega
  · refine (C23_isUcs2 _ r p s).trans (and_congr_right fun _ => forall_congr' fun c => forall_congr' fun _ => ?_)
    rw [C26_overloads_agree]
    have := c.isLt
    exact key _ (by omega)
  · exact (C23_isUcs4 _ r p s).trans (and_congr_right fun _ => forall_congr' fun c => forall_congr' fun _ =>
      key _ c.isLt)

/-- Assigned, and as UTF-16 it is rejected. -/
theorem C23_text_violated (v : Version) : ∃ p, Built v [⟨.assigned, true⟩] p ∧ Assigned v 0x1F600 ∧
    Returns v (name% "toUcs4") [.str16 [0xD83D, 0xDE00]] (.str32 [0x1F600]) ∧
    Returns v (name% "isUtf16") [.str16 [0xD83D, 0xDE00], .range kUtf16] (.bool true) ∧
    Returns v (name% "isUtf16") [.str16 [0xD83D, 0xDE00], .range kUtf16, .pred p] (.bool false) := by
  refine ⟨Pred.validIf kIsAssigned, (built_iff v [⟨.assigned, true⟩] _).2 (also_none ⟨.assigned, true⟩).symm, ?_⟩
  simp only [text_iff]
  obtain ⟨h1, h2, h3, h4⟩ := C23_isUtf16_violated_all v
  exact ⟨(C25_char32 v 0x1F600).1 h3, h1, h2, h4⟩

/-! ## C27, C37: lower case -/

theorem C27_text_partial (v : Version) {lang : Lang} (h : ¬ Turkic lang) :
    (∀ s : List U32, (∀ c ∈ s, ¬ InRanges (lowerDeviations v) c.toNat) →
      Returns v (name% "toLower") [.str32 s, .ptr8 (langPtr lang)] (.str32 (ucs4Of ((vals s).map (lowerOf v))))) ∧
    (∀ (s : List Byte) vs t, Utf8Reads (textOf s) vs t → (∀ x ∈ vs, ¬ InRanges (lowerDeviations v) x) →
      Returns v (name% "toLower") [.str8 s, .ptr8 (langPtr lang)] (.str8 (utf8Of (vs.map (lowerOf v))))) ∧
    (∀ vs : List Nat, (∀ x ∈ vs, Scalar x) → (∀ x ∈ vs, ¬ InRanges (lowerDeviations v) x) →
      Returns v (name% "toLower") [.str16 (utf16Of vs), .ptr8 (langPtr lang)]
        (.str16 (utf16Of (vs.map (lowerOf v))))) := by
  simp only [text_iff]
  exact ⟨C27_ucs4_partial v h, fun _ _ _ hs hd => C27_utf8_partial v h hs hd, fun _ hv hd => C27_utf16_partial v h hv hd⟩

/-- The code points of the list, and only they, are lower-cased to something else. -/
theorem C27_text_violated (v : Version) (c : U32) (h : InRanges (lowerDeviations v) c.toNat) :
    ∃ d, Returns v (name% "toLower") [.str32 [c]] (.str32 [d]) ∧ d.toNat ≠ lowerOf v c.toNat := by
  simp only [text_iff]
  exact C27_ucs4_violated v c h

theorem C37_text {v w : Version} (hvw : Spec.Version.LE v w) (lang : Lang) (c d : U32)
    (h : Returns v (name% "toLower") [.str32 [c], .ptr8 (langPtr lang)] (.str32 [d])) (hne : d ≠ c) :
    Returns w (name% "toLower") [.str32 [c], .ptr8 (langPtr lang)] (.str32 [d]) := by
  simp only [text_iff] at h ⊢
  exact C37_toLower_char hvw lang c d h hne

theorem C37_text_assigned {v w : Version} (hvw : Spec.Version.LE v w) (r : Spec.Range) {p q : Pred}
    (hp : Built v [⟨.assigned, true⟩] p) (hq : Built w [⟨.assigned, true⟩] q) (s : List U32)
    (h : Returns v (name% "isUcs4") [.str32 s, .range r.code, .pred p] (.bool true)) :
    Returns w (name% "isUcs4") [.str32 s, .range r.code, .pred q] (.bool true) := by
  have hc : Consistent [⟨.assigned, true⟩] := by decide
  rw [(C23_text _ r hp hc).2.2] at h
  rw [(C23_text _ r hq hc).2.2]
  simp only [text_iff] at h ⊢
  refine ⟨?_, fun c hm k hk => ?_⟩
  · refine ok_true_of (isUcs4S_any _ r Pred.none s) ?_
    exact fun c hm => (of_ok_true (isUcs4S_any _ r Pred.none s) h.1 c hm).imp_right fun h => ⟨h.1, rfl⟩
  · have hk' := h.2 c hm k hk
    rw [List.mem_singleton.1 hk] at hk' ⊢
    exact ⟨fun _ => rfl, fun e => Unicode.assigned_stable hvw (hk'.2 e)⟩

/-! ## C35: code pages -/

theorem C35_text (v : Version) {s : List Byte} (hs : NulFree s) (post : List Byte) :
    (∃ r, Returns v (name% "toUtf8") [.ptr8 (some (s ++ 0 :: post)), .page kSrcCP1252] (.str8 r) ∧
      ((∀ b ∈ s, Spec.cpChar Spec.cp1252Upper b ≠ 0) → r = utf8Of (s.map (Spec.cpChar Spec.cp1252Upper))) ∧
      (r = [] ↔ s = [] ∨ ∃ b ∈ s, Spec.cpChar Spec.cp1252Upper b = 0)) ∧
    (∃ r, Returns v (name% "toUtf8") [.ptr8 (some (s ++ 0 :: post)), .page kSrcCP1250] (.str8 r) ∧
      ((∀ b ∈ s, Spec.cpChar Spec.cp1250Upper b ≠ 0) → r = utf8Of (s.map (Spec.cpChar Spec.cp1250Upper))) ∧
      (r = [] ↔ s = [] ∨ ∃ b ∈ s, Spec.cpChar Spec.cp1250Upper b = 0)) ∧
    Returns v (name% "toUtf8") [.ptr8 (some (s ++ 0 :: post)), .page kSrcUnicode] (.str8 s) := by
  simp only [text_iff]
  refine ⟨?_, ?_, C35_unicode hs post⟩
  · obtain ⟨r, h1, h2, _, h3⟩ := C35_cp1252 hs post
    exact ⟨r, h1, h2, h3⟩
  · obtain ⟨r, h1, h2, _, h3⟩ := C35_cp1250 hs post
    exact ⟨r, h1, h2, h3⟩

/-! ## C42: the version -/

theorem C42_text (v : Version) : Returns v (name% "getUnicodeVersionSupported") []
    (.str8 ((digits (Spec.Version.number v) ++ ['.', '0', '.', '0']).map fun c => BitVec.ofNat 8 c.toNat)) := by
  rw [← C42_version]
  exact C67_version v

end Ansak.Props
