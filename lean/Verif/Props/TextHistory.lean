import Verif.Spec.TextHistory
import Verif.Props.TextPredicate
import Verif.Props.Classes
import Verif.Props.Versions

/-!
# C25, C26, C57, C58, C62, C65 for the functions as they are written: predicate objects
-/

namespace Ansak.Props

open Spec (Arg RunsMember Returns Built InClass Cond Class Consistent conditions conditionsOf Step Ran Surrogate)
open Unicode (charClass)

/-! ## C57 -/

theorem step_det {v : Version} {σ σ' : Nat → Pred} {h : Nat → List Cond} (hσ : ∀ z, σ z = predOf (h z)) {s : Stmt}
    (hs : Step v σ s σ') : σ' = fun z => predOf (conditions h s z) := by
  funext z
  cases hs with
  | @declare x p hp =>
    obtain rfl := C67_construct_unique hp (C67_construct v)
    show (if z = x then _ else σ z) = predOf (if z = x then [] else h z)
    split
    · rfl
    · exact hσ z
  | @make x k p hp =>
    obtain rfl : p = start k := Arg.pred.inj (Res.ok.inj (C67_unique hp (first_runs v k)))
    show (if z = x then _ else σ z) = predOf (if z = x then [k] else h z)
    split
    · exact (also_none k).symm
    · exact hσ z
  | @copy x y =>
    show (if z = x then σ y else σ z) = predOf (if z = x then h y else h z)
    split
    · exact hσ y
    · exact hσ z
  | @narrow y k r p hp =>
    obtain rfl := (C67_member_unique hp (further_runs v (σ y) k)).2
    show (if z = y then _ else σ z) = predOf (if z = y then h y ++ [k] else h z)
    split
    · rw [predOf_append, hσ]
    · exact hσ z
  | @derive x y k p q hp =>
    obtain ⟨hq, rfl⟩ := C67_member_unique hp (further_runs v (σ y) k)
    injection hq with hq
    subst hq
    show (if z = x then _ else if z = y then _ else σ z) = predOf (if z = x ∨ z = y then h y ++ [k] else h z)
    by_cases hx : z = x
    · rw [if_pos hx, if_pos (.inl hx), predOf_append, hσ]
    · by_cases hy : z = y
      · rw [if_neg hx, if_pos hy, if_pos (.inr hy), predOf_append, hσ]
      · rw [if_neg hx, if_neg hy, if_neg (fun h => h.elim hx hy), hσ]

theorem step_exists (v : Version) (σ : Nat → Pred) (s : Stmt) : ∃ σ', Step v σ s σ' := by
  cases s with
  | declare x => exact ⟨_, .declare (C67_construct v)⟩
  | make x k => exact ⟨_, .make (first_runs v k)⟩
  | copy x y => exact ⟨_, .copy⟩
  | narrow y k => exact ⟨_, .narrow (further_runs v (σ y) k)⟩
  | derive x y k => exact ⟨_, .derive (further_runs v (σ y) k)⟩

theorem ran_det {v : Version} {ss : List Stmt} {σ : Nat → Pred} (h : Ran v ss σ) :
    σ = fun z => predOf (conditionsOf ss z) := by
  induction h with
  | start h => rw [C67_construct_unique h (C67_construct v)]; rfl
  | @step ss σ σ' s _ hs ih =>
    rw [step_det (fun z => congrFun ih z) hs]
    unfold conditionsOf
    rw [List.foldl_append]
    rfl

/-- Every program runs to its end. -/
theorem C57_text_runs (v : Version) (ss : List Stmt) : ∃ σ, Ran v ss σ ∧ ∀ σ', Ran v ss σ' → σ' = σ := by
  suffices h : ∃ σ, Ran v ss σ from
    h.imp fun σ h => ⟨h, fun σ' h' => (ran_det h').trans (ran_det h).symm⟩
  suffices H : ∀ (ss pre : List Stmt) (σ : Nat → Pred), Ran v pre σ → ∃ σ, Ran v (pre ++ ss) σ from
    H ss [] _ (.start (C67_construct v))
  intro ss
  induction ss with
  | nil => exact fun pre σ h => ⟨σ, by rw [List.append_nil]; exact h⟩
  | cons s ss ih =>
    intro pre σ h
    obtain ⟨σ', hs⟩ := step_exists v σ s
    have := ih (pre ++ [s]) σ' (.step h hs)
    rwa [List.append_assoc] at this

theorem ran_built {v : Version} {ss : List Stmt} {σ : Nat → Pred} (h : Ran v ss σ) (x : Nat) :
    Built v (conditionsOf ss x) (σ x) :=
  (built_iff v _ _).2 (congrFun (ran_det h) x)

/-- After any program a variable is true of exactly the characters that satisfy all the conditions it has collected.
Missing from the full property: conditions that contradict one another, for which see `C57_text_any`. -/
theorem C57_text_partial (v : Version) {ss : List Stmt} {σ : Nat → Pred} (h : Ran v ss σ) (x : Nat)
    (hc : Consistent (conditionsOf ss x)) :
    (∀ c : U32, ∃ b, RunsMember v (name% "operator()") (σ x) [.char32 c] (.bool b) (σ x) ∧
      (b = true ↔ ∀ k ∈ conditionsOf ss x, k.TrueOf v c.toNat)) ∧
    (∀ c : U16, ∃ b, RunsMember v (name% "operator()") (σ x) [.char16 c] (.bool b) (σ x) ∧
      (b = true ↔ ∀ k ∈ conditionsOf ss x, k.TrueOf v c.toNat)) :=
  C24_text_partial v (ran_built h x) hc

/-- Of two conditions that contradict each other the one that asks for the class wins. -/
theorem C57_text_any (v : Version) {ss : List Stmt} {σ : Nat → Pred} (h : Ran v ss σ) (x : Nat) (c : U32) :
    ∃ b, RunsMember v (name% "operator()") (σ x) [.char32 c] (.bool b) (σ x) ∧
      (b = true ↔ ∀ k ∈ conditionsOf ss x, (InClass v k.cls c.toNat ↔ ⟨k.cls, true⟩ ∈ conditionsOf ss x)) := by
  refine ⟨_, C67_apply32 v (σ x) c, ?_⟩
  rw [congrFun (ran_det h) x]
  refine (test_predOf_any (classes32 (charClass v) c.toNat) _).trans (forall_congr' fun k => imp_congr_right fun _ => ?_)
  rw [classes32_iff]

/-- A statement leaves all other variables alone. -/
theorem C57_text_frame {v : Version} {σ σ' : Nat → Pred} {s : Stmt} (h : Step v σ s σ') {z : Nat} (hz : ¬ s.Writes z) :
    σ' z = σ z := by
  cases h with
  | declare => exact if_neg hz
  | make => exact if_neg hz
  | copy => exact if_neg hz
  | narrow => exact if_neg hz
  | derive =>
    have hz := not_or.1 hz
    exact (if_neg hz.1).trans (if_neg hz.2)

/-- `x = y.andIf(X)` narrows `y` as well: afterwards `x == y`. -/
theorem C57_text_receiver {v : Version} {σ σ' : Nat → Pred} {x y : Nat} {k : Cond} (h : Step v σ (.derive x y k) σ') :
    RunsMember v (name% "operator==") (σ' x) [.pred (σ' y)] (.bool true) (σ' x) := by
  have e : σ' x = σ' y := by
    cases h with
    | @derive x y k p q hp =>
      obtain ⟨hq, rfl⟩ := C67_member_unique hp (further_runs v (σ y) k)
      injection hq with hq
      subst hq
      show (if x = x then _ else _) = if y = x then _ else if y = y then _ else _
      rw [if_pos rfl, if_pos rfl, ite_self]
  have he : (σ' x).eq (σ' x) = true := by unfold Pred.eq; simp
  have := C67_equals v (σ' x) (σ' x)
  rw [he] at this
  rw [← e]
  exact this

/-- The program of test/unit/encode_predicate_test.cxx:299-303: the tab is assigned white space, a control code and not
private. -/
example (v : Version) : ∃ σ, Ran v testProgram σ ∧
    RunsMember v (name% "operator()") (σ 2) [.char32 0x9] (.bool true) (σ 2) := by
  obtain ⟨σ, h, _⟩ := C57_text_runs v testProgram
  refine ⟨σ, h, ?_⟩
  obtain ⟨b, h1, h2⟩ := (C57_text_partial v h 2 (by decide)).1 0x9
  have e : b = true := h2.2 fun k hk => by
    have hm : k ∈ ([⟨.assigned, true⟩, ⟨.whiteSpace, true⟩, ⟨.whiteSpace, true⟩, ⟨.control, true⟩,
      ⟨.privateUse, false⟩] : List Cond) := hk
    have ha : InClass v .assigned 0x9 := (classes32_iff v .assigned 0x9).1 (by cases v <;> decide +kernel)
    have hw : InClass v .whiteSpace 0x9 := (classes32_iff v .whiteSpace 0x9).1 (by cases v <;> decide +kernel)
    have hco : InClass v .control 0x9 := (classes32_iff v .control 0x9).1 (by cases v <;> decide +kernel)
    have hp : ¬ InClass v .privateUse 0x9 :=
      (not_congr (classes32_iff v .privateUse 0x9)).1 (by cases v <;> decide +kernel)
    simp only [List.mem_cons, List.not_mem_nil, or_false] at hm
    rcases hm with rfl | rfl | rfl | rfl | rfl
    · exact ⟨fun _ => rfl, fun _ => ha⟩
    · exact ⟨fun _ => rfl, fun _ => hw⟩
    · exact ⟨fun _ => rfl, fun _ => hw⟩
    · exact ⟨fun _ => rfl, fun _ => hco⟩
    · exact ⟨fun h => absurd h hp, fun h => nomatch h⟩
  exact e ▸ h1

/-! ## C58 -/

theorem conditionsOf_narrow (ks : List Cond) : conditionsOf (ks.map (Stmt.narrow 0)) 0 = ks := by
  suffices H : ∀ (ks : List Cond) (h : Nat → List Cond), (ks.map (Stmt.narrow 0)).foldl conditions h 0 = h 0 ++ ks from
    H ks _
  intro ks
  induction ks with
  | nil => exact fun h => (List.append_nil _).symm
  | cons k ks ih =>
    intro h
    refine (ih _).trans ?_
    show (if 0 = 0 then h 0 ++ [k] else h 0) ++ ks = h 0 ++ k :: ks
    rw [if_pos rfl, List.append_assoc]
    rfl

/-- What a validator accepts after `andIf` or `andIfNot` it accepted before. Missing from the full property: a condition
that contradicts an earlier one, see `C58_text_violated`. -/
theorem C58_text_partial (v : Version) (r : Spec.Range) {ks : List Cond} {p q : Pred} {k : Cond} {result : Arg}
    (hp : Built v ks p) (hq : RunsMember v k.further p [.encoding k.cls.code] result q) (hc : Consistent (ks ++ [k])) :
    (∀ s : List Byte, Returns v (name% "isUtf8") [.str8 s, .range r.code, .pred q] (.bool true) →
      Returns v (name% "isUtf8") [.str8 s, .range r.code, .pred p] (.bool true)) ∧
    (∀ s : List U16, Returns v (name% "isUtf16") [.str16 s, .range r.code, .pred q] (.bool true) →
      Returns v (name% "isUtf16") [.str16 s, .range r.code, .pred p] (.bool true)) ∧
    (∀ s : List U16, Returns v (name% "isUcs2") [.str16 s, .range r.code, .pred q] (.bool true) →
      Returns v (name% "isUcs2") [.str16 s, .range r.code, .pred p] (.bool true)) ∧
    (∀ s : List U32, Returns v (name% "isUcs4") [.str32 s, .range r.code, .pred q] (.bool true) →
      Returns v (name% "isUcs4") [.str32 s, .range r.code, .pred p] (.bool true)) := by
  obtain rfl := (C67_member_unique hq (further_runs v p k)).2
  obtain rfl := (built_iff v ks p).1 hp
  simp only [text_iff]
  have := C58_narrows_partial (charClass v) r (ks.map (Stmt.narrow 0)) 0 k
  rw [execAll_spec, conditionsOf_narrow] at this
  exact this hc

/-- `validIfNot(kIsWhitespace).andIf(kIsWhitespace)` accepts a space, `validIfNot(kIsWhitespace)` does not. -/
theorem C58_text_violated (v : Version) : ∃ p q result, Built v [⟨.whiteSpace, false⟩] p ∧
    RunsMember v (name% "andIf") p [.encoding kIsWhitespace] result q ∧
    Returns v (name% "isUcs4") [.str32 [0x20], .range kUcs4, .pred q] (.bool true) ∧
    Returns v (name% "isUcs4") [.str32 [0x20], .range kUcs4, .pred p] (.bool false) := by
  refine ⟨_, _, _, (built_iff v _ _).2 rfl, C67_andIf v _ _, ?_⟩
  simp only [text_iff]
  cases v <;> decide +kernel

example : Consistent ([⟨.assigned, true⟩] ++ [⟨.control, false⟩]) := by decide

/-! ## C25, C26, C62: one class -/

/-- The predicate made by `validIf(X)` is true of the character. -/
def Says (v : Version) (X : Class) (c : U32) (b : Bool) : Prop :=
  ∃ p, Returns v (name% "validIf") [.encoding X.code] (.pred p) ∧
    RunsMember v (name% "operator()") p [.char32 c] (.bool b) p

theorem says_iff {v : Version} {X : Class} {c : U32} {b : Bool} :
    Says v X c b ↔ (Pred.validIf X.code).call32 (charClass v) c.toNat = b := by
  constructor
  · rintro ⟨p, h1, h2⟩
    obtain rfl : p = Pred.validIf X.code := Arg.pred.inj (Res.ok.inj (C67_unique h1 (C67_validIf v X.code)))
    exact (Arg.bool.inj (C67_member_unique h2 (C67_apply32 v _ c)).1).symm
  · rintro rfl
    exact ⟨_, C67_validIf v X.code, C67_apply32 v _ c⟩

theorem C25_text (v : Version) (c : U32) : Says v .assigned c true ↔ Spec.Assigned v c.toNat :=
  says_iff.trans (C25_char32 v c)

theorem C26_text (v : Version) (c : U32) :
    (Says v .privateUse c true ↔ Spec.PrivateUse c.toNat) ∧ (Says v .control c true ↔ Spec.Control c.toNat) ∧
    (Says v .whiteSpace c true ↔ Spec.WhiteSpace c.toNat) :=
  ⟨says_iff.trans (C26_private32 v c), says_iff.trans (C26_control32 v c), says_iff.trans (C26_white32 v c)⟩

theorem C62_text_assigned (v : Version) (c : U32) (h : Says v .assigned c true) :
    c.toNat ≤ 0x10FFFF ∧ ¬ Surrogate c.toNat ∧ Says v .privateUse c false ∧
    c.toNat % 0x10000 < 0xFFFE ∧ ¬ (0xFDD0 ≤ c.toNat ∧ c.toNat ≤ 0xFDEF) := by
  simp only [says_iff] at h ⊢
  exact C62_assigned v c h

theorem C62_text_control_white (v : Version) (c : U32) (h : Says v .control c true ∨ Says v .whiteSpace c true) :
    Says v .assigned c true ∧ Says v .privateUse c false := by
  simp only [says_iff] at h ⊢
  exact C62_control_white v c h

theorem C62_text_both (v : Version) (c : U32) : (Says v .control c true ∧ Says v .whiteSpace c true) ↔
    (0x9 ≤ c.toNat ∧ c.toNat ≤ 0xD) ∨ c.toNat = 0x85 := by
  simp only [says_iff]
  rw [← C62_both v c]
  have h := (C24_conjunction_partial (charClass v) ⟨.control, true⟩ [⟨.whiteSpace, true⟩] (by decide) c.toNat).1
  have hc := (C24_conjunction_partial (charClass v) ⟨.control, true⟩ [] (by decide) c.toNat).1
  have hw := (C24_conjunction_partial (charClass v) ⟨.whiteSpace, true⟩ [] (by decide) c.toNat).1
  simp only [List.forall_mem_cons, List.not_mem_nil, false_imp_iff, implies_true, and_true] at h hc hw
  exact (and_congr hc hw).trans h.symm

example (v : Version) : Says v .assigned 0x41 true ∧ Says v .whiteSpace 0x2003 true := by
  simp only [says_iff]
  cases v <;> decide +kernel

/-! ## C65 -/

/-- What the library accepts when it is built for one version of Unicode, with a predicate that does not ask for
unassigned characters, it accepts when it is built for a later one. -/
theorem C65_text {v w : Version} (hvw : Spec.Version.LE v w) (r : Spec.Range) {ks : List Cond} {p q : Pred}
    (hp : Built v ks p) (hq : Built w ks q) (h : (⟨.assigned, false⟩ : Cond) ∉ ks) :
    (∀ s : List Byte, Returns v (name% "isUtf8") [.str8 s, .range r.code, .pred p] (.bool true) →
      Returns w (name% "isUtf8") [.str8 s, .range r.code, .pred q] (.bool true)) ∧
    (∀ s : List U16, Returns v (name% "isUtf16") [.str16 s, .range r.code, .pred p] (.bool true) →
      Returns w (name% "isUtf16") [.str16 s, .range r.code, .pred q] (.bool true)) ∧
    (∀ s : List U16, Returns v (name% "isUcs2") [.str16 s, .range r.code, .pred p] (.bool true) →
      Returns w (name% "isUcs2") [.str16 s, .range r.code, .pred q] (.bool true)) ∧
    (∀ s : List U32, Returns v (name% "isUcs4") [.str32 s, .range r.code, .pred p] (.bool true) →
      Returns w (name% "isUcs4") [.str32 s, .range r.code, .pred q] (.bool true)) := by
  obtain rfl := (built_iff v ks p).1 hp
  obtain rfl := (built_iff w ks q).1 hq
  simp only [text_iff]
  have := C65_newer hvw r (ks.map (Stmt.narrow 0)) 0
  rw [execAll_spec, conditionsOf_narrow] at this
  exact this h

/-- If the predicate says nothing about assigned characters the version makes no difference. -/
theorem C65_text_same (v w : Version) (r : Spec.Range) {ks : List Cond} {p q : Pred} (hp : Built v ks p)
    (hq : Built w ks q) (h : ∀ b, (⟨.assigned, b⟩ : Cond) ∉ ks) (answer : Bool) :
    (∀ s : List Byte, Returns v (name% "isUtf8") [.str8 s, .range r.code, .pred p] (.bool answer) ↔
      Returns w (name% "isUtf8") [.str8 s, .range r.code, .pred q] (.bool answer)) ∧
    (∀ s : List U16, Returns v (name% "isUtf16") [.str16 s, .range r.code, .pred p] (.bool answer) ↔
      Returns w (name% "isUtf16") [.str16 s, .range r.code, .pred q] (.bool answer)) ∧
    (∀ s : List U16, Returns v (name% "isUcs2") [.str16 s, .range r.code, .pred p] (.bool answer) ↔
      Returns w (name% "isUcs2") [.str16 s, .range r.code, .pred q] (.bool answer)) ∧
    (∀ s : List U32, Returns v (name% "isUcs4") [.str32 s, .range r.code, .pred p] (.bool answer) ↔
      Returns w (name% "isUcs4") [.str32 s, .range r.code, .pred q] (.bool answer)) := by
  obtain rfl := (built_iff v ks p).1 hp
  obtain rfl := (built_iff w ks q).1 hq
  simp only [text_iff]
  have := C65_same v w r (ks.map (Stmt.narrow 0)) 0
  rw [execAll_spec, conditionsOf_narrow] at this
  obtain ⟨h1, h2, h3, h4⟩ := this h
  exact ⟨fun s => by rw [h1], fun s => by rw [h2], fun s => by rw [h3], fun s => by rw [h4]⟩

/-- Every later version accepts a text that the earlier one rejects. -/
theorem C65_text_strict {v w : Version} (hvw : Spec.Version.LE v w) (hne : v ≠ w) {r : Spec.Range} (hr : r ≠ .ascii)
    {p q : Pred} (hp : Returns v (name% "validIf") [.encoding kIsAssigned] (.pred p))
    (hq : Returns w (name% "validIf") [.encoding kIsAssigned] (.pred q)) :
    ∃ c : Nat, Spec.Bmp c ∧
      Returns w (name% "isUtf8") [.str8 (Spec.utf8Of [c]), .range r.code, .pred q] (.bool true) ∧
      Returns v (name% "isUtf8") [.str8 (Spec.utf8Of [c]), .range r.code, .pred p] (.bool false) := by
  obtain rfl : p = Pred.validIf kIsAssigned := Arg.pred.inj (Res.ok.inj (C67_unique hp (C67_validIf v _)))
  obtain rfl : q = Pred.validIf kIsAssigned := Arg.pred.inj (Res.ok.inj (C67_unique hq (C67_validIf w _)))
  simp only [text_iff]
  obtain ⟨c, hb, h, _⟩ := C65_strict hvw hne hr
  exact ⟨c, hb, h⟩

example : (⟨.assigned, false⟩ : Cond) ∉ ([⟨.assigned, true⟩, ⟨.control, false⟩] : List Cond) := by decide

end Ansak.Props
