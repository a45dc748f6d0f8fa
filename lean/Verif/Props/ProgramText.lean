import Verif.Spec.ProgramText
import Verif.Props.Program
import Verif.Props.Text
import Verif.Props.TextMore
import Verif.Props.TextDefined

/-!
# C64: programs that call the text of the library do not depend on the encodings
-/

namespace Ansak.Props

open Ansak.Spec (Scalar Lang Texts textMachine textExec textTest utf8Of utf16Of ucs4Of Arg Runs Changes)

/-! ## The calls -/

theorem runs_iff {α : Type} {v : Version} {name : Nat} {args : List Arg} {f : α → Arg} (hf : ∀ a b, f a = f b → a = b)
    {y : Res α} (h : Runs v name args (y.map f)) (x : Res α) : Runs v name args (x.map f) ↔ y = x := by
  refine ⟨fun hx => ?_, fun e => e ▸ h⟩
  have e := C67_unique h hx
  cases x <;> cases y <;> first | rfl | cases e; done | exact congrArg _ (hf _ _ (Res.ok.inj e))

theorem changes_iff {α : Type} {v : Version} {name : Nat} {s : Arg} {args : List Arg} {f : α → Arg}
    (hf : ∀ a b, f a = f b → a = b) {y : Res α} (h : Changes v name s args (y.map f)) (x : Res α) :
    Changes v name s args (x.map f) ↔ y = x := by
  refine ⟨fun hx => ?_, fun e => e ▸ h⟩
  have e := C67_changes_unique h hx
  cases x <;> cases y <;> first | rfl | cases e; done | exact congrArg _ (hf _ _ (Res.ok.inj e))

theorem called_iff {α β : Type} {call : α → Res β → Prop} {f : α → Res β} {as : List α}
    (h : ∀ a ∈ as, ∀ x, call a x ↔ f a = x) (r : Res (List β)) : Called call as r ↔ onEach f as = r := by
  induction as generalizing r with
  | nil =>
    constructor
    · intro c; cases c; rfl
    · intro e; rw [← e]; exact .nil
  | cons a as ih =>
    have ih := ih fun b hb => h b (List.mem_cons_of_mem _ hb)
    have h := h a List.mem_cons_self
    constructor
    · intro c
      cases c with
      | cons h1 h2 =>
        show (f a).bind _ = _
        rw [(h _).1 h1, ← (ih _).1 h2]; rfl
      | ub h1 =>
        show (f a).bind _ = _
        rw [(h _).1 h1]; rfl
    · intro e
      have e : (f a).bind _ = r := e
      cases ha : f a with
      | ok b =>
        rw [ha] at e
        rw [← e]
        exact .cons ((h _).2 ha) ((ih _).2 rfl)
      | ub =>
        rw [ha] at e
        rw [← e]
        exact .ub ((h _).2 ha)

theorem onEach_ok {α β : Type} (f : α → β) (as : List α) : onEach (fun a => .ok (f a)) as = .ok (as.map f) := by
  induction as with
  | nil => rfl
  | cons a as ih =>
    show (onEach _ as).map _ = _
    rw [ih]; rfl

theorem converted_iff (v : Version) (e : Enc) (a : Vec) (r : Res Vec) : a.Converted v e r ↔ a.to e = r := by
  constructor
  · intro h
    cases h with
    | same8 => rfl
    | same16 => rfl
    | same32 => rfl
    | to8of16 h =>
      rw [called_iff (f := toUtf8From16S) fun s _ => runs_iff (fun _ _ e => Arg.str8.inj e) (C67_toUtf8_S16 v s)] at h
      rw [← h]; rfl
    | to8of32 h =>
      rw [called_iff (f := toUtf8From32S) fun s _ => runs_iff (fun _ _ e => Arg.str8.inj e) (C67_toUtf8_S32 v s)] at h
      rw [← h]; rfl
    | to16of8 h =>
      rw [called_iff (f := toUtf16From8S) fun s _ => runs_iff (fun _ _ e => Arg.str16.inj e) (C67_toUtf16_S8 v s)] at h
      rw [← h]; rfl
    | to16of32 h =>
      rw [called_iff (f := toUtf16From32S) fun s _ => runs_iff (fun _ _ e => Arg.str16.inj e) (C67_toUtf16_S32 v s)] at h
      rw [← h]; rfl
    | to32of8 h =>
      rw [called_iff (f := toUcs4From8S) fun s _ => runs_iff (fun _ _ e => Arg.str32.inj e) (C67_toUcs4_S8 v s)] at h
      rw [← h]; rfl
    | to32of16 h =>
      rw [called_iff (f := toUcs4From16S) fun s _ => runs_iff (fun _ _ e => Arg.str32.inj e) (C67_toUcs4_S16 v s)] at h
      rw [← h]; rfl
  · intro h
    rw [← h]
    cases e <;> cases a
    · exact .same8
    · exact .to8of16 ((called_iff (fun s _ => runs_iff (fun _ _ e => Arg.str8.inj e) (C67_toUtf8_S16 v s)) _).2 rfl)
    · exact .to8of32 ((called_iff (fun s _ => runs_iff (fun _ _ e => Arg.str8.inj e) (C67_toUtf8_S32 v s)) _).2 rfl)
    · exact .to16of8 ((called_iff (fun s _ => runs_iff (fun _ _ e => Arg.str16.inj e) (C67_toUtf16_S8 v s)) _).2 rfl)
    · exact .same16
    · exact .to16of32 ((called_iff (fun s _ => runs_iff (fun _ _ e => Arg.str16.inj e) (C67_toUtf16_S32 v s)) _).2 rfl)
    · exact .to32of8 ((called_iff (fun s _ => runs_iff (fun _ _ e => Arg.str32.inj e) (C67_toUcs4_S8 v s)) _).2 rfl)
    · exact .to32of16 ((called_iff (fun s _ => runs_iff (fun _ _ e => Arg.str32.inj e) (C67_toUcs4_S16 v s)) _).2 rfl)
    · exact .same32

theorem lowered_iff (v : Version) (lang : Ptr Byte) (a : Vec) (r : Res Vec) : a.Lowered v lang r ↔ a.lower v lang = r := by
  constructor
  · intro h
    cases h with
    | v8 h =>
      rw [called_iff (f := (toLower8S v · lang)) fun s _ => runs_iff (fun _ _ e => Arg.str8.inj e) (C67_toLower_S8_lang v s lang)] at h
      rw [← h]; rfl
    | v16 h =>
      rw [called_iff (f := (toLower16S v · lang)) fun s _ =>
        runs_iff (fun _ _ e => Arg.str16.inj e) (C67_toLower_S16_lang v s lang)] at h
      rw [← h]; rfl
    | v32 h =>
      rw [called_iff (f := (toLower32S v · lang)) fun s _ =>
        runs_iff (fun _ _ e => Arg.str32.inj e) (C67_toLower_S32_lang v s lang)] at h
      rw [← h]; rfl
  · intro h
    rw [← h]
    cases a
    · exact .v8 ((called_iff (fun s _ => runs_iff (fun _ _ e => Arg.str8.inj e) (C67_toLower_S8_lang v s lang)) _).2 rfl)
    · exact .v16 ((called_iff (fun s _ => runs_iff (fun _ _ e => Arg.str16.inj e) (C67_toLower_S16_lang v s lang)) _).2 rfl)
    · exact .v32 ((called_iff (fun s _ => runs_iff (fun _ _ e => Arg.str32.inj e) (C67_toLower_S32_lang v s lang)) _).2 rfl)

theorem trimmed_iff (v : Version) {a : Vec} (ha : a.Stored) (r : Res Vec) : a.Trimmed v (name% "trim") r ↔ .ok a.trim = r := by
  constructor
  · intro h
    cases h with
    | v8 h =>
      rw [called_iff (f := fun s => .ok (trim s)) fun s hs =>
        changes_iff (fun _ _ e => Arg.str8.inj e) (y := .ok _) (C67_trim_8 v s (ha s hs))] at h
      rw [← h, onEach_ok]; rfl
    | v16 h =>
      rw [called_iff (f := fun s => .ok (trim s)) fun s hs =>
        changes_iff (fun _ _ e => Arg.str16.inj e) (y := .ok _) (C67_trim_16 v s (ha s hs))] at h
      rw [← h, onEach_ok]; rfl
    | v32 h =>
      rw [called_iff (f := fun s => .ok (trim s)) fun s hs =>
        changes_iff (fun _ _ e => Arg.str32.inj e) (y := .ok _) (C67_trim_32 v s (ha s hs))] at h
      rw [← h, onEach_ok]; rfl
  · intro h
    rw [← h]
    cases a
    · exact .v8 (r := .ok _) ((called_iff (fun s hs =>
        changes_iff (fun _ _ e => Arg.str8.inj e) (y := .ok _) (C67_trim_8 v s (ha s hs))) _).2 (onEach_ok _ _))
    · exact .v16 (r := .ok _) ((called_iff (fun s hs =>
        changes_iff (fun _ _ e => Arg.str16.inj e) (y := .ok _) (C67_trim_16 v s (ha s hs))) _).2 (onEach_ok _ _))
    · exact .v32 (r := .ok _) ((called_iff (fun s hs =>
        changes_iff (fun _ _ e => Arg.str32.inj e) (y := .ok _) (C67_trim_32 v s (ha s hs))) _).2 (onEach_ok _ _))

theorem trimmedWhite_iff (v : Version) {a : Vec} (ha : a.Stored) (r : Res Vec) :
    a.Trimmed v (name% "trimWhiteSpace") r ↔ a.trimWhite = r := by
  constructor
  · intro h
    cases h with
    | v8 h =>
      rw [called_iff (f := trimWhiteSpace8) fun s hs =>
        changes_iff (fun _ _ e => Arg.str8.inj e) (C67_trimWhiteSpace_8 v s (ha s hs))] at h
      rw [← h]; rfl
    | v16 h =>
      rw [called_iff (f := fun s => .ok (trimWhiteSpace16 s)) fun s hs =>
        changes_iff (fun _ _ e => Arg.str16.inj e) (y := .ok _) (C67_trimWhiteSpace_16 v s (ha s hs))] at h
      rw [← h, onEach_ok]; rfl
    | v32 h =>
      rw [called_iff (f := fun s => .ok (trimWhiteSpace32 s)) fun s hs =>
        changes_iff (fun _ _ e => Arg.str32.inj e) (y := .ok _) (C67_trimWhiteSpace_32 v s (ha s hs))] at h
      rw [← h, onEach_ok]; rfl
  · intro h
    rw [← h]
    cases a
    · exact .v8 ((called_iff (fun s hs =>
        changes_iff (fun _ _ e => Arg.str8.inj e) (C67_trimWhiteSpace_8 v s (ha s hs))) _).2 rfl)
    · exact .v16 (r := .ok _) ((called_iff (fun s hs =>
        changes_iff (fun _ _ e => Arg.str16.inj e) (y := .ok _) (C67_trimWhiteSpace_16 v s (ha s hs))) _).2 (onEach_ok _ _))
    · exact .v32 (r := .ok _) ((called_iff (fun s hs =>
        changes_iff (fun _ _ e => Arg.str32.inj e) (y := .ok _) (C67_trimWhiteSpace_32 v s (ha s hs))) _).2 (onEach_ok _ _))

theorem cut_iff (v : Version) (d : Nat) {a : Vec} (ha : a.Stored) (r : Res Vec) : a.Cut v d r ↔ a.split d = r := by
  constructor
  · intro h
    cases h with
    | v8 h =>
      rw [called_iff (f := (split · (BitVec.ofNat 8 d))) fun s hs =>
        runs_iff (fun _ _ e => Arg.vec8.inj e) (C67_split_8 v s _ (ha s hs))] at h
      rw [← h]; rfl
    | v16 h =>
      rw [called_iff (f := (split · (BitVec.ofNat 16 d))) fun s hs =>
        runs_iff (fun _ _ e => Arg.vec16.inj e) (C67_split_16 v s _ (ha s hs))] at h
      rw [← h]; rfl
    | v32 h =>
      rw [called_iff (f := (split · (BitVec.ofNat 32 d))) fun s hs =>
        runs_iff (fun _ _ e => Arg.vec32.inj e) (C67_split_32 v s _ (ha s hs))] at h
      rw [← h]; rfl
  · intro h
    rw [← h]
    cases a
    · exact .v8 ((called_iff (fun s hs => runs_iff (fun _ _ e => Arg.vec8.inj e) (C67_split_8 v s _ (ha s hs))) _).2 rfl)
    · exact .v16 ((called_iff (fun s hs => runs_iff (fun _ _ e => Arg.vec16.inj e) (C67_split_16 v s _ (ha s hs))) _).2 rfl)
    · exact .v32 ((called_iff (fun s hs => runs_iff (fun _ _ e => Arg.vec32.inj e) (C67_split_32 v s _ (ha s hs))) _).2 rfl)

theorem joined_iff (v : Version) (d : Nat) (a : Vec) (r : Res Vec) : a.Joined v d r ↔ a.join d = r := by
  constructor
  · intro h
    cases h with
    | v8 h =>
      rw [runs_iff (fun _ _ e => Arg.str8.inj e) (C67_join_8 v _ _)] at h
      rw [← h]; rfl
    | v16 h =>
      rw [runs_iff (fun _ _ e => Arg.str16.inj e) (C67_join_16 v _ _)] at h
      rw [← h]; rfl
    | v32 h =>
      rw [runs_iff (fun _ _ e => Arg.str32.inj e) (C67_join_32 v _ _)] at h
      rw [← h]; rfl
  · intro h
    rw [← h]
    cases a
    · exact .v8 (C67_join_8 v _ _)
    · exact .v16 (C67_join_16 v _ _)
    · exact .v32 (C67_join_32 v _ _)

theorem fitting_iff (v : Version) (range : Spec.Range) (a : Vec) (r : Res Bool) : a.Fitting v range r ↔ a.fits v range = r := by
  constructor
  · intro h
    cases h with
    | v8 h =>
      rw [called_iff (f := (isUtf8S (Unicode.charClass v) · range.code Pred.none)) fun s _ =>
        runs_iff (fun _ _ e => Arg.bool.inj e) (C67_isUtf8_SR v s _)] at h
      rw [← h]; rfl
    | v16 h =>
      rw [called_iff (f := (isUtf16S (Unicode.charClass v) · range.code Pred.none)) fun s _ =>
        runs_iff (fun _ _ e => Arg.bool.inj e) (C67_isUtf16_SR v s _)] at h
      rw [← h]; rfl
    | v32 h =>
      rw [called_iff (f := (isUcs4S (Unicode.charClass v) · range.code Pred.none)) fun s _ =>
        runs_iff (fun _ _ e => Arg.bool.inj e) (C67_isUcs4_SR v s _)] at h
      rw [← h]; rfl
  · intro h
    rw [← h]
    cases a
    · exact .v8 ((called_iff (fun s _ => runs_iff (fun _ _ e => Arg.bool.inj e) (C67_isUtf8_SR v s _)) _).2 rfl)
    · exact .v16 ((called_iff (fun s _ => runs_iff (fun _ _ e => Arg.bool.inj e) (C67_isUtf16_SR v s _)) _).2 rfl)
    · exact .v32 ((called_iff (fun s _ => runs_iff (fun _ _ e => Arg.bool.inj e) (C67_isUcs4_SR v s _)) _).2 rfl)

theorem onEach_all {α β : Type} (f : α → Res β) (P : β → Bool) (as : List α) :
    (onEach (fun a => (f a).map P) as).map (·.all id) = (onEach f as).map (·.all P) := by
  have : onEach (fun a => (f a).map P) as = (onEach f as).map (·.map P) := by
    induction as with
    | nil => rfl
    | cons a as ih =>
      show ((f a).map P).bind _ = ((f a).bind _).map _
      rw [ih]
      cases f a with
      | ok b => cases onEach f as <;> rfl
      | ub => rfl
  rw [this]
  cases onEach f as with
  | ok bs => exact congrArg Res.ok (List.all_map ..)
  | ub => rfl

theorem counted_iff (v : Version) (n : Nat) (a : Vec) (r : Res Bool) : a.Counted v n r ↔ a.count n = r := by
  constructor
  · intro h
    cases h with
    | v8 h =>
      rw [called_iff (f := unicodeLength8S) fun s _ => runs_iff (fun _ _ e => Arg.uint.inj e) (C67_unicodeLength_S8 v s)] at h
      rw [← h]; exact onEach_all _ _ _
    | v16 h =>
      rw [called_iff (f := unicodeLength16S) fun s _ => runs_iff (fun _ _ e => Arg.uint.inj e) (C67_unicodeLength_S16 v s)] at h
      rw [← h]; exact onEach_all _ _ _
    | v32 h =>
      rw [called_iff (f := unicodeLength32S) fun s _ => runs_iff (fun _ _ e => Arg.uint.inj e) (C67_unicodeLength_S32 v s)] at h
      rw [← h]; exact onEach_all _ _ _
  · intro h
    rw [← h]
    cases a
    · show Vec.Counted v n _ (allTrue _ _)
      rw [allTrue, onEach_all]
      exact .v8 ((called_iff (fun s _ => runs_iff (fun _ _ e => Arg.uint.inj e) (C67_unicodeLength_S8 v s)) _).2 rfl)
    · show Vec.Counted v n _ (allTrue _ _)
      rw [allTrue, onEach_all]
      exact .v16 ((called_iff (fun s _ => runs_iff (fun _ _ e => Arg.uint.inj e) (C67_unicodeLength_S16 v s)) _).2 rfl)
    · show Vec.Counted v n _ (allTrue _ _)
      rw [allTrue, onEach_all]
      exact .v32 ((called_iff (fun s _ => runs_iff (fun _ _ e => Arg.uint.inj e) (C67_unicodeLength_S32 v s)) _).2 rfl)

/-! ## Statements and conditions -/

theorem executed_iff (v : Version) (o : Op) {σ : Strings} (hσ : σ.Stored) (r : Res Strings) :
    σ.Executed v o r ↔ libraryExec v o σ = r := by
  constructor
  · intro h
    cases h with
    | literal => rfl
    | copy => rfl
    | convert h => rw [← (converted_iff ..).1 h]; rfl
    | lower h => rw [← (lowered_iff ..).1 h]; rfl
    | trim h => rw [← (trimmed_iff v (hσ _) _).1 h]; rfl
    | trimWhite h => rw [← (trimmedWhite_iff v (hσ _) _).1 h]; rfl
    | split h => rw [← (cut_iff v _ (hσ _) _).1 h]; rfl
    | join h => rw [← (joined_iff ..).1 h]; rfl
    | glue => rfl
    | concat h => rw [← (converted_iff ..).1 h]; rfl
    | pick => rfl
  · intro h
    rw [← h]
    cases o
    · exact .literal ..
    · exact .copy ..
    · exact .convert ((converted_iff ..).2 rfl)
    · exact .lower ((lowered_iff ..).2 rfl)
    · exact .trim (r := .ok _) ((trimmed_iff v (hσ _) _).2 rfl)
    · exact .trimWhite ((trimmedWhite_iff v (hσ _) _).2 rfl)
    · exact .split ((cut_iff v _ (hσ _) _).2 rfl)
    · exact .join ((joined_iff ..).2 rfl)
    · exact .glue ..
    · exact .concat ((converted_iff ..).2 rfl)
    · exact .pick ..

theorem tested_iff (v : Version) (t : Test) (σ : Strings) (r : Res Bool) : σ.Tested v t r ↔ libraryTest v t σ = r := by
  constructor
  · intro h
    cases h with
    | same h => rw [← (converted_iff ..).1 h]; rfl
    | fits h => exact (fitting_iff ..).1 h
    | count h => exact (counted_iff ..).1 h
    | size => rfl
  · intro h
    rw [← h]
    cases t
    · exact .same ((converted_iff ..).2 rfl)
    · exact .fits ((fitting_iff ..).2 rfl)
    · exact .count ((counted_iff ..).2 rfl)
    · exact .size ..

/-! ## Programs -/

theorem leads_unique {σ : Type} {exec : Op → σ → Res σ → Prop} {test : Test → σ → Res Bool → Prop} {I : σ → Prop}
    (h1 : ∀ o s r r', I s → exec o s r → exec o s r' → r = r') (h2 : ∀ o s s', I s → exec o s (.ok s') → I s')
    (h3 : ∀ t s r r', test t s r → test t s r' → r = r') {p : Prog} {s : σ} {r : Res σ} (h : p.Leads exec test s r) (hs : I s) :
    (∀ s', r = .ok s' → I s') ∧ ∀ {r'}, p.Leads exec test s r' → r = r' := by
  induction h with
  | op ho =>
    refine ⟨fun s' e => h2 _ _ _ hs (e ▸ ho), fun h' => ?_⟩
    cases h' with
    | op ho' => exact h1 _ _ _ _ hs ho ho'
  | seq _ _ ih ih' =>
    obtain ⟨i1, i2⟩ := ih hs
    obtain ⟨j1, j2⟩ := ih' (i1 _ rfl)
    refine ⟨j1, fun h' => ?_⟩
    cases h' with
    | seq a b => cases i2 a; exact j2 b
    | seqUb a => cases i2 a
  | seqUb _ ih =>
    refine ⟨(fun _ e => nomatch e), fun h' => ?_⟩
    cases h' with
    | seq a b => cases (ih hs).2 a
    | seqUb a => rfl
  | yes ht _ ih =>
    refine ⟨(ih hs).1, fun h' => ?_⟩
    cases h' with
    | yes a b => exact (ih hs).2 b
    | no a b => cases h3 _ _ _ _ ht a
    | iteUb a => cases h3 _ _ _ _ ht a
  | no ht _ ih =>
    refine ⟨(ih hs).1, fun h' => ?_⟩
    cases h' with
    | yes a b => cases h3 _ _ _ _ ht a
    | no a b => exact (ih hs).2 b
    | iteUb a => cases h3 _ _ _ _ ht a
  | iteUb ht =>
    refine ⟨(fun _ e => nomatch e), fun h' => ?_⟩
    cases h' with
    | yes a b => cases h3 _ _ _ _ ht a
    | no a b => cases h3 _ _ _ _ ht a
    | iteUb a => rfl
  | stop ht =>
    refine ⟨fun s' e => Res.ok.inj e ▸ hs, fun h' => ?_⟩
    cases h' with
    | stop a => rfl
    | round a _ _ => cases h3 _ _ _ _ ht a
    | roundUb a _ => cases h3 _ _ _ _ ht a
    | loopUb a => cases h3 _ _ _ _ ht a
  | round ht _ _ ih ih' =>
    obtain ⟨i1, i2⟩ := ih hs
    obtain ⟨j1, j2⟩ := ih' (i1 _ rfl)
    refine ⟨j1, fun h' => ?_⟩
    cases h' with
    | stop a => cases h3 _ _ _ _ ht a
    | round a b c => cases i2 b; exact j2 c
    | roundUb a b => cases i2 b
    | loopUb a => cases h3 _ _ _ _ ht a
  | roundUb ht _ ih =>
    refine ⟨(fun _ e => nomatch e), fun h' => ?_⟩
    cases h' with
    | stop a => cases h3 _ _ _ _ ht a
    | round a b c => cases (ih hs).2 b
    | roundUb a b => rfl
    | loopUb a => rfl
  | loopUb ht =>
    refine ⟨(fun _ e => nomatch e), fun h' => ?_⟩
    cases h' with
    | stop a => cases h3 _ _ _ _ ht a
    | round a b c => cases h3 _ _ _ _ ht a
    | roundUb a b => rfl
    | loopUb a => rfl

theorem leadsTo_unique {v : Version} {p : Prog} {σ : Strings} (hσ : σ.Stored) {q q' : Res Strings} (h : LeadsTo v p σ q)
    (h' : LeadsTo v p σ q') : q = q' :=
by
  unfold LeadsTo at h h'
  refine (leads_unique (I := Strings.Stored) ?_ ?_ ?_ h hσ).2 h'
  · exact fun o s r r' hs a b => ((executed_iff v o hs r).1 a.1).symm.trans ((executed_iff v o hs r').1 b.1)
  · exact fun _ _ _ _ a => a.2 _ rfl
  · exact fun t s r r' a b => ((tested_iff v t s r).1 a).symm.trans ((tested_iff v t s r').1 b)

theorem leadsTextsTo_unique {low : Lang → Nat → Nat} {P : List Nat → Prop} {p : Prog} {τ : Texts} {r r' : Res Texts}
    (h : LeadsTextsTo low P p τ r) (h' : LeadsTextsTo low P p τ r') : r = r' :=
  (leads_unique (I := fun _ => True) (fun _ _ _ _ _ a b => a.1.symm.trans b.1) (fun _ _ _ _ _ => trivial)
    (fun _ _ _ _ a b => a.symm.trans b) h trivial).2 h'

theorem textExec_plain (low : Lang → Nat → Nat) (o : Op) (τ : Texts) : textExec low o.plain τ = textExec low o τ := by
  cases o <;> try rfl
  rename_i x _
  show Res.ok (τ.set x (τ x)) = .ok τ
  refine congrArg _ (funext fun y => ?_)
  unfold Texts.set
  by_cases e : y = x
  · rw [if_pos e, e]
  · rw [if_neg e]

theorem leadsTexts_plain {low : Lang → Nat → Nat} {P : List Nat → Prop} {p : Prog} {τ : Texts} {r : Res Texts}
    (h : LeadsTextsTo low P p τ r) (q : Prog) (hq : p.plain = q.plain) : LeadsTextsTo low P q τ r := by
  unfold LeadsTextsTo at h ⊢
  induction h generalizing q with
  | op ho =>
    cases q <;> try (cases hq; done)
    refine .op ⟨?_, ho.2⟩
    rw [← textExec_plain, ← (Prog.op.inj hq), textExec_plain]
    exact ho.1
  | seq _ _ ih ih' =>
    cases q <;> try (cases hq; done)
    exact .seq (ih _ (Prog.seq.inj hq).1) (ih' _ (Prog.seq.inj hq).2)
  | seqUb _ ih =>
    cases q <;> try (cases hq; done)
    exact .seqUb (ih _ (Prog.seq.inj hq).1)
  | yes ht _ ih =>
    cases q <;> try (cases hq; done)
    obtain ⟨e1, e2, e3⟩ := Prog.ite.inj hq
    exact .yes (e1 ▸ ht) (ih _ e2)
  | no ht _ ih =>
    cases q <;> try (cases hq; done)
    obtain ⟨e1, e2, e3⟩ := Prog.ite.inj hq
    exact .no (e1 ▸ ht) (ih _ e3)
  | iteUb ht => cases ht
  | stop ht =>
    cases q <;> try (cases hq; done)
    exact .stop ((Prog.loop.inj hq).1 ▸ ht)
  | round ht _ _ ih ih' =>
    cases q <;> try (cases hq; done)
    exact .round ((Prog.loop.inj hq).1 ▸ ht) (ih _ (Prog.loop.inj hq).2) (ih' _ hq)
  | roundUb ht _ ih =>
    cases q <;> try (cases hq; done)
    exact .roundUb ((Prog.loop.inj hq).1 ▸ ht) (ih _ (Prog.loop.inj hq).2)
  | loopUb ht => cases ht

/-! ## Lengths -/

theorem length_flatMap_le {β : Type} {f : Nat → List β} {k : Nat} (hf : ∀ c, (f c).length ≤ k) (t : List Nat) :
    (t.flatMap f).length ≤ k * t.length := by
  induction t with
  | nil => exact Nat.zero_le _
  | cons c t ih =>
    rw [List.flatMap_cons, List.length_append, List.length_cons, Nat.mul_succ]
    have := hf c
    omega

theorem holds_stored {a : Vec} {ts : List (List Nat)} (h : a.Holds ts) (hs : ∀ t ∈ ts, Short t) : a.Stored := by
  cases a with
  | v8 ss =>
    intro s hm
    rw [h.1] at hm
    obtain ⟨t, ht, rfl⟩ := List.mem_map.1 hm
    have h1 := hs t ht
    have h2 : (utf8Of t).length ≤ 6 * t.length := length_flatMap_le (fun c => by
      rw [Spec.utf8, List.length_map]
      unfold Spec.utf8Values
      repeat' split
      all_goals simp only [List.length_cons, List.length_nil]; decide) t
    unfold Short at h1
    omega
  | v16 ss =>
    intro s hm
    rw [h.1] at hm
    obtain ⟨t, ht, rfl⟩ := List.mem_map.1 hm
    have h1 := hs t ht
    have h2 : (utf16Of t).length ≤ 2 * t.length := length_flatMap_le (fun c => by
      unfold Spec.utf16
      split <;> (simp only [List.length_cons, List.length_nil]; decide)) t
    unfold Short at h1
    omega
  | v32 ss =>
    intro s hm
    rw [h.1] at hm
    obtain ⟨t, ht, rfl⟩ := List.mem_map.1 hm
    have h1 := hs t ht
    have h2 : (ucs4Of t).length = t.length := List.length_map ..
    unfold Short at h1
    omega

/-! ## Runs on texts and on strings -/

theorem leads_forward {v : Version} {low : Lang → Nat → Nat}
    (hlow : ∀ lang x, x ≤ 0xFFFFFFFF → low lang x = lowerNat v (turkicLang lang) x) {p : Prog} {τ : Texts} {r : Res Texts}
    (h : LeadsTextsTo low Short p τ r) (hp : p.Good) {σ : Strings} (hσ : σ.Holds τ) (hs : σ.Stored) :
    ∃ q, LeadsTo v p σ q ∧ Matches q r ∧ ∀ σ', q = .ok σ' → σ'.Stored := by
  unfold LeadsTextsTo at h
  unfold LeadsTo
  induction h generalizing σ with
  | @op o τ r ho =>
    have f := exec_follows hlow hp hσ
    rw [ho.1] at f
    cases r with
    | ok τ' =>
      obtain ⟨σ', f1, f2⟩ := f
      have hst : σ'.Stored := fun x => holds_stored (f2 x) (ho.2 _ rfl x)
      exact ⟨.ok σ', .op ⟨(executed_iff v o hs _).2 f1, fun _ e => Res.ok.inj e ▸ hst⟩, f2, fun _ e => Res.ok.inj e ▸ hst⟩
    | ub => exact ⟨.ub, .op ⟨(executed_iff v o hs _).2 f, fun _ e => nomatch e⟩, trivial, fun _ e => nomatch e⟩
  | seq _ _ ih ih' =>
    obtain ⟨q, a1, a2, a3⟩ := ih hp.1 hσ hs
    cases q with
    | ub => exact a2.elim
    | ok σ' =>
      obtain ⟨q', b1, b2, b3⟩ := ih' hp.2 a2 (a3 _ rfl)
      exact ⟨q', .seq a1 b1, b2, b3⟩
  | seqUb _ ih =>
    obtain ⟨q, a1, a2, a3⟩ := ih hp.1 hσ hs
    cases q with
    | ub => exact ⟨.ub, .seqUb a1, trivial, fun _ e => nomatch e⟩
    | ok σ' => exact a2.elim
  | yes ht _ ih =>
    obtain ⟨q, a1, a2, a3⟩ := ih hp.1 hσ hs
    exact ⟨q, .yes ((tested_iff ..).2 ((test_follows v _ hσ).trans ht)) a1, a2, a3⟩
  | no ht _ ih =>
    obtain ⟨q, a1, a2, a3⟩ := ih hp.2 hσ hs
    exact ⟨q, .no ((tested_iff ..).2 ((test_follows v _ hσ).trans ht)) a1, a2, a3⟩
  | iteUb ht => cases ht
  | stop ht =>
    exact ⟨.ok σ, .stop ((tested_iff ..).2 ((test_follows v _ hσ).trans ht)), hσ, fun _ e => Res.ok.inj e ▸ hs⟩
  | round ht _ _ ih ih' =>
    obtain ⟨q, a1, a2, a3⟩ := ih hp hσ hs
    cases q with
    | ub => exact a2.elim
    | ok σ' =>
      obtain ⟨q', b1, b2, b3⟩ := ih' hp a2 (a3 _ rfl)
      exact ⟨q', .round ((tested_iff ..).2 ((test_follows v _ hσ).trans ht)) a1 b1, b2, b3⟩
  | roundUb ht _ ih =>
    obtain ⟨q, a1, a2, a3⟩ := ih hp hσ hs
    cases q with
    | ub => exact ⟨.ub, .roundUb ((tested_iff ..).2 ((test_follows v _ hσ).trans ht)) a1, trivial, fun _ e => nomatch e⟩
    | ok σ' => exact a2.elim
  | loopUb ht => cases ht

theorem leads_back {v : Version} {low : Lang → Nat → Nat}
    (hlow : ∀ lang x, x ≤ 0xFFFFFFFF → low lang x = lowerNat v (turkicLang lang) x) {p : Prog} {σ : Strings} {q : Res Strings}
    (h : LeadsTo v p σ q) (hp : p.Good) (hs : σ.Stored) {τ : Texts} (hσ : σ.Holds τ) :
    ∃ r, LeadsTextsTo low (fun _ => True) p τ r ∧ Matches q r ∧ ∀ σ', q = .ok σ' → σ'.Stored := by
  unfold LeadsTo at h
  unfold LeadsTextsTo
  induction h generalizing τ with
  | @op o σ q ho =>
    have f := exec_follows hlow hp hσ
    have e := (executed_iff v o hs q).1 ho.1
    cases hr : textExec low o τ with
    | ok τ' =>
      rw [hr] at f
      obtain ⟨σ', f1, f2⟩ := f
      cases f1.symm.trans e
      exact ⟨.ok τ', .op ⟨hr, fun _ _ _ _ _ => trivial⟩, f2, ho.2⟩
    | ub =>
      rw [hr] at f
      cases f.symm.trans e
      exact ⟨.ub, .op ⟨hr, fun _ _ _ _ _ => trivial⟩, trivial, fun _ e => nomatch e⟩
  | seq _ _ ih ih' =>
    obtain ⟨q, a1, a2, a3⟩ := ih hp.1 hs hσ
    cases q with
    | ub => exact a2.elim
    | ok σ' =>
      obtain ⟨q', b1, b2, b3⟩ := ih' hp.2 (a3 _ rfl) a2
      exact ⟨q', .seq a1 b1, b2, b3⟩
  | seqUb _ ih =>
    obtain ⟨q, a1, a2, a3⟩ := ih hp.1 hs hσ
    cases q with
    | ub => exact ⟨.ub, .seqUb a1, trivial, fun _ e => nomatch e⟩
    | ok σ' => exact a2.elim
  | yes ht _ ih =>
    obtain ⟨q, a1, a2, a3⟩ := ih hp.1 hs hσ
    exact ⟨q, .yes ((test_follows v _ hσ).symm.trans ((tested_iff ..).1 ht)) a1, a2, a3⟩
  | no ht _ ih =>
    obtain ⟨q, a1, a2, a3⟩ := ih hp.2 hs hσ
    exact ⟨q, .no ((test_follows v _ hσ).symm.trans ((tested_iff ..).1 ht)) a1, a2, a3⟩
  | iteUb ht => cases (test_follows v _ hσ).symm.trans ((tested_iff ..).1 ht)
  | stop ht =>
    exact ⟨.ok τ, .stop ((test_follows v _ hσ).symm.trans ((tested_iff ..).1 ht)), hσ, fun _ e => Res.ok.inj e ▸ hs⟩
  | round ht _ _ ih ih' =>
    obtain ⟨q, a1, a2, a3⟩ := ih hp hs hσ
    cases q with
    | ub => exact a2.elim
    | ok σ' =>
      obtain ⟨q', b1, b2, b3⟩ := ih' hp (a3 _ rfl) a2
      exact ⟨q', .round ((test_follows v _ hσ).symm.trans ((tested_iff ..).1 ht)) a1 b1, b2, b3⟩
  | roundUb ht _ ih =>
    obtain ⟨q, a1, a2, a3⟩ := ih hp hs hσ
    cases q with
    | ub => exact ⟨.ub, .roundUb ((test_follows v _ hσ).symm.trans ((tested_iff ..).1 ht)) a1, trivial, fun _ e => nomatch e⟩
    | ok σ' => exact a2.elim
  | loopUb ht => cases (test_follows v _ hσ).symm.trans ((tested_iff ..).1 ht)

theorem lowerOfText {v : Version} {low : Lang → Nat → Nat} (h : LowerOfText v low) : LowerOf v low := fun lang c => by
  obtain ⟨d, h1, h2⟩ := h lang c
  exact ⟨d, (runs_iff (fun _ _ e => Arg.str32.inj e) (C67_toLower_S32_lang v [c] (langPtr lang)) (.ok [d])).1 h1, h2⟩

/-! ## The theorems -/

/-- There is a lower-case mapping that agrees with the text of the library. -/
theorem C64_text_lower (v : Version) : ∃ low, LowerOfText v low :=
  ⟨_, fun lang c => by
    obtain ⟨d, h1, h2⟩ := lowerOf_exists v lang c
    exact ⟨d, (runs_iff (fun _ _ e => Arg.str32.inj e) (C67_toLower_S32_lang v [c] (langPtr lang)) (.ok [d])).2 h1, h2⟩⟩

/-- A program that handles text through the text of the library does what it would do on lists of characters, as long as these
have fewer than 2^61 characters: if it ends there, it ends with strings that are the texts, each in the encoding of its variable; if
it is undefined there (2^31 delimiters in a text that is split, C31), it is undefined; and it does nothing else. -/
theorem C64_text_runs (v : Version) {low : Lang → Nat → Nat} (hlow : LowerOfText v low) {p : Prog} (hp : p.Good) {τ : Texts}
    {r : Res Texts} (h : LeadsTextsTo low Short p τ r) (hτ : ∀ x, ∀ t ∈ τ x, Short t) {σ : Strings} (hσ : σ.Holds τ) :
    (∃ q, LeadsTo v p σ q) ∧ ∀ q, LeadsTo v p σ q → Matches q r := by
  have hs : σ.Stored := fun x => holds_stored (hσ x) (hτ x)
  obtain ⟨q, h1, h2, _⟩ := leads_forward (lowerOf_eq (lowerOfText hlow)) h hp hσ hs
  exact ⟨⟨q, h1⟩, fun q' h' => leadsTo_unique hs h1 h' ▸ h2⟩

/-- Whatever a program that calls the text of the library does, it does on lists of characters. -/
theorem C64_text_only (v : Version) {low : Lang → Nat → Nat} (hlow : LowerOfText v low) {p : Prog} (hp : p.Good) {σ : Strings}
    {q : Res Strings} (h : LeadsTo v p σ q) (hs : σ.Stored) {τ : Texts} (hσ : σ.Holds τ) :
    ∃ r, LeadsTextsTo low (fun _ => True) p τ r ∧ Matches q r := by
  obtain ⟨r, h1, h2, _⟩ := leads_back (lowerOf_eq (lowerOfText hlow)) h hp hs hσ
  exact ⟨r, h1, h2⟩

/-- Two programs that differ only in the encodings of their literals and in what they convert to, started with the same texts in
whatever encodings, do the same: both are undefined, or both end with the same texts. -/
theorem C64_text_encodings (v : Version) {p p' : Prog} (hp : p.Good) (hpp : p.plain = p'.plain) {σ σ' : Strings}
    (hσ : SameTexts σ σ') (hs : σ.Stored) (hs' : σ'.Stored) {q q' : Res Strings} (h : LeadsTo v p σ q) (h' : LeadsTo v p' σ' q') :
    (q = .ub ∧ q' = .ub) ∨ ∃ ρ ρ', q = .ok ρ ∧ q' = .ok ρ' ∧ SameTexts ρ ρ' := by
  obtain ⟨low, hlow⟩ := C64_text_lower v
  obtain ⟨τ, t1, t2⟩ := hσ
  obtain ⟨r, a1, a2⟩ := C64_text_only v hlow hp h hs t1
  obtain ⟨r', b1, b2⟩ := C64_text_only v hlow ((plain_good p').1 (hpp ▸ (plain_good p).2 hp)) h' hs' t2
  cases leadsTextsTo_unique (leadsTexts_plain a1 p' hpp) b1
  cases r with
  | ub => cases q <;> cases q' <;> first | exact a2.elim | exact b2.elim | exact .inl ⟨rfl, rfl⟩
  | ok τ' =>
    cases q <;> cases q' <;> first | exact a2.elim | exact b2.elim | exact .inr ⟨_, _, rfl, rfl, _, a2, b2⟩

/-- And if one of them gets to an end with texts of fewer than 2^61 characters, so does the other. -/
theorem C64_text_both (v : Version) {low : Lang → Nat → Nat} (hlow : LowerOfText v low) {p p' : Prog} (hp : p.Good)
    (hpp : p.plain = p'.plain) {τ : Texts} {r : Res Texts} (h : LeadsTextsTo low Short p τ r) (hτ : ∀ x, ∀ t ∈ τ x, Short t)
    {σ σ' : Strings} (hσ : σ.Holds τ) (hσ' : σ'.Holds τ) : (∃ q, LeadsTo v p σ q) ∧ ∃ q', LeadsTo v p' σ' q' :=
  ⟨(C64_text_runs v hlow hp h hτ hσ).1,
    (C64_text_runs v hlow ((plain_good p').1 (hpp ▸ (plain_good p).2 hp)) (leadsTexts_plain h p' hpp) hτ hσ').1⟩

theorem short_set {τ : Texts} (h : ∀ x, ∀ t ∈ τ x, Short t) (x : Nat) {ts : List (List Nat)} (hs : ∀ t ∈ ts, Short t) (y : Nat) :
    ∀ t ∈ τ.set x ts y, Short t := by
  unfold Texts.set
  by_cases e : y = x
  · rw [if_pos e]; exact hs
  · rw [if_neg e]; exact h y

/-- The lower-case mapping of Unicode 16. -/
def low16 : Lang → Nat → Nat := fun lang x => lowerNat .v16 (turkicLang lang) x

theorem sample_step {o : Op} {τ : Texts} {x : Nat} {ts : List (List Nat)} (h : ∀ x, ∀ t ∈ τ x, Short t)
    (he : textExec low16 o τ = .ok (τ.set x ts)) (hs : ∀ t ∈ ts, Short t) :
    LeadsTextsTo low16 Short (.op o) τ (.ok (τ.set x ts)) ∧ ∀ y, ∀ t ∈ τ.set x ts y, Short t :=
  ⟨.op ⟨he, fun _ e => Res.ok.inj e ▸ short_set h x hs⟩, short_set h x hs⟩

/-- " Ä,😀 ,A" becomes "ä-😀-a". -/
theorem sample_leads (e : Enc) : ∃ τ, LeadsTextsTo low16 Short (sample e) (fun _ => []) (.ok τ) ∧
    τ 1 = [[0xE4, 0x2D, 0x1F600, 0x2D, 0x61]] := by
  obtain ⟨a1, s1⟩ := sample_step (o := .literal 0 e [0x20, 0xC4, 0x2C, 0x1F600, 0x20, 0x2C, 0x41]) (τ := fun _ => []) (x := 0)
    (fun _ _ h => nomatch h) rfl (by decide)
  obtain ⟨a2, s2⟩ := sample_step (o := .split 0 0x2C) (x := 0) (ts := [[0x20, 0xC4], [0x1F600, 0x20], [0x41]]) s1
    (by
      rw [textExec, if_pos (by decide +kernel)]
      exact congrArg (fun ts => Res.ok (Texts.set _ 0 ts)) (by decide +kernel)) (by decide)
  have a3 : LeadsTextsTo low16 Short (.op (.convert 0 .utf8)) _ (.ok _) := .op ⟨rfl, fun _ e => Res.ok.inj e ▸ s2⟩
  obtain ⟨a4, s4⟩ := sample_step (o := .lower 0 none) (x := 0) (ts := [[0x20, 0xE4], [0x1F600, 0x20], [0x61]]) s2
    (congrArg (fun ts => Res.ok (Texts.set _ 0 ts)) (by decide +kernel)) (by decide)
  obtain ⟨a5, s5⟩ := sample_step (o := .trim 0) (x := 0) (ts := [[0xE4], [0x1F600], [0x61]]) s4
    (congrArg (fun ts => Res.ok (Texts.set _ 0 ts)) (by decide +kernel)) (by decide)
  obtain ⟨a6, s6⟩ := sample_step (o := .concat 1 0) (x := 1) (ts := [[0xE4], [0x1F600], [0x61]]) s5
    (congrArg (fun ts => Res.ok (Texts.set _ 1 ts)) (by decide +kernel)) (by decide)
  obtain ⟨a7, _⟩ := sample_step (o := .join 1 0x2D) (x := 1) (ts := [[0xE4, 0x2D, 0x1F600, 0x2D, 0x61]]) s6
    (congrArg (fun ts => Res.ok (Texts.set _ 1 ts)) (by decide +kernel)) (by decide)
  exact ⟨_, .seq a1 <| .seq a2 <| .seq a3 <| .seq a4 <| .seq a5 <|
    .seq (.round (congrArg Res.ok (by decide +kernel)) a6 (.stop (congrArg Res.ok (by decide +kernel)))) <|
    .yes (congrArg Res.ok (by decide +kernel)) a7, by decide +kernel⟩

/-- The programs with UTF-16 and with UCS-4 run through the text of the library, from empty variables, and end with "ä-😀-a" in
the encodings they chose. -/
example : ∃ τ : Texts, τ 1 = [[0xE4, 0x2D, 0x1F600, 0x2D, 0x61]] ∧
    (∃ σ, LeadsTo .v16 (sample .utf16) (fun _ => .v8 []) (.ok σ) ∧ σ.Holds τ) ∧
    ∃ σ, LeadsTo .v16 (sample .ucs4) (fun _ => .v32 []) (.ok σ) ∧ σ.Holds τ := by
  have hlow : LowerOfText .v16 low16 := fun lang c => by
    obtain ⟨d, h1, h2⟩ := lowerOf_exists .v16 lang c
    exact ⟨d, (runs_iff (fun _ _ e => Arg.str32.inj e) (C67_toLower_S32_lang .v16 [c] (langPtr lang)) (.ok [d])).2 h1, h2⟩
  have hg : ∀ e, (sample e).Good := fun e => by
    simp only [sample, Prog.Good, Op.Good]
    decide
  obtain ⟨τ, h1, h2⟩ := sample_leads .utf16
  have key : ∀ e σ, (sample .utf16).plain = (sample e).plain → Strings.Holds σ (fun _ => []) →
      ∃ σ', LeadsTo .v16 (sample e) σ (.ok σ') ∧ σ'.Holds τ := fun e σ he hσ => by
    obtain ⟨⟨q, a1⟩, a2⟩ := C64_text_runs .v16 hlow (hg e) (leadsTexts_plain h1 _ he) (fun _ _ h => nomatch h) hσ
    have a2 := a2 q a1
    cases q with
    | ub => exact a2.elim
    | ok σ' => exact ⟨σ', a1, a2⟩
  exact ⟨τ, h2, key .utf16 _ rfl fun _ => ⟨rfl, fun _ h => nomatch h⟩, key .ucs4 _ rfl fun _ => ⟨rfl, fun _ h => nomatch h⟩⟩

end Ansak.Props
