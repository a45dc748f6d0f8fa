import Verif.Lemmas.Program

/-!
# C64: programs that handle text do not depend on the encodings
-/

namespace Ansak.Props

open Ansak.Spec (Scalar Lang Texts textMachine textExec textTest strip cutAll utf8Of utf16Of ucs4Of)

theorem holds_set {σ : Strings} {τ : Texts} (h : σ.Holds τ) (x : Nat) {a : Vec} {ts : List (List Nat)}
    (ha : a.Holds ts) : (σ.set x a).Holds (τ.set x ts) := by
  intro y
  unfold Strings.set Texts.set
  by_cases e : y = x
  · rw [if_pos e, if_pos e]; exact ha
  · rw [if_neg e, if_neg e]; exact h y

/-- One statement. -/
theorem exec_follows {v : Version} {low : Lang → Nat → Nat}
    (hlow : ∀ lang x, x ≤ 0xFFFFFFFF → low lang x = lowerNat v (turkicLang lang) x) {o : Op} (ho : o.Good)
    {σ : Strings} {τ : Texts} (h : σ.Holds τ) :
    match textExec low o τ with
    | .ok τ' => ∃ σ', libraryExec v o σ = .ok σ' ∧ σ'.Holds τ'
    | .ub => libraryExec v o σ = .ub := by
  have hx : ∀ x, σ x = Vec.of (τ x) (σ x).enc ∧ Scalars (τ x) := fun x => holds_iff.1 (h x)
  cases o with
  | literal x e t =>
    refine ⟨_, rfl, holds_set h x ?_⟩
    have : Vec.literal t e = Vec.of [t] e := by cases e <;> rfl
    rw [this]
    exact of_holds (by intro u hu; rw [List.mem_singleton.1 hu]; exact ho) e
  | copy x y => exact ⟨_, rfl, holds_set h x (h y)⟩
  | convert x e =>
    refine ⟨σ.set x (Vec.of (τ x) e), ?_, ?_⟩
    · show ((σ x).to e).map _ = _
      rw [(hx x).1, to_of (hx x).2]; rfl
    · have := holds_set h x (of_holds (hx x).2 e)
      have e : τ.set x (τ x) = τ := by
        funext y
        unfold Texts.set
        by_cases e : y = x
        · rw [if_pos e, e]
        · rw [if_neg e]
      rwa [e] at this
  | lower x lang =>
    have e : (τ x).map (List.map (low lang)) = (τ x).map (List.map (lowerNat v (turkicLang lang))) :=
      List.map_congr_left fun t ht => List.map_congr_left fun c hc =>
        hlow lang c (by have := (hx x).2 t ht c hc; unfold Scalar at this; omega)
    refine ⟨σ.set x (Vec.of ((τ x).map (List.map (lowerNat v (turkicLang lang)))) (σ x).enc), ?_, ?_⟩
    · show ((σ x).lower v _).map _ = _
      rw [(hx x).1, lower_of v lang (hx x).2, enc_of]; rfl
    · rw [e]
      refine holds_set h x (of_holds ?_ _)
      intro t ht
      obtain ⟨u, hu, rfl⟩ := List.mem_map.1 ht
      exact map_scalar v _ ((hx x).2 u hu)
  | trim x =>
    refine ⟨_, rfl, holds_set h x ?_⟩
    rw [(hx x).1, trim_of (hx x).2]
    refine of_holds ?_ _
    intro t ht c hc
    obtain ⟨u, hu, rfl⟩ := List.mem_map.1 ht
    exact (hx x).2 u hu c (strip_mem hc)
  | trimWhite x =>
    refine ⟨σ.set x (Vec.of ((τ x).map (strip (Spec.TrimBlank ·))) (σ x).enc), ?_, ?_⟩
    · show (σ x).trimWhite.map _ = _
      rw [(hx x).1, trimWhite_of (hx x).2, enc_of]; rfl
    · refine holds_set h x (of_holds ?_ _)
      intro t ht c hc
      obtain ⟨u, hu, rfl⟩ := List.mem_map.1 ht
      exact (hx x).2 u hu c (strip_mem hc)
  | split x d =>
    have hs := split_of ho (hx x).2 (σ x).enc
    rw [← (hx x).1] at hs
    show match (if _ then _ else _ : Res Texts) with | .ok τ' => _ | .ub => _
    by_cases hn : ∀ t ∈ τ x, t.count d ≤ 0x7FFFFFFF
    · rw [if_pos hn] at hs ⊢
      refine ⟨σ.set x (Vec.of (cutAll d (τ x)) (σ x).enc), ?_, ?_⟩
      · show ((σ x).split d).map _ = _
        rw [hs]; rfl
      · refine holds_set h x (of_holds ?_ _)
        intro p hp c hc
        obtain ⟨t, ht, hc⟩ := cutAll_mem hp hc
        exact (hx x).2 t ht c hc
    · rw [if_neg hn] at hs ⊢
      show ((σ x).split d).map _ = _
      rw [hs]; rfl
  | join x d =>
    refine ⟨σ.set x (Vec.of [List.intercalate [d] (τ x)] (σ x).enc), ?_, ?_⟩
    · show ((σ x).join d).map _ = _
      rw [(hx x).1, join_of ho, enc_of]; rfl
    · refine holds_set h x (of_holds ?_ _)
      intro t ht c hc
      rw [List.mem_singleton.1 ht] at hc
      rcases mem_intercalate_cases hc with rfl | ⟨p, hp, hc⟩
      · have := ho; unfold Op.Good at this; unfold Scalar Spec.Surrogate; omega
      · exact (hx x).2 p hp c hc
  | glue x =>
    refine ⟨_, rfl, holds_set h x ?_⟩
    rw [(hx x).1, glue_of]
    refine of_holds ?_ _
    intro t ht c hc
    rw [List.mem_singleton.1 ht] at hc
    obtain ⟨u, hu, hc⟩ := List.mem_flatten.1 hc
    exact (hx x).2 u hu c hc
  | concat x y =>
    refine ⟨σ.set x (Vec.of (τ x ++ τ y) (σ x).enc), ?_, ?_⟩
    · show ((σ y).to (σ x).enc).map _ = _
      rw [(hx y).1, to_of (hx y).2, Res.map_ok]
      refine congrArg (fun w => Res.ok (σ.set x w)) ?_
      rw [(hx x).1, enc_of, append_of]
    · refine holds_set h x (of_holds ?_ _)
      intro t ht
      rcases List.mem_append.1 ht with ht | ht
      · exact (hx x).2 t ht
      · exact (hx y).2 t ht
  | pick x i =>
    refine ⟨_, rfl, holds_set h x ?_⟩
    rw [(hx x).1, pick_of]
    refine of_holds ?_ _
    intro t ht
    rw [Option.mem_toList] at ht
    exact (hx x).2 t (List.mem_of_getElem? ht)

/-- One condition. -/
theorem test_follows (v : Version) (t : Test) {σ : Strings} {τ : Texts} (h : σ.Holds τ) :
    libraryTest v t σ = .ok (textTest t τ) := by
  have hx : ∀ x, σ x = Vec.of (τ x) (σ x).enc ∧ Scalars (τ x) := fun x => holds_iff.1 (h x)
  cases t with
  | same x y =>
    show ((σ y).to (σ x).enc).map _ = _
    rw [(hx y).1, to_of (hx y).2, Res.map_ok]
    have : (σ x).same (Vec.of (τ y) (σ x).enc) = (τ x == τ y) := by
      have := same_of (hx x).2 (hx y).2 (σ x).enc
      rwa [← (hx x).1] at this
    rw [this]; rfl
  | fits x r =>
    show (σ x).fits v r = _
    rw [(hx x).1, fits_of v r (hx x).2]; rfl
  | count x n =>
    show (σ x).count n = _
    rw [(hx x).1, count_of n (hx x).2]; rfl
  | size x n =>
    show Res.ok ((σ x).size == n) = _
    rw [(hx x).1, size_of]
    refine congrArg _ (Bool.eq_iff_iff.2 ?_)
    rw [beq_iff_eq]
    exact decide_eq_true_iff.symm

theorem follows_bind {a : Outcome Strings} {b : Outcome Texts} (h : Follows a b) {f : Strings → Outcome Strings}
    {g : Texts → Outcome Texts} (hf : ∀ σ τ, σ.Holds τ → Follows (f σ) (g τ)) : Follows (a.bind f) (b.bind g) := by
  cases a <;> cases b <;> first | exact h.elim | exact trivial | exact hf _ _ h

theorem run_follows {v : Version} {low : Lang → Nat → Nat}
    (hlow : ∀ lang x, x ≤ 0xFFFFFFFF → low lang x = lowerNat v (turkicLang lang) x) (n : Nat) {p : Prog}
    (hp : p.Good) {σ : Strings} {τ : Texts} (h : σ.Holds τ) :
    Follows (p.run (library v) n σ) (p.run (textMachine low) n τ) := by
  induction n generalizing p σ τ with
  | zero => exact trivial
  | succ n ih =>
    cases p with
    | op o =>
      have := exec_follows hlow hp h
      show Follows (.of (libraryExec v o σ)) (.of (textExec low o τ))
      cases e : textExec low o τ with
      | ok τ' =>
        rw [e] at this
        obtain ⟨σ', h1, h2⟩ := this
        rw [h1]; exact h2
      | ub =>
        rw [e] at this
        rw [this]; exact trivial
    | seq p q => exact follows_bind (ih hp.1 h) fun _ _ h => ih hp.2 h
    | ite t p q =>
      show Follows ((Outcome.of (libraryTest v t σ)).bind _) ((Outcome.of (.ok (textTest t τ))).bind _)
      rw [test_follows v t h]
      cases textTest t τ
      · exact ih hp.2 h
      · exact ih hp.1 h
    | loop t p =>
      show Follows ((Outcome.of (libraryTest v t σ)).bind _) ((Outcome.of (.ok (textTest t τ))).bind _)
      rw [test_follows v t h]
      cases textTest t τ
      · exact h
      · exact follows_bind (ih (p := p) hp h) fun _ _ h => ih (p := .loop t p) hp h

theorem lowerOf_eq {v : Version} {low : Lang → Nat → Nat} (h : LowerOf v low) (lang : Lang) (x : Nat)
    (hx : x ≤ 0xFFFFFFFF) : low lang x = lowerNat v (turkicLang lang) x := by
  obtain ⟨d, h1, h2⟩ := h lang (BitVec.ofNat 32 x)
  have hn : (BitVec.ofNat 32 x).toNat = x := by rw [BitVec.toNat_ofNat, Nat.mod_eq_of_lt (by omega)]
  rw [toLower32S_eq] at h1
  rw [hn] at h2
  have h3 := (List.cons.inj (Res.ok.inj h1)).1
  rw [h2, ← h3, lowerChar_toNat, hn]

/-- A program that handles text through the library computes what it would compute on lists of
characters: it ends on the same condition, it has undefined behaviour on the same condition (2^31
delimiters in a text that is split, C31), and the strings it leaves in its variables are the texts, each
in the encoding of its variable. -/
theorem C64_texts (v : Version) {low : Lang → Nat → Nat} (hlow : LowerOf v low) {p : Prog} (hp : p.Good)
    {σ : Strings} {τ : Texts} (h : σ.Holds τ) (n : Nat) :
    Follows (p.run (library v) n σ) (p.run (textMachine low) n τ) :=
  run_follows (lowerOf_eq hlow) n hp h

theorem lowerOf_exists (v : Version) : LowerOf v fun lang x => lowerNat v (turkicLang lang) x := fun lang c =>
  ⟨_, toLower32S_eq v [c] lang, (lowerChar_toNat v _ c).symm⟩

theorem plain_run (low : Lang → Nat → Nat) (n : Nat) (p : Prog) (τ : Texts) :
    p.plain.run (textMachine low) n τ = p.run (textMachine low) n τ := by
  induction n generalizing p τ with
  | zero => rfl
  | succ n ih =>
    cases p with
    | op o =>
      cases o <;> try rfl
      rename_i x _
      show Outcome.done (τ.set x (τ x)) = .done τ
      refine congrArg _ (funext fun y => ?_)
      unfold Texts.set
      by_cases e : y = x
      · rw [if_pos e, e]
      · rw [if_neg e]
    | seq p q =>
      show (p.plain.run _ n τ).bind (q.plain.run _ n) = (p.run _ n τ).bind (q.run _ n)
      rw [ih, funext fun τ => ih q τ]
    | ite t p q =>
      show Outcome.bind _ (fun b : Bool => if b then p.plain.run _ n τ else q.plain.run _ n τ) =
        Outcome.bind _ (fun b : Bool => if b then p.run _ n τ else q.run _ n τ)
      rw [ih, ih]
    | loop t p =>
      show Outcome.bind _ (fun b : Bool => if b then (p.plain.run _ n τ).bind ((Prog.loop t p).plain.run _ n) else _) =
        Outcome.bind _ (fun b : Bool => if b then (p.run _ n τ).bind ((Prog.loop t p).run _ n) else _)
      rw [ih, funext fun τ => ih (.loop t p) τ]

theorem plain_good (p : Prog) : p.plain.Good ↔ p.Good := by
  induction p with
  | op o => cases o <;> exact Iff.rfl
  | seq p q ih ih' => exact and_congr ih ih'
  | ite t p q ih ih' => exact and_congr ih ih'
  | loop t p ih => exact ih

/-- The encodings do not matter: two programs that differ only in the encodings of their literals and in
what they convert to, started with the same texts in whatever encodings, do the same. -/
theorem C64_encodings (v : Version) {p q : Prog} (hp : p.Good) (hpq : p.plain = q.plain) {σ σ' : Strings}
    (h : SameTexts σ σ') (n : Nat) : SameOutcome (p.run (library v) n σ) (q.run (library v) n σ') := by
  obtain ⟨τ, h1, h2⟩ := h
  have f1 := C64_texts v (lowerOf_exists v) hp h1 n
  have f2 := C64_texts v (lowerOf_exists v) ((plain_good q).1 (hpq ▸ (plain_good p).2 hp)) h2 n
  rw [← plain_run] at f1 f2
  rw [← hpq] at f2
  revert f1 f2
  generalize p.plain.run (textMachine _) n τ = c
  generalize p.run (library v) n σ = a
  generalize q.run (library v) n σ' = b
  intro f1 f2
  cases c <;> cases a <;> first | exact f1.elim | skip
  all_goals (cases b <;> first | exact f2.elim | exact trivial | exact ⟨_, f1, f2⟩)

/-- Variables hold the same texts exactly if the library's conversion to UCS-4 gives the same strings. -/
theorem C64_same_texts {a b : Vec} {ts us : List (List Nat)} (ha : a.Holds ts) (hb : b.Holds us) :
    a.to .ucs4 = b.to .ucs4 ↔ ts = us := by
  obtain ⟨h1, h2⟩ := holds_iff.1 ha
  obtain ⟨h3, h4⟩ := holds_iff.1 hb
  rw [h1, h3, to_of h2, to_of h4]
  refine ⟨fun h => ?_, fun h => by rw [h]⟩
  have := same_of h2 h4 .ucs4
  rw [Res.ok.inj h] at this
  have e := same_of h4 h4 .ucs4
  rw [this] at e
  exact beq_iff_eq.1 (e.trans (beq_iff_eq.2 rfl))

/-- A program with a loop: as long as the first variable has pieces, its first piece is moved over. -/
def sample (e : Enc) : Prog :=
  .seq (.op (.literal 0 e [0x20, 0xC4, 0x2C, 0x1F600, 0x20, 0x2C, 0x41])) <|
  .seq (.op (.split 0 0x2C)) <|
  .seq (.op (.convert 0 .utf8)) <|
  .seq (.op (.lower 0 none)) <|
  .seq (.op (.trim 0)) <|
  .seq (.loop (.size 1 0) (.op (.concat 1 0))) <|
  .ite (.same 0 1) (.op (.join 1 0x2D)) (.op (.glue 1))

/-- " Ä,😀 ,A" becomes "ä-😀-a". -/
example : (sample .utf16).Good ∧ (sample .utf16).plain = (sample .ucs4).plain ∧
    (match (sample .utf16).run (textMachine fun _ x => lowerNat .v16 false x) 20 fun _ => [] with
      | .done τ => τ 1 == [[0xE4, 0x2D, 0x1F600, 0x2D, 0x61]] | _ => false) = true ∧
    Strings.Holds (fun _ => .v8 []) (fun _ => []) ∧ Strings.Holds (fun _ => .v16 []) (fun _ => []) := by
  refine ⟨?_, rfl, by decide +kernel, fun _ => ⟨rfl, fun _ h => nomatch h⟩, fun _ => ⟨rfl, fun _ h => nomatch h⟩⟩
  · simp only [sample, Prog.Good, Op.Good]
    decide

end Ansak.Props
