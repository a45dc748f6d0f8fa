import Verif.Lemmas.Cxx.Sound2

/-!
# `comp` is right: statements, functions and files
-/

namespace Ansak.Cxx

open CExpr

theorem memNat_contains (n : Nat) (ls : List Nat) : memNat n ls = ls.contains n := by
  induction ls with
  | nil => rfl
  | cons k ks ih =>
    rw [memNat, List.contains_cons, ih]
    cases h : Nat.beq n k with
    | true =>
      have : (n == k) = true := by simpa using Nat.eq_of_beq_eq_true h
      rw [this]; rfl
    | false =>
      have : (n == k) = false := by simpa using Nat.ne_of_beq_eq_false h
      rw [this]; rfl

/-- What happens after a statement. -/
def End.go (kn kb : Vars → Option Word) : End → Option Word
  | .next ρ => kn ρ
  | .brk ρ => kb ρ
  | .ret v => some v

section

variable {T : Type} (sc : Bool) (gs : List Callee) (fs : List CFun) (o : Out T) (ret : Ty) (x : Nat) (den : T → Nat)
  (G : Word → Nat → Prop)

/-- The result is there and belongs to the tree. -/
def Yields (r : Option Word) (n : Nat) : Prop := ∃ w, r = some w ∧ G w n

/-- The trees for what comes next are right. -/
def Goes (next : CEnv → Option T) (kn : Vars → Option Word) : Prop :=
  ∀ Γ ρ t, Vars.Rep x ρ Γ → next Γ = some t → Yields G (kn ρ) (den t)

/-- The tree `t` is right for the statement `s`. -/
def Right (s : Stmt) (m : At T) (ρ : Vars) (kn kb : Vars → Option Word) (t : T) : Prop :=
  match m with
  | .here => Yields G ((s.exec sc gs ret .here ρ).bind (End.go kn kb)) (den t)
  | .cases e d =>
    (s.hasLabel (e.eval x) = true →
      Yields G ((s.exec sc gs ret (.label (e.eval x)) ρ).bind (End.go kn kb)) (den t)) ∧
    (s.hasLabel (e.eval x) = false → den t = den d)
  | .dflt => Yields G ((s.exec sc gs ret .dflt ρ).bind (End.go kn kb)) (den t)

/-- The trees are put together as they should. -/
structure Out.Ok : Prop where
  cond : ∀ b t f, den (o.cond b t f) = bif b.eval x then den t else den f
  case : ∀ e ls t f, den (o.case e ls t f) = bif memNat (e.eval x) ls then den t else den f
  ret : ∀ ρ Γ e t, Vars.Rep x ρ Γ → o.ret Γ e = some t → ∃ v, e.eval sc gs ρ = some v ∧ G (convert sc v.2 ret) (den t)

variable {sc gs fs o ret x den G}

theorem ifHere_some {m : At T} {r : Option T} {t : T} (h : m.ifHere r = some t) : m = .here ∧ r = some t := by
  cases m with
  | here => exact ⟨rfl, h⟩
  | cases => cases h
  | dflt => cases h

theorem goes_leave {next : CEnv → Option T} {kn : Vars → Option Word} (h : Goes x den G next kn) {ρ : Vars} {Γ : CEnv}
    (hρ : Vars.Rep x ρ Γ) : Goes x den G (fun Γ' => next (Γ.leave Γ')) (fun ρ' => kn (ρ.leave ρ')) :=
  fun _ _ t hρ' ht => h _ _ t (hρ.leave hρ') ht

theorem bind_leave (r : Option End) (ρ : Vars) (kn kb : Vars → Option Word) :
    (r.map (End.leave ρ)).bind (End.go kn kb) =
    r.bind (End.go (fun ρ' => kn (ρ.leave ρ')) (fun ρ' => kb (ρ.leave ρ'))) := by
  cases r with
  | none => rfl
  | some r => cases r <;> rfl

theorem bind_leave_switch (r : Option End) (ρ : Vars) (kn kb : Vars → Option Word) :
    (r.map fun r => (r.leave ρ).broken).bind (End.go kn kb) =
    r.bind (End.go (fun ρ' => kn (ρ.leave ρ')) (fun ρ' => kn (ρ.leave ρ'))) := by
  cases r with
  | none => rfl
  | some r => cases r <;> rfl

/-- The statements of a group, and then the rest of the `switch`. -/
theorem bind_seq (r : Option End) (f : Vars → Option End) (kn kb : Vars → Option Word) :
    (r.bind (End.andThen f)).bind (End.go kn kb) =
    r.bind (End.go (fun ρ' => (f ρ').bind (End.go kn kb)) kb) := by
  cases r with
  | none => rfl
  | some r => cases r <;> rfl

theorem goes_fall {next : CEnv → Option T} {kn : Vars → Option Word} (h : Goes x den G next kn) (kb : Vars → Option Word)
    (rest : Stmt) : Goes x den G (fall next rest) (fun ρ => (rest.exec sc gs ret .here ρ).bind (End.go kn kb)) := by
  intro Γ ρ t hρ ht
  cases rest with
  | skip => exact h Γ ρ t hρ ht
  | _ => cases ht

theorem comp_sound (hfs : Pairs (Contract sc) gs fs) (ok : o.Ok sc gs ret x den G) (s : Stmt) :
    ∀ {m : At T} {Γ : CEnv} {ρ : Vars} {next brk : CEnv → Option T} {kn kb : Vars → Option Word} {t : T},
      Vars.Rep x ρ Γ → Goes x den G next kn → Goes x den G brk kb → comp fs o s m Γ next brk = some t →
      Right sc gs ret x den G s m ρ kn kb t := by
  induction s with
  | skip =>
    intro m Γ ρ next brk kn kb t hρ hn hb ht
    cases m with
    | here => exact hn Γ ρ t hρ ht
    | dflt => exact hn Γ ρ t hρ ht
    | cases e d =>
      obtain rfl : d = t := Option.some.inj ht
      exact ⟨(fun h => nomatch h), fun _ => rfl⟩
  | seq s u ihs ihu =>
    intro m Γ ρ next brk kn kb t hρ hn hb ht
    rw [comp] at ht
    obtain ⟨hm, ht⟩ := ifHere_some ht
    subst hm
    have := ihs (kn := fun ρ => (u.exec sc gs ret .here ρ).bind (End.go kn kb)) hρ
      (fun Γ' ρ' t' hρ' ht' => ihu (m := .here) hρ' hn hb ht') hb ht
    show Yields G _ _
    rw [Stmt.exec, bind_seq]
    exact this
  | ret e =>
    intro m Γ ρ next brk kn kb t hρ hn hb ht
    rw [comp] at ht
    obtain ⟨hm, ht⟩ := ifHere_some ht
    subst hm
    obtain ⟨v, hv, hG⟩ := ok.ret ρ Γ e t hρ ht
    show Yields G _ _
    rw [Stmt.exec, hv]
    exact ⟨_, rfl, hG⟩
  | brk =>
    intro m Γ ρ next brk kn kb t hρ hn hb ht
    rw [comp] at ht
    obtain ⟨hm, ht⟩ := ifHere_some ht
    subst hm
    exact hb Γ ρ t hρ ht
  | decl ty y e =>
    intro m Γ ρ next brk kn kb t hρ hn hb ht
    rw [comp] at ht
    obtain ⟨hm, ht⟩ := ifHere_some ht
    subst hm
    cases he : compE Γ e with
    | none => rw [he] at ht; cases ht
    | some a =>
      rw [he] at ht
      simp only at ht
      obtain ⟨v, hv, ra⟩ := compE_sound (sc := sc) (fs := gs) hρ he
      show Yields G _ _
      rw [Stmt.exec, hv]
      cases ty with
      | none => exact hn ((y, a) :: Γ) ((y, v) :: ρ) t (.cons ⟨rfl, ra⟩ hρ) ht
      | some ty =>
        simp only at ht
        cases hc : conv a ty with
        | none => rw [hc] at ht; cases ht
        | some b =>
          rw [hc] at ht
          exact hn ((y, b) :: Γ) ((y, ty, convert sc v.2 ty) :: ρ) t (.cons ⟨rfl, conv_sound ra hc⟩ hρ) ht
  | andSet y e =>
    intro m Γ ρ next brk kn kb t hρ hn hb ht
    rw [comp] at ht
    obtain ⟨hm, ht⟩ := ifHere_some ht
    subst hm
    cases hy : Γ.find y with
    | none => rw [hy] at ht; cases ht
    | some a =>
      rw [hy] at ht
      simp only at ht
      obtain ⟨v, hv, ra⟩ := hρ.find hy
      cases he : compE Γ e with
      | none => rw [he] at ht; cases ht
      | some b =>
        rw [he] at ht
        simp only at ht
        obtain ⟨w, hw, rb⟩ := compE_sound (sc := sc) (fs := gs) hρ he
        cases hr : compOp .bitAnd a b with
        | none => rw [hr] at ht; cases ht
        | some r =>
          rw [hr] at ht
          simp only at ht
          obtain ⟨u, hu, ru⟩ := compOp_sound ra rb hr
          cases hbits : (Nat.ble r.bits (width a.ty) && (isInt a.ty || Nat.ble (width a.ty) 32)) with
          | false => rw [hbits] at ht; cases ht
          | true =>
            rw [hbits, cond_true] at ht
            rw [Bool.and_eq_true] at hbits
            obtain ⟨hbits, hty⟩ := hbits
            have hle := Nat.le_of_ble_eq_true hbits
            show Yields G _ _
            rw [Stmt.exec, hv, Option.bind_some, hw, Option.bind_some, hu]
            refine hn (Γ.set y ⟨a.ty, r.bits, r.e⟩) (ρ.set y (convert sc u.2 v.1)) t (hρ.set hv ?_) ht
            -- the operands are not `char`, and the result fits
            have hs : simple a b = true := by
              unfold compOp at hr
              cases hbe : b.e with
              | lit n =>
                rw [hbe] at hr
                simp only at hr
                cases hs : simple a b with
                | true => rfl
                | false => rw [hs] at hr; cases hr
              | _ => rw [hbe] at hr; cases hr
            obtain ⟨ha, hb', ha32, hb32⟩ := simple_spec hs
            have hrc : isChar r.ty = false := by
              have : u.1 = common v.1 w.1 := by
                have hu' : some (common v.1 w.1, v.2 &&& w.2) = some u := hu
                rw [← Option.some.inj hu']
              rw [← ru.ty, this]
              exact isChar_common _ _
            have hut := ru.toNat hrc
            refine ⟨ra.ty, ?_, ru.bound⟩
            show repr v.1 (convert sc u.2 v.1) = r.e.eval x % 2 ^ 32
            rw [ra.ty]
            by_cases hwt : width a.ty ≤ 32
            · rw [repr_convert sc _ hwt, hut, mod_mod_two_pow _ hwt, mod_eq_of_two_pow ru.bound hle,
                mod_eq_of_two_pow ru.bound (Nat.le_trans hle hwt)]
            · rw [Bool.or_eq_true] at hty
              rcases hty with hty | hty
              · cases hat : a.ty with
                | int => exact hut
                | _ => rw [hat] at hty; cases hty
              · exact absurd (Nat.le_of_ble_eq_true hty) hwt
  | block s ih =>
    intro m Γ ρ next brk kn kb t hρ hn hb ht
    rw [comp] at ht
    obtain ⟨hm, ht⟩ := ifHere_some ht
    subst hm
    have := ih hρ (goes_leave hn hρ) (goes_leave hb hρ) ht
    show Yields G _ _
    rw [Stmt.exec, bind_leave]
    exact this
  | ite c s u ihs ihu =>
    intro m Γ ρ next brk kn kb t hρ hn hb ht
    rw [comp] at ht
    obtain ⟨hm, ht⟩ := ifHere_some ht
    subst hm
    cases hc : compB fs Γ c with
    | none => rw [hc] at ht; cases ht
    | some b =>
      rw [hc] at ht
      simp only at ht
      cases h1 : comp fs o s .here Γ (fun Γ' => next (Γ.leave Γ')) (fun Γ' => brk (Γ.leave Γ')) with
      | none => rw [h1] at ht; cases ht
      | some t1 =>
        rw [h1] at ht
        simp only at ht
        cases h2 : comp fs o u .here Γ (fun Γ' => next (Γ.leave Γ')) (fun Γ' => brk (Γ.leave Γ')) with
        | none => rw [h2] at ht; cases ht
        | some t2 =>
          rw [h2] at ht
          obtain rfl : o.cond b t1 t2 = t := Option.some.inj ht
          have r1 := ihs hρ (goes_leave hn hρ) (goes_leave hb hρ) h1
          have r2 := ihu hρ (goes_leave hn hρ) (goes_leave hb hρ) h2
          have hbv := compB_sound hfs hρ hc
          show Yields G _ _
          rw [Stmt.exec, hbv, Option.bind_some, bind_leave, ok.cond]
          cases b.eval x with
          | true => exact r1
          | false => exact r2
  | switch e g ih =>
    intro m Γ ρ next brk kn kb t hρ hn hb ht
    rw [comp] at ht
    obtain ⟨hm, ht⟩ := ifHere_some ht
    subst hm
    cases he : compE Γ e with
    | none => rw [he] at ht; cases ht
    | some a =>
      rw [he] at ht
      simp only at ht
      obtain ⟨v, hv, ra⟩ := compE_sound (sc := sc) (fs := gs) hρ he
      cases hc : (isChar a.ty || !Nat.ble a.bits 32) with
      | true => rw [hc] at ht; cases ht
      | false =>
        rw [hc, cond_false] at ht
        rw [Bool.or_eq_false_iff, Bool.not_eq_false'] at hc
        have hx := ra.exact hc.1 (Nat.le_of_ble_eq_true hc.2)
        cases hd : comp fs o g .dflt Γ (fun Γ' => next (Γ.leave Γ')) (fun Γ' => next (Γ.leave Γ')) with
        | none => rw [hd] at ht; cases ht
        | some d =>
          rw [hd] at ht
          simp only at ht
          have rd := ih hρ (goes_leave hn hρ) (goes_leave hn hρ) hd
          have rc := ih hρ (goes_leave hn hρ) (goes_leave hn hρ) ht
          show Yields G _ _
          rw [Stmt.exec, hv, Option.bind_some, bind_leave_switch, hx]
          cases hl : g.hasLabel (a.e.eval x) with
          | true => exact rc.1 hl
          | false =>
            have := rc.2 hl
            rw [this]
            exact rd
  | group ls d body rest ihb ihr =>
    intro m Γ ρ next brk kn kb t hρ hn hb ht
    cases m with
    | here => cases ht
    | dflt =>
      unfold comp at ht
      simp only at ht
      show Yields G _ _
      rw [Stmt.exec]
      cases d with
      | true =>
        have := ihb (kn := fun ρ => (rest.exec sc gs ret .here ρ).bind (End.go kn kb)) hρ (goes_fall hn kb rest) hb ht
        rw [if_pos (by exact rfl), bind_seq]
        exact this
      | false =>
        have := ihr hρ hn hb ht
        rw [if_neg (by exact Bool.false_ne_true)]
        exact this
    | cases e dt =>
      unfold comp at ht
      simp only at ht
      cases d with
      | true =>
        rw [cond_true] at ht
        cases ls with
        | cons => cases ht
        | nil =>
          have := ihr hρ hn hb ht
          refine ⟨?_, this.2⟩
          intro hl
          rw [Stmt.exec, if_neg (by exact Bool.false_ne_true)]
          exact this.1 hl
      | false =>
        rw [cond_false] at ht
        cases h1 : comp fs o body .here Γ (fall next rest) brk with
        | none => rw [h1] at ht; cases ht
        | some t1 =>
          rw [h1] at ht
          simp only at ht
          cases h2 : comp fs o rest (.cases e dt) Γ next brk with
          | none => rw [h2] at ht; cases ht
          | some t2 =>
            rw [h2] at ht
            obtain rfl : o.case e ls t1 t2 = t := Option.some.inj ht
            have r1 := ihb (kn := fun ρ => (rest.exec sc gs ret .here ρ).bind (End.go kn kb)) hρ
              (goes_fall hn kb rest) hb h1
            have r2 := ihr hρ hn hb h2
            show (((ls.contains (e.eval x) || rest.hasLabel (e.eval x)) = true → _) ∧
              ((ls.contains (e.eval x) || rest.hasLabel (e.eval x)) = false → _))
            rw [ok.case, memNat_contains, Stmt.exec]
            cases hm : ls.contains (e.eval x) with
            | true =>
              refine ⟨fun _ => ?_, (fun h => nomatch h)⟩
              rw [if_pos (by exact hm), bind_seq]
              exact r1
            | false =>
              rw [if_neg (by show ¬ls.contains (e.eval x) = true; rw [hm]; exact Bool.false_ne_true), Bool.false_or]
              exact r2

end

theorem E.beq_sound {e f : E} (h : E.beq e f = true) : e = f := by
  induction e generalizing f with
  | c => cases f <;> first | rfl | cases h
  | lit n =>
    cases f with
    | lit m => rw [Nat.eq_of_beq_eq_true h]
    | _ => cases h
  | and e n ih =>
    cases f with
    | and f m =>
      rw [E.beq, Bool.and_eq_true] at h
      rw [Nat.eq_of_beq_eq_true h.1, ih h.2]
    | _ => cases h
  | or e n ih =>
    cases f with
    | or f m =>
      rw [E.beq, Bool.and_eq_true] at h
      rw [Nat.eq_of_beq_eq_true h.1, ih h.2]
    | _ => cases h
  | add e n ih =>
    cases f with
    | add f m =>
      rw [E.beq, Bool.and_eq_true] at h
      rw [Nat.eq_of_beq_eq_true h.1, ih h.2]
    | _ => cases h
  | shr e n ih =>
    cases f with
    | shr f m =>
      rw [E.beq, Bool.and_eq_true] at h
      rw [Nat.eq_of_beq_eq_true h.1, ih h.2]
    | _ => cases h
  | cast e n ih =>
    cases f with
    | cast f m =>
      rw [E.beq, Bool.and_eq_true] at h
      rw [Nat.eq_of_beq_eq_true h.1, ih h.2]
    | _ => cases h

theorem labelsBeq_sound {ns ms : List Nat} (h : labelsBeq ns ms = true) : ns = ms := by
  induction ns generalizing ms with
  | nil => cases ms <;> first | rfl | cases h
  | cons n ns ih =>
    cases ms with
    | nil => cases h
    | cons m ms =>
      rw [labelsBeq, Bool.and_eq_true] at h
      rw [Nat.eq_of_beq_eq_true h.1, ih h.2]

theorem B.beq_sound {a b : B} (h : B.beq a b = true) : a = b := by
  induction a generalizing b with
  | tt => cases b <;> first | rfl | cases h
  | ff => cases b <;> first | rfl | cases h
  | eq e n =>
    cases b with
    | eq f m =>
      rw [B.beq, Bool.and_eq_true] at h
      rw [Nat.eq_of_beq_eq_true h.1, E.beq_sound h.2]
    | _ => cases h
  | lt e n =>
    cases b with
    | lt f m =>
      rw [B.beq, Bool.and_eq_true] at h
      rw [Nat.eq_of_beq_eq_true h.1, E.beq_sound h.2]
    | _ => cases h
  | gt e n =>
    cases b with
    | gt f m =>
      rw [B.beq, Bool.and_eq_true] at h
      rw [Nat.eq_of_beq_eq_true h.1, E.beq_sound h.2]
    | _ => cases h
  | le e n =>
    cases b with
    | le f m =>
      rw [B.beq, Bool.and_eq_true] at h
      rw [Nat.eq_of_beq_eq_true h.1, E.beq_sound h.2]
    | _ => cases h
  | ge e n =>
    cases b with
    | ge f m =>
      rw [B.beq, Bool.and_eq_true] at h
      rw [Nat.eq_of_beq_eq_true h.1, E.beq_sound h.2]
    | _ => cases h
  | eqE e e' =>
    cases b with
    | eqE f f' =>
      rw [B.beq, Bool.and_eq_true] at h
      rw [E.beq_sound h.1, E.beq_sound h.2]
    | _ => cases h
  | not a ih =>
    cases b with
    | not b => rw [ih h]
    | _ => cases h
  | and a a' ih ih' =>
    cases b with
    | and b b' =>
      rw [B.beq, Bool.and_eq_true] at h
      rw [ih h.1, ih' h.2]
    | _ => cases h
  | or a a' ih ih' =>
    cases b with
    | or b b' =>
      rw [B.beq, Bool.and_eq_true] at h
      rw [ih h.1, ih' h.2]
    | _ => cases h
  | cond c a a' ihc ih ih' =>
    cases b with
    | cond d b b' =>
      rw [B.beq, Bool.and_eq_true, Bool.and_eq_true] at h
      rw [ihc h.1.1, ih h.1.2, ih' h.2]
    | _ => cases h
  | case e ls a a' ih ih' =>
    cases b with
    | case f ms b b' =>
      rw [B.beq, Bool.and_eq_true, Bool.and_eq_true, Bool.and_eq_true] at h
      rw [E.beq_sound h.1.1.1, labelsBeq_sound h.1.1.2, ih h.1.2, ih' h.2]
    | _ => cases h
  | call a e ih =>
    cases b with
    | call b f =>
      rw [B.beq, Bool.and_eq_true] at h
      rw [E.beq_sound h.1, ih h.2]
    | _ => cases h

theorem V.beq_sound {a b : V} (h : V.beq a b = true) : a = b := by
  induction a generalizing b with
  | ret e =>
    cases b with
    | ret f => rw [E.beq_sound h]
    | _ => cases h
  | cond c a a' ih ih' =>
    cases b with
    | cond d b b' =>
      rw [V.beq, Bool.and_eq_true, Bool.and_eq_true] at h
      rw [B.beq_sound h.1.1, ih h.1.2, ih' h.2]
    | _ => cases h
  | case e ls a a' ih ih' =>
    cases b with
    | case f ms b b' =>
      rw [V.beq, Bool.and_eq_true, Bool.and_eq_true, Bool.and_eq_true] at h
      rw [E.beq_sound h.1.1.1, labelsBeq_sound h.1.1.2, ih h.1.2, ih' h.2]
    | _ => cases h
  | call a e k ih =>
    cases b with
    | call b f m =>
      rw [V.beq, Bool.and_eq_true, Bool.and_eq_true] at h
      rw [Nat.eq_of_beq_eq_true h.1.1, E.beq_sound h.1.2, ih h.2]
    | _ => cases h

theorem go_none : End.go (fun _ => none) (fun _ => none) = End.returned := by
  funext r; cases r <;> rfl

/-- The argument of a function. -/
theorem rep_param {sc : Bool} {arg : Ty} (h : width arg ≤ 32) (w : Word) (p : Nat) :
    Vars.Rep (repr arg (convert sc w arg)) [(p, arg, convert sc w arg)] [(p, ⟨arg, width arg, .c⟩)] := by
  refine .cons ⟨rfl, rfl, ?_, ?_⟩ .nil
  · exact (Nat.mod_eq_of_lt (repr_lt _ _)).symm
  · show repr arg (convert sc w arg) < 2 ^ width arg
    rw [repr_convert sc w h]
    exact Nat.mod_lt _ (Nat.two_pow_pos _)

theorem goes_none {T : Type} {x : Nat} {den : T → Nat} {G : Word → Nat → Prop} :
    Goes x den G (fun _ => none) (fun _ => none) := by
  intro Γ ρ t _ h
  cases h

theorem outB_ok {sc : Bool} {gs : List Callee} {fs : List CFun} (hfs : Pairs (Contract sc) gs fs) (x : Nat) :
    (outB fs).Ok sc gs .bool x (fun t => bif t.eval x then 1 else 0) (fun w n => w = BitVec.ofNat 32 n) where
  cond b t f := by
    show (bif (bif b.eval x then t.eval x else f.eval x) then 1 else 0) = _
    cases b.eval x <;> rfl
  case e ls t f := by
    show (bif (bif memNat (e.eval x) ls then t.eval x else f.eval x) then 1 else 0) = _
    cases memNat (e.eval x) ls <;> rfl
  ret ρ Γ e t hρ ht := by
    refine ⟨_, compB_sound hfs hρ ht, ?_⟩
    cases t.eval x <;> rfl

theorem outV_ok {sc : Bool} {gs : List Callee} {fs : List CFun} (hfs : Pairs (Contract sc) gs fs) (x : Nat) {ret : Ty}
    (hw : width ret ≤ 32) : (outV fs ret).Ok sc gs ret x (fun t => t.eval x)
      (fun w n => (∃ u, w = convert sc u ret) ∧ repr ret w = n ∧ repr ret w < 2 ^ width ret) where
  cond _ _ _ := rfl
  case _ _ _ _ := rfl
  ret ρ Γ e t hρ ht := by
    obtain ⟨v, hv, hr⟩ := compRet_sound hfs hρ hw ht
    refine ⟨v, hv, ⟨v.2, rfl⟩, hr, ?_⟩
    rw [repr_convert sc _ hw]
    exact Nat.mod_lt _ (Nat.two_pow_pos _)

theorem checkFun_sound {sc : Bool} {gs : List Callee} {fs : List CFun} (hfs : Pairs (Contract sc) gs fs) {f : Fun}
    {t : Tree} (h : checkFun fs f t = true) :
    Contract sc ⟨f.name, f.arg, f.ret, f.run sc gs⟩ ⟨f.name, f.arg, f.ret, t⟩ := by
  cases t with
  | b t =>
    unfold checkFun at h
    simp only at h
    cases hret : f.ret with
    | bool =>
      rw [hret] at h
      simp only [Bool.and_eq_true] at h
      have hw := Nat.le_of_ble_eq_true h.1
      refine ⟨rfl, rfl, rfl, hw, ?_, nofun⟩
      intro t' ht'
      obtain rfl : t = t' := by simpa using ht'
      refine ⟨rfl, fun w => ?_⟩
      cases hc : comp fs (outB fs) f.body .here [(f.param, ⟨f.arg, width f.arg, .c⟩)] (fun _ => none)
          (fun _ => none) with
      | none => rw [hc] at h; exact nomatch h.2
      | some t' =>
        rw [hc] at h
        have := B.beq_sound h.2
        subst this
        obtain ⟨r, hr, hG⟩ := comp_sound hfs (outB_ok hfs _) f.body (m := .here) (rep_param (sc := sc) hw w f.param)
          goes_none goes_none hc
        rw [go_none] at hr
        show Fun.run sc gs f (convert sc w f.arg) = _
        rw [Fun.run, hret, hr, hG]
        show some _ = some _
        simp only
        cases t'.eval (repr f.arg (convert sc w f.arg)) <;> rfl
    | _ => rw [hret] at h; cases h
  | v t =>
    unfold checkFun at h
    simp only [Bool.and_eq_true] at h
    have hw := Nat.le_of_ble_eq_true h.1.1
    have hr := Nat.le_of_ble_eq_true h.1.2
    refine ⟨rfl, rfl, rfl, hw, nofun, ?_⟩
    intro t' ht'
    obtain rfl : t = t' := by simpa using ht'
    refine ⟨hr, fun w => ?_⟩
    cases hc : comp fs (outV fs f.ret) f.body .here [(f.param, ⟨f.arg, width f.arg, .c⟩)] (fun _ => none)
        (fun _ => none) with
    | none => rw [hc] at h; exact nomatch h.2
    | some t' =>
      rw [hc] at h
      have := V.beq_sound h.2
      subst this
      obtain ⟨r, hr, hG⟩ := comp_sound hfs (outV_ok hfs _ hr) f.body (m := .here) (rep_param (sc := sc) hw w f.param)
        goes_none goes_none hc
      rw [go_none] at hr
      exact ⟨r, hG.1, hr, hG.2⟩

theorem checkItems_sound {sc : Bool} (is : List Item) : ∀ {ts : List Tree} {gs : List Callee} {fs fs' : List CFun},
    Pairs (Contract sc) gs fs → checkItems is ts fs = some fs' → Pairs (Contract sc) (callees sc is gs) fs' := by
  induction is with
  | nil =>
    intro ts gs fs fs' hfs h
    cases ts with
    | nil =>
      obtain rfl : fs = fs' := Option.some.inj h
      exact hfs
    | cons => cases h
  | cons i is ih =>
    intro ts gs fs fs' hfs h
    cases i with
    | const x v => rw [checkItems] at h; exact ih hfs h
    | func f =>
      cases ts with
      | nil => cases h
      | cons t ts =>
        rw [checkItems] at h
        cases hf : checkFun fs f t with
        | false => rw [hf] at h; cases h
        | true =>
          rw [hf, cond_true] at h
          exact ih (.cons (checkFun_sound hfs hf) hfs) h

end Ansak.Cxx
