import Verif.Lemmas.Cxx.Sound

/-!
# `comp` is right: conditions, calls and statements
-/

namespace Ansak.Cxx

open CExpr

theorem beq_toNat (v w : Word) : (v == w) = Nat.beq v.toNat w.toNat := by
  rw [Bool.eq_iff_iff, beq_iff_eq, ← BitVec.toNat_inj]
  exact ⟨fun h => by rw [h]; exact Nat.beq_refl _, Nat.eq_of_beq_eq_true⟩

theorem compCmp_sound {x : Nat} {v w : Ty × Word} {a b : CE} {op : BinOp} {t : B} (hv : Rep x v a) (hw : Rep x w b)
    (ht : compCmp op a b = some t) : op ≠ .or ∧ op ≠ .and ∧ binary' op v w = some (ofBool (t.eval x)) := by
  obtain ⟨ty, v⟩ := v
  obtain ⟨ty', w⟩ := w
  obtain rfl : ty = a.ty := hv.ty
  obtain rfl : ty' = b.ty := hw.ty
  unfold compCmp at ht
  cases hs : (simple a b && (!isInt (common a.ty b.ty) || (Nat.ble a.bits 31 && Nat.ble b.bits 31))) with
  | false => rw [hs] at ht; cases ht
  | true =>
    rw [hs, cond_true] at ht
    rw [Bool.and_eq_true] at hs
    obtain ⟨hs, hi⟩ := hs
    obtain ⟨ha, hb, ha32, hb32⟩ := simple_spec hs
    have ev : v.toNat = a.e.eval x := hv.exact ha ha32
    have ew : w.toNat = b.e.eval x := hw.exact hb hb32
    -- the order is that of the numbers
    have hless : ∀ y z : Word, (y = v ∧ z = w ∨ y = w ∧ z = v) →
        (if isInt (common a.ty b.ty) = true then y.slt z else y.ult z) = Nat.blt y.toNat z.toNat := by
      intro y z hyz
      have hult : y.ult z = Nat.blt y.toNat z.toNat := by
        rw [Bool.eq_iff_iff, BitVec.ult_iff_lt, BitVec.lt_def]
        exact ⟨fun h => Nat.ble_eq_true_of_le h, fun h => Nat.le_of_ble_eq_true h⟩
      cases hc : isInt (common a.ty b.ty) with
      | false => rw [if_neg (by decide)]; exact hult
      | true =>
        rw [if_pos rfl]
        rw [hc, Bool.not_true, Bool.false_or, Bool.and_eq_true] at hi
        have h1 : 2 ^ a.bits ≤ 2 ^ 31 := Nat.pow_le_pow_right (by decide) (Nat.le_of_ble_eq_true hi.1)
        have h2 : 2 ^ b.bits ≤ 2 ^ 31 := Nat.pow_le_pow_right (by decide) (Nat.le_of_ble_eq_true hi.2)
        have h3 := hv.bound
        have h4 := hw.bound
        have h5 : y.toNat < 2 ^ 31 ∧ z.toNat < 2 ^ 31 := by
          rcases hyz with ⟨rfl, rfl⟩ | ⟨rfl, rfl⟩ <;> exact ⟨by omega, by omega⟩
        rw [← hult, Bool.eq_iff_iff, BitVec.slt_iff_toInt_lt, BitVec.ult_iff_lt, BitVec.lt_def,
          toInt_of_small h5.1, toInt_of_small h5.2]
        omega
    have heq : binary' .eq (a.ty, v) (b.ty, w) = some (ofBool (Nat.beq (a.e.eval x) (b.e.eval x))) := by
      show some (ofBool (v == w)) = _
      rw [beq_toNat, ev, ew]
    have hle : ∀ y z : Nat, (!Nat.blt y z) = Nat.ble z y := by
      intro y z
      rw [Bool.eq_iff_iff, Bool.not_eq_true']
      constructor
      · intro h
        apply Nat.ble_eq_true_of_le
        apply Nat.le_of_not_lt
        intro hl
        have : Nat.blt y z = true := Nat.ble_eq_true_of_le hl
        rw [h] at this; cases this
      · intro h
        have h := Nat.le_of_ble_eq_true h
        cases hb : Nat.blt y z with
        | false => rfl
        | true => exact absurd (Nat.le_of_ble_eq_true hb) (by omega)
    cases hn : b.e with
    | lit n =>
      rw [hn] at ht ew heq
      have ew : w.toNat = n := ew
      simp only at ht
      have hl := hless v w (.inl ⟨rfl, rfl⟩)
      have hg := hless w v (.inr ⟨rfl, rfl⟩)
      rw [ev, ew] at hl hg
      rw [← signed_eq] at hl hg
      cases op with
      | or => cases ht
      | and => cases ht
      | bitOr => cases ht
      | bitAnd => cases ht
      | shr => cases ht
      | add => cases ht
      | eq =>
        obtain rfl : B.eq a.e n = t := by simpa using ht
        exact ⟨nofun, nofun, heq⟩
      | ne =>
        obtain rfl : B.not (B.eq a.e n) = t := by simpa using ht
        refine ⟨nofun, nofun, ?_⟩
        show some (ofBool (!(v == w))) = some (ofBool (!Nat.beq (a.e.eval x) n))
        rw [beq_toNat, ev, ew]
      | lt =>
        obtain rfl : B.lt a.e n = t := by simpa using ht
        exact ⟨nofun, nofun, congrArg (fun b => some (ofBool b)) hl⟩
      | gt =>
        obtain rfl : B.gt a.e n = t := by simpa using ht
        exact ⟨nofun, nofun, congrArg (fun b => some (ofBool b)) hg⟩
      | le =>
        obtain rfl : B.le a.e n = t := by simpa using ht
        refine ⟨nofun, nofun, congrArg (fun b => some (ofBool b)) ?_⟩
        exact (congrArg Bool.not hg).trans (hle _ _)
      | ge =>
        obtain rfl : B.ge a.e n = t := by simpa using ht
        refine ⟨nofun, nofun, congrArg (fun b => some (ofBool b)) ?_⟩
        exact (congrArg Bool.not hl).trans (hle _ _)
    | _ =>
      rw [hn] at ht heq
      simp only at ht
      cases op with
      | eq =>
        obtain rfl := Option.some.inj ht
        exact ⟨nofun, nofun, heq⟩
      | _ => cases ht

/-- The translated function `f` is right for `g`. -/
structure Contract (sc : Bool) (g : Callee) (f : CFun) : Prop where
  name : g.name = f.name
  arg : g.arg = f.arg
  ret : g.ret = f.ret
  width : width f.arg ≤ 32
  /-- a function that returns `bool` -/
  bool : ∀ t, f.tree = .b t → f.ret = .bool ∧ ∀ w, g.run (convert sc w f.arg) =
    some (ofBool (t.eval (repr f.arg (convert sc w f.arg)))).2
  /-- a function that returns a character -/
  char : ∀ t, f.tree = .v t → Cxx.width f.ret ≤ 32 ∧ ∀ w, ∃ r, (∃ u, r = convert sc u f.ret) ∧
    g.run (convert sc w f.arg) = some r ∧ repr f.ret r = t.eval (repr f.arg (convert sc w f.arg)) ∧ repr f.ret r < 2 ^ Cxx.width f.ret

theorem Pairs.filter {α β : Type} {R : α → β → Prop} {as : List α} {bs : List β} (h : Pairs R as bs) {p : α → Bool}
    {q : β → Bool} (hpq : ∀ a b, R a b → p a = q b) : Pairs R (as.filter p) (bs.filter q) := by
  induction h with
  | nil => exact .nil
  | @cons a b as bs hab _ ih =>
    rw [List.filter_cons, List.filter_cons, hpq a b hab]
    cases q b
    · exact ih
    · exact .cons hab ih

theorem Pairs.find? {α β : Type} {R : α → β → Prop} {as : List α} {bs : List β} (h : Pairs R as bs) {p : α → Bool}
    {q : β → Bool} (hpq : ∀ a b, R a b → p a = q b) {b : β} (hb : bs.find? q = some b) :
    ∃ a, as.find? p = some a ∧ R a b := by
  induction h with
  | nil => cases hb
  | @cons a b' as bs hab _ ih =>
    rw [List.find?_cons] at hb
    rw [List.find?_cons, hpq a b' hab]
    cases hq : q b' with
    | true =>
      rw [hq] at hb
      obtain rfl : b' = b := by simpa using hb
      exact ⟨a, rfl, hab⟩
    | false =>
      rw [hq] at hb
      exact ih hb

theorem resolve_sound {sc : Bool} {gs : List Callee} {fs : List CFun} (h : Pairs (Contract sc) gs fs) {n : Nat} {ty : Ty}
    {f : CFun} (hf : resolve CFun.name CFun.arg fs n ty = some f) :
    ∃ g, resolve Callee.name Callee.arg gs n ty = some g ∧ Contract sc g f := by
  have h1 : Pairs (Contract sc) (gs.filter fun g => Nat.beq g.name n) (fs.filter fun g => Nat.beq g.name n) :=
    h.filter fun a b hab => by rw [hab.name]
  unfold resolve at hf ⊢
  generalize (gs.filter fun g => Nat.beq g.name n) = gs' at h1 ⊢
  generalize (fs.filter fun g => Nat.beq g.name n) = fs' at h1 hf
  cases h1 with
  | nil => cases hf
  | @cons g f' gs' fs' hg hgs =>
    cases hgs with
    | nil =>
      obtain rfl : f' = f := by simpa using hf
      exact ⟨g, rfl, hg⟩
    | cons hg' hgs =>
      exact Pairs.find? (.cons hg (.cons hg' hgs)) (fun a b hab => by rw [hab.arg]) hf

theorem compCall_sound {sc : Bool} {gs : List Callee} {fs : List CFun} {x : Nat} {ρ : Vars} {Γ : CEnv}
    (hfs : Pairs (Contract sc) gs fs) (h : Vars.Rep x ρ Γ) {n : Nat} {e : Expr} {r : CFun × E}
    (hr : compCall fs Γ n e = some r) :
    ∃ v g, e.eval sc gs ρ = some v ∧ resolve Callee.name Callee.arg gs n v.1 = some g ∧ Contract sc g r.1 ∧
      repr r.1.arg (convert sc v.2 r.1.arg) = r.2.eval x := by
  unfold compCall at hr
  cases he : compE Γ e with
  | none => rw [he] at hr; cases hr
  | some a =>
    rw [he] at hr
    simp only at hr
    obtain ⟨v, hv, ra⟩ := compE_sound (sc := sc) (fs := gs) h he
    cases hg : resolve CFun.name CFun.arg fs n a.ty with
    | none => rw [hg] at hr; cases hr
    | some f =>
      rw [hg] at hr
      simp only at hr
      obtain ⟨g, hg', hc⟩ := resolve_sound hfs hg
      cases hb : conv a f.arg with
      | none => rw [hb] at hr; cases hr
      | some b =>
        rw [hb] at hr
        simp only at hr
        cases hw : Nat.ble b.bits (width f.arg) with
        | false => rw [hw] at hr; cases hr
        | true =>
          rw [hw, cond_true] at hr
          obtain rfl : (f, b.e) = r := by simpa using hr
          have rb := conv_sound (sc := sc) ra hb
          refine ⟨v, g, hv, by rw [ra.ty]; exact hg', hc, ?_⟩
          show repr f.arg (convert sc v.2 f.arg) = b.e.eval x
          rw [rb.val]
          exact mod_eq_of_two_pow rb.bound (Nat.le_trans (Nat.le_of_ble_eq_true hw) hc.width)

theorem ofBool_ne_zero (b : Bool) : ((ofBool b).2 != 0) = b := by cases b <;> rfl

theorem ofBool_eq_zero (b : Bool) : ((ofBool b).2 = 0) ↔ b = false := by cases b <;> decide

theorem compB_sound {sc : Bool} {gs : List Callee} {fs : List CFun} {x : Nat} {ρ : Vars} {Γ : CEnv}
    (hfs : Pairs (Contract sc) gs fs) (h : Vars.Rep x ρ Γ) {e : Expr} {t : B} (ht : compB fs Γ e = some t) :
    e.eval sc gs ρ = some (ofBool (t.eval x)) := by
  induction e generalizing t with
  | num n => cases ht
  | bool b =>
    cases b
    · obtain rfl : B.ff = t := Option.some.inj ht
      rfl
    · obtain rfl : B.tt = t := Option.some.inj ht
      rfl
  | var y => cases ht
  | not e ih =>
    unfold compB at ht
    cases he : compB fs Γ e with
    | none => rw [he] at ht; cases ht
    | some b =>
      rw [he] at ht
      obtain rfl : B.not b = t := by simpa using ht
      unfold Expr.eval
      rw [ih he]
      show some (ofBool ((ofBool (b.eval x)).2 == 0)) = some (ofBool (!b.eval x))
      cases b.eval x <;> rfl
  | compl e => cases ht
  | bin op l r ihl ihr =>
    unfold compB at ht
    have cmp : (match compE Γ l with
        | some a => match compE Γ r with
          | some b => compCmp op a b
          | none => none
        | none => none) = some t → (Expr.bin op l r).eval sc gs ρ = some (ofBool (t.eval x)) := by
      intro ht
      cases hl : compE Γ l with
      | none => rw [hl] at ht; cases ht
      | some a =>
        rw [hl] at ht
        cases hr : compE Γ r with
        | none => rw [hr] at ht; cases ht
        | some b =>
          rw [hr] at ht
          obtain ⟨v, hv, ra⟩ := compE_sound (sc := sc) (fs := gs) h hl
          obtain ⟨w, hw, rb⟩ := compE_sound (sc := sc) (fs := gs) h hr
          obtain ⟨h1, h2, h3⟩ := compCmp_sound ra rb ht
          unfold Expr.eval
          cases op with
          | or => exact absurd rfl h1
          | and => exact absurd rfl h2
          | _ => simp only [hv, hw, Option.bind_some]; exact h3
    cases op with
    | or =>
      simp only at ht
      cases hl : compB fs Γ l with
      | none => rw [hl] at ht; cases ht
      | some a =>
        rw [hl] at ht
        cases hr : compB fs Γ r with
        | none => rw [hr] at ht; cases ht
        | some b =>
          rw [hr] at ht
          obtain rfl : B.or a b = t := by simpa using ht
          unfold Expr.eval
          simp only [ihl hl, ihr hr, Option.bind_some, Option.map_some, ofBool_ne_zero]
          show _ = some (ofBool (a.eval x || b.eval x))
          cases a.eval x <;> rfl
    | and =>
      simp only at ht
      cases hl : compB fs Γ l with
      | none => rw [hl] at ht; cases ht
      | some a =>
        rw [hl] at ht
        cases hr : compB fs Γ r with
        | none => rw [hr] at ht; cases ht
        | some b =>
          rw [hr] at ht
          obtain rfl : B.and a b = t := by simpa using ht
          unfold Expr.eval
          simp only [ihl hl, ihr hr, Option.bind_some, Option.map_some, ofBool_ne_zero]
          show _ = some (ofBool (a.eval x && b.eval x))
          cases a.eval x <;> rfl
    | _ => exact cmp ht
  | cond c l r ihc ihl ihr =>
    unfold compB at ht
    cases hc : compB fs Γ c with
    | none => rw [hc] at ht; cases ht
    | some c' =>
      rw [hc] at ht
      cases hl : compB fs Γ l with
      | none => rw [hl] at ht; cases ht
      | some a =>
        rw [hl] at ht
        cases hr : compB fs Γ r with
        | none => rw [hr] at ht; cases ht
        | some b =>
          rw [hr] at ht
          obtain rfl : B.cond c' a b = t := by simpa using ht
          unfold Expr.eval
          simp only [ihc hc, ihl hl, ihr hr, Option.bind_some]
          show _ = some (ofBool (bif c'.eval x then a.eval x else b.eval x))
          cases c'.eval x <;> rfl
  | cast ty e => cases ht
  | call n e =>
    unfold compB at ht
    cases hr : compCall fs Γ n e with
    | none => rw [hr] at ht; cases ht
    | some r =>
      rw [hr] at ht
      simp only at ht
      obtain ⟨v, g, hv, hg, hc, hx⟩ := compCall_sound hfs h hr
      cases htr : r.1.tree with
      | v s => rw [htr] at ht; cases ht
      | b s =>
        rw [htr] at ht
        obtain rfl : B.call s r.2 = t := by simpa using ht
        obtain ⟨hret, hrun⟩ := hc.bool s htr
        unfold Expr.eval
        rw [hv, Option.bind_some, hg, Option.bind_some, hc.arg, hrun, Option.map_some, hc.ret, hret, hx]
        rfl

theorem underCasts_sound {sc : Bool} {gs : List Callee} {ρ : Vars} {e : Expr} :
    ∀ {tys tys' : List Ty} {n : Nat} {e' : Expr}, underCasts e tys = (tys', some (n, e')) →
    ∃ us, tys' = us ++ tys ∧ ∀ v, (Expr.call n e').eval sc gs ρ = some v →
      e.eval sc gs ρ = some (us.foldl (fun v ty => (ty, convert sc v.2 ty)) v) := by
  induction e with
  | cast ty e ih =>
    intro tys tys' n e' h
    obtain ⟨us, hus, hev⟩ := ih (tys := ty :: tys) h
    refine ⟨us ++ [ty], by rw [hus, List.append_assoc]; rfl, ?_⟩
    intro v hv
    rw [List.foldl_append]
    show Option.map _ (e.eval sc gs ρ) = _
    rw [hev v hv]
    rfl
  | call f e =>
    intro tys tys' n e' h
    unfold underCasts at h
    simp only [Prod.mk.injEq, Option.some.injEq] at h
    obtain ⟨rfl, rfl, rfl⟩ := h
    exact ⟨[], rfl, fun v hv => hv⟩
  | _ =>
    intro tys tys' n e' h
    simp [underCasts] at h

theorem convAll_sound {sc : Bool} {x : Nat} {tys : List Ty} : ∀ {v : Ty × Word} {a b : CE}, Rep x v a →
    convAll a tys = some b → Rep x (tys.foldl (fun v ty => (ty, convert sc v.2 ty)) v) b := by
  induction tys with
  | nil =>
    intro v a b h hb
    obtain rfl : a = b := by simpa [convAll] using hb
    exact h
  | cons ty tys ih =>
    intro v a b h hb
    unfold convAll at hb
    cases hc : conv a ty with
    | none => rw [hc] at hb; cases hb
    | some c =>
      rw [hc] at hb
      exact ih (conv_sound h hc) hb

/-- A returned value is converted to the type of the function. -/
theorem ret_convert {sc : Bool} {x : Nat} {v : Ty × Word} {a : CE} {ret : Ty} (h : Rep x v a) (hw : width ret ≤ 32)
    (hc : (isChar a.ty && !isChar ret) = false) : repr ret (convert sc v.2 ret) = a.e.eval x % 2 ^ width ret := by
  rw [repr_convert sc _ hw]
  cases ha : isChar a.ty with
  | false => rw [h.toNat ha, mod_mod_two_pow _ hw]
  | true =>
    rw [ha, Bool.true_and, Bool.not_eq_false'] at hc
    have : ret = .char := by
      revert hc; cases ret <;> intro hc <;> first | rfl | cases hc
    subst this
    have h4 := h.val
    rw [h.ty, repr, ha, cond_true] at h4
    show v.2.toNat % 256 = a.e.eval x % 2 ^ 8
    have h5 := congrArg (· % 2 ^ 8) h4
    rw [mod_mod_two_pow _ (by decide)] at h5
    rw [← h5]
    omega

theorem compRet_sound {sc : Bool} {gs : List Callee} {fs : List CFun} {x : Nat} {ρ : Vars} {Γ : CEnv}
    (hfs : Pairs (Contract sc) gs fs) (h : Vars.Rep x ρ Γ) {ret : Ty} (hw : width ret ≤ 32) {e : Expr} {t : V}
    (ht : compRet fs ret Γ e = some t) :
    ∃ v, e.eval sc gs ρ = some v ∧ repr ret (convert sc v.2 ret) = t.eval x := by
  unfold compRet at ht
  cases hu : underCasts e [] with
  | mk tys c =>
    rw [hu] at ht
    cases c with
    | some c =>
      obtain ⟨n, e'⟩ := c
      simp only at ht
      obtain ⟨us, hus, hev⟩ := underCasts_sound (sc := sc) (gs := gs) (ρ := ρ) hu
      rw [List.append_nil] at hus
      subst hus
      cases hr : compCall fs Γ n e' with
      | none => rw [hr] at ht; cases ht
      | some r =>
        rw [hr] at ht
        simp only at ht
        obtain ⟨v, g, hv, hg, hc, hx⟩ := compCall_sound hfs h hr
        cases htr : r.1.tree with
        | b s => rw [htr] at ht; cases ht
        | v s =>
          rw [htr] at ht
          simp only at ht
          obtain ⟨hwr, hrun⟩ := hc.char s htr
          obtain ⟨y, _, hy, hys, hyl⟩ := hrun v.2
          rw [hx] at hys
          have hcall : (Expr.call n e').eval sc gs ρ = some (r.1.ret, y) := by
            unfold Expr.eval
            rw [hv, Option.bind_some, hg, Option.bind_some, hc.arg, hy, Option.map_some, hc.ret]
          -- the result as an expression in itself
          have rep0 : Rep (s.eval (r.2.eval x)) (r.1.ret, y) ⟨r.1.ret, width r.1.ret, .c⟩ := by
            refine ⟨rfl, ?_, ?_⟩
            · show repr r.1.ret y = s.eval (r.2.eval x) % 2 ^ 32
              rw [← hys]
              exact (Nat.mod_eq_of_lt (repr_lt _ _)).symm
            · show s.eval (r.2.eval x) < 2 ^ width r.1.ret
              rw [← hys]; exact hyl
          cases ha : convAll ⟨r.1.ret, width r.1.ret, .c⟩ tys with
          | none => rw [ha] at ht; cases ht
          | some a =>
            rw [ha] at ht
            simp only at ht
            have repa := convAll_sound (sc := sc) rep0 ha
            cases hb : conv a ret with
            | none => rw [hb] at ht; cases ht
            | some b =>
              rw [hb] at ht
              simp only at ht
              have repb := conv_sound (sc := sc) repa hb
              cases hbw : Nat.ble b.bits (width ret) with
              | false => rw [hbw] at ht; cases ht
              | true =>
                rw [hbw, cond_true] at ht
                have hval : repr ret (convert sc (tys.foldl (fun v ty => (ty, convert sc v.2 ty)) (r.1.ret, y)).2 ret) =
                    b.e.eval (s.eval (r.2.eval x)) := by
                  have h1 := repb.val
                  simp only at h1
                  rw [h1]
                  exact mod_eq_of_two_pow repb.bound (Nat.le_trans (Nat.le_of_ble_eq_true hbw) hw)
                refine ⟨_, hev _ hcall, ?_⟩
                rw [hval]
                revert ht
                cases hbe : b.e with
                | c =>
                  intro ht
                  obtain rfl : V.call s r.2 (width r.1.ret) = t := by simpa using ht
                  show s.eval (r.2.eval x) = s.eval (r.2.eval x) % 2 ^ width r.1.ret
                  rw [← hys]
                  exact (Nat.mod_eq_of_lt hyl).symm
                | cast e k =>
                  cases e with
                  | c =>
                    intro ht
                    obtain rfl : V.call s r.2 k = t := by simpa using ht
                    rfl
                  | _ => intro ht; cases ht
                | _ => intro ht; cases ht
    | none =>
      simp only at ht
      cases ha : compE Γ e with
      | none => rw [ha] at ht; cases ht
      | some a =>
        rw [ha] at ht
        simp only at ht
        obtain ⟨v, hv, ra⟩ := compE_sound (sc := sc) (fs := gs) h ha
        cases hc : (isChar a.ty && !isChar ret) with
        | true => rw [hc] at ht; cases ht
        | false =>
          rw [hc, cond_false] at ht
          refine ⟨v, hv, ?_⟩
          rw [ret_convert ra hw hc]
          have hsmall : Nat.ble a.bits (width ret) = true → a.e.eval x % 2 ^ width ret = a.e.eval x := fun hb =>
            mod_eq_of_two_pow ra.bound (Nat.le_of_ble_eq_true hb)
          generalize hae : a.e = ae at ht hsmall
          have fallback : some (V.ret (.cast ae (width ret))) = some t → ae.eval x % 2 ^ width ret = t.eval x := by
            intro ht
            obtain rfl : V.ret (.cast ae (width ret)) = t := by simpa using ht
            rfl
          have same : ∀ (_ : (bif Nat.ble a.bits (width ret) then some (V.ret ae) else none) = some t),
              ae.eval x % 2 ^ width ret = t.eval x := by
            intro ht
            cases hb : Nat.ble a.bits (width ret) with
            | false => rw [hb] at ht; cases ht
            | true =>
              rw [hb, cond_true] at ht
              obtain rfl : V.ret ae = t := by simpa using ht
              exact hsmall hb
          cases ae with
          | c => exact same ht
          | lit n => exact same ht
          | cast e' k =>
            simp only at ht
            cases hk : Nat.ble k (width ret) with
            | true => rw [hk, cond_true] at ht; exact same ht
            | false => rw [hk, cond_false] at ht; exact fallback ht
          | _ => exact fallback ht

end Ansak.Cxx
