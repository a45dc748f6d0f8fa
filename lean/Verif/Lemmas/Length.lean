import Verif.Lemmas.Compose
import Verif.Spec.Length

/-!
# The length-terminated UTF-8 scans
-/

namespace Ansak

open Spec (NulFree Utf8Char Utf8Text Encodable HighSurrogate LowSurrogate Surrogate LooksLow LooksHigh
  wanted NoChar CutByNul TailOk announced IsCont Truncated)

/-! ## A failure of the decoder does not depend on what follows -/

/-- If `F` fails on a NUL-free text before its NUL, it fails on the text whatever follows. -/
def Local (F : List Byte → Res Decoded) : Prop :=
  ∀ s, NulFree s → ∀ post c, F (s ++ 0 :: post) = .ok (c, none) → ∀ x, ∃ c', F (s ++ x) = .ok (c', none)

theorem Local.fail : Local fun _ => decodeFail := fun _ _ _ _ _ _ => ⟨0, rfl⟩

theorem Local.ok {v : U32} {f : List Byte → List Byte} : Local fun s => .ok (v, some (f s)) := by
  intro s _ post c h
  simp at h

theorem Local.ite {P : Prop} [Decidable P] {F G : List Byte → Res Decoded} (hF : Local F)
    (hG : Local G) : Local fun s => if P then F s else G s := by
  by_cases h : P
  · simp only [if_pos h]; exact hF
  · simp only [if_neg h]; exact hG

theorem Local.next {lo hi : Nat} {a : Byte} {k : Byte → List Byte → Res Decoded}
    (hk : ∀ uc, Local fun s => k uc (uc :: s)) : Local fun s => nextByte lo hi (a :: s) k := by
  intro s hs post c h x
  cases s with
  | nil =>
    have h : nextByte lo hi (a :: 0 :: post) k = .ok (c, none) := h
    rw [nextByte_stop] at h; simp at h
  | cons uc s =>
    have ⟨h0, hs⟩ := NulFree.cons.1 hs
    unfold nextByte at h ⊢
    simp only [List.cons_append, List.tail_cons, if_neg h0] at h ⊢
    by_cases hr : uc.toNat < lo ∨ uc.toNat > hi
    · rw [if_pos hr]; exact ⟨0, rfl⟩
    · rw [if_neg hr] at h ⊢; exact hk uc s hs post c h x

theorem decode_local (b : Byte) : Local fun s => decodeUtf8 (b :: s) := by
  unfold decodeUtf8
  refine .ite .ok (.ite .fail (.ite ?_ (.ite ?_ (.ite ?_ (.ite ?_ (.ite ?_ .fail))))))
  · exact .next fun _ => .ite .fail .ok
  · exact .next fun _ => .next fun _ => .ite (.next fun _ => .next fun _ => .next fun _ =>
      .ite .ok .fail) (.ite .fail .ok)
  · exact .next fun _ => .next fun _ => .next fun _ => .ite .fail .ok
  · exact .next fun _ => .next fun _ => .next fun _ => .next fun _ => .ite .fail .ok
  · exact .next fun _ => .next fun _ => .next fun _ => .next fun _ => .next fun _ => .ite .fail .ok

theorem fails_any {s : List Byte} (hs : NulFree s) (hne : s ≠ []) (hf : Fails s) (x : List Byte) :
    ∃ c, decodeUtf8 (s ++ x) = .ok (c, none) := by
  obtain ⟨b, t, rfl⟩ := cons_of_ne_nil hne
  obtain ⟨c, hc⟩ := hf []
  exact decode_local b t (NulFree.cons.1 hs).2 [] c hc x

/-! ## The look-ahead -/

theorem second_iff (b c1 c2 : Byte) (h1 : 0xE0 ≤ b.toNat) (h2 : b.toNat ≤ 0xEF) :
    isSecondHalfUtf16 (rawDecodeUtf8_3 b c1 c2).toNat = true ↔
      (b.toNat = 0xED ∧ 0x30 ≤ c1.toNat % 0x40) := by
  rw [isSecondHalf_iff, rawDecodeUtf8_3_toNat]
  unfold LowSurrogate
  omega

theorem first_iff (b c1 c2 : Byte) (h1 : 0xE0 ≤ b.toNat) (h2 : b.toNat ≤ 0xEF) :
    isFirstHalfUtf16 (rawDecodeUtf8_3 b c1 c2).toNat = true ↔
      (b.toNat = 0xED ∧ 0x20 ≤ c1.toNat % 0x40 ∧ c1.toNat % 0x40 < 0x30) := by
  rw [isFirstHalf_iff, rawDecodeUtf8_3_toNat]
  unfold HighSurrogate
  omega

/-- The outcome of the look-ahead in terms of the bytes. -/
def lookAhead (t : List Byte) : SeqCheck :=
  if LooksLow t then .outOfOrder else if t.length < wanted t then .outOfSpace else .go (wanted t)

theorem not_looks {b : Byte} (t : List Byte) (h : b.toNat ≠ 0xED) :
    ¬ LooksLow (b :: t) ∧ ¬ LooksHigh (b :: t) := by
  constructor
  · cases t with
    | nil => exact id
    | cons c t => exact fun hl => h hl.1
  · cases t with
    | nil => exact id
    | cons c t =>
      cases t with
      | nil => exact id
      | cons d t => exact fun hl => h hl.1

theorem wanted_cons (b : Byte) (t : List Byte) : wanted (b :: t) =
    if LooksHigh (b :: t) then 6 else if b.toNat < 0x80 then 1
    else if announced b = 0 then 0xFFFFFFFF else announced b := rfl

theorem starts_cons (b : Byte) (t : List Byte) : sequenceSizeCharStarts (b :: t) =
    .ok (if b.toNat = 0 then 0
      else if b.toNat ≤ 0x7f then 1
      else if b.toNat ≤ 0xbf then -1
      else if b.toNat ≤ 0xdf then 2
      else if b.toNat ≤ 0xef then 3
      else if b.toNat ≤ 0xf7 then 4
      else if b.toNat ≤ 0xfb then 5
      else if b.toNat ≤ 0xfd then 6
      else -1) := rfl

theorem seqCheck_other {b : Byte} {t x : List Byte} (n : Int) (w : Nat)
    (hs : sequenceSizeCharStarts (b :: (t ++ x)) = .ok n) (hn : toUnsigned n = w) (h3 : w ≠ 3)
    (hED : b.toNat ≠ 0xED) (hw : wanted (b :: t) = w) :
    seqCheck (b :: (t ++ x)) (b :: t).length = .ok (lookAhead (b :: t)) := by
  unfold seqCheck lookAhead
  have ⟨l1, _⟩ := not_looks t hED
  rw [hs, Res.bind_ok]
  simp only [hn, if_neg h3, if_neg l1, hw]
  split <;> rfl

theorem seqCheck_eq {b : Byte} {t x : List Byte} (h0 : b ≠ 0)
    (hx : 0xE0 ≤ b.toNat → b.toNat ≤ 0xEF → t.length = 1 → x ≠ []) :
    seqCheck (b :: (t ++ x)) (b :: t).length = .ok (lookAhead (b :: t)) := by
  have hb := b.isLt
  have h0' := toNat_ne_zero h0
  have hwant : b.toNat ≠ 0xED → wanted (b :: t) =
      if b.toNat < 0x80 then 1 else if announced b = 0 then 0xFFFFFFFF else announced b := by
    intro h
    rw [wanted_cons, if_neg (not_looks t h).2]
  by_cases c1 : b.toNat ≤ 0x7f
  · refine seqCheck_other 1 1 ?_ rfl (by decide) (by omega) ?_
    · rw [starts_cons, if_neg h0', if_pos c1]
    · rw [hwant (by omega), if_pos (by omega)]
  by_cases c2 : b.toNat ≤ 0xbf
  · refine seqCheck_other (-1) 0xFFFFFFFF ?_ rfl (by decide) (by omega) ?_
    · rw [starts_cons, if_neg h0', if_neg c1, if_pos c2]
    · rw [hwant (by omega), if_neg (by omega), if_pos]
      unfold announced; rw [if_pos (by omega)]
  by_cases c3 : b.toNat ≤ 0xdf
  · refine seqCheck_other 2 2 ?_ rfl (by decide) (by omega) ?_
    · rw [starts_cons, if_neg h0', if_neg c1, if_neg c2, if_pos c3]
    · rw [hwant (by omega), if_neg (by omega), announced_two c2 c3]; rfl
  by_cases c4 : b.toNat ≤ 0xef
  · have hst : sequenceSizeCharStarts (b :: (t ++ x)) = .ok 3 := by
      rw [starts_cons, if_neg h0', if_neg c1, if_neg c2, if_neg c3, if_pos c4]
    unfold seqCheck
    rw [hst, Res.bind_ok]
    simp only [show toUnsigned 3 = 3 from rfl, if_true]
    cases t with
    | nil =>
      simp only [List.length_cons, List.length_nil, Nat.zero_add, gt_iff_lt, Nat.lt_irrefl, if_false,
        Res.bind_ok, Bool.false_eq_true]
      unfold lookAhead
      rw [if_neg (id : ¬ LooksLow [b])]
      have hw : wanted [b] = 3 := by
        rw [wanted_cons, if_neg (id : ¬ LooksHigh [b]), if_neg (by omega), announced_three c3 c4]; rfl
      rw [hw]; rfl
    | cons c t =>
      have hread : ∃ d t', t ++ x = d :: t' := by
        cases t with
        | nil =>
          obtain ⟨d, x', hx⟩ := cons_of_ne_nil (hx (by omega) c4 rfl)
          exact ⟨d, x', by rw [hx]; rfl⟩
        | cons d t => exact ⟨d, t ++ x, rfl⟩
      obtain ⟨d, t', hd⟩ := hread
      rw [List.cons_append, hd]
      have hgt : (b :: c :: t).length > 1 := by simp
      rw [if_pos hgt]
      simp only [isSecondHalfUtf16AsUtf8, readAt, List.getElem?_cons_zero, List.getElem?_cons_succ,
        Res.bind_ok, second_iff b c d (by omega) c4]
      unfold lookAhead
      by_cases hl : LooksLow (b :: c :: t)
      · have hl' : b.toNat = 0xED ∧ 0x30 ≤ c.toNat % 0x40 := hl
        rw [if_pos hl, if_pos hl']
      have hl' : ¬ (b.toNat = 0xED ∧ 0x30 ≤ c.toNat % 0x40) := hl
      rw [if_neg hl, if_neg hl']
      cases t with
      | nil =>
        simp only [List.length_cons, List.length_nil, Nat.zero_add]
        have hw : wanted [b, c] = 3 := by
          rw [wanted_cons, if_neg (id : ¬ LooksHigh [b, c]), if_neg (by omega), announced_three c3 c4]; rfl
        rw [hw]; rfl
      | cons d' t =>
        rw [if_pos (show (b :: c :: d' :: t).length ≥ 3 by simp)]
        simp only [isFirstHalfUtf16AsUtf8, readAt, List.getElem?_cons_zero, List.getElem?_cons_succ,
          Res.bind_ok, first_iff b c d (by omega) c4]
        by_cases hh : LooksHigh (b :: c :: d' :: t)
        · have hh' : b.toNat = 0xED ∧ 0x20 ≤ c.toNat % 0x40 ∧ c.toNat % 0x40 < 0x30 := hh
          have hw : wanted (b :: c :: d' :: t) = 6 := by rw [wanted_cons, if_pos hh]
          rw [if_pos hh', hw]
          split <;> rfl
        · have hh' : ¬ (b.toNat = 0xED ∧ 0x20 ≤ c.toNat % 0x40 ∧ c.toNat % 0x40 < 0x30) := hh
          have hw : wanted (b :: c :: d' :: t) = 3 := by
            rw [wanted_cons, if_neg hh, if_neg (by omega), announced_three c3 c4]; rfl
          rw [if_neg hh', hw]
          split <;> rfl
  by_cases c5 : b.toNat ≤ 0xf7
  · refine seqCheck_other 4 4 ?_ rfl (by decide) (by omega) ?_
    · rw [starts_cons, if_neg h0', if_neg c1, if_neg c2, if_neg c3, if_neg c4, if_pos c5]
    · rw [hwant (by omega), if_neg (by omega), announced_four c4 c5]; rfl
  by_cases c6 : b.toNat ≤ 0xfb
  · refine seqCheck_other 5 5 ?_ rfl (by decide) (by omega) ?_
    · rw [starts_cons, if_neg h0', if_neg c1, if_neg c2, if_neg c3, if_neg c4, if_neg c5, if_pos c6]
    · rw [hwant (by omega), if_neg (by omega), announced_five c5 c6]; rfl
  by_cases c7 : b.toNat ≤ 0xfd
  · refine seqCheck_other 6 6 ?_ rfl (by decide) (by omega) ?_
    · rw [starts_cons, if_neg h0', if_neg c1, if_neg c2, if_neg c3, if_neg c4, if_neg c5, if_neg c6, if_pos c7]
    · rw [hwant (by omega), if_neg (by omega), announced_six c6 c7]; rfl
  · refine seqCheck_other (-1) 0xFFFFFFFF ?_ rfl (by decide) (by omega) ?_
    · rw [starts_cons, if_neg h0', if_neg c1, if_neg c2, if_neg c3, if_neg c4, if_neg c5, if_neg c6, if_neg c7]
    · rw [hwant (by omega), if_neg (by omega), if_pos]
      unfold announced
      rw [if_neg (by omega), if_neg c3, if_neg c4, if_neg c5, if_neg c6, if_neg c7]

/-! ## Characters and tails -/

theorem looks_of_prefix {b c d : Byte} (t : List Byte) (h : b.toNat = 0xED → c.toNat % 0x40 < 0x20) :
    ¬ LooksLow (b :: c :: d :: t) ∧ ¬ LooksHigh (b :: c :: d :: t) := by
  constructor
  · rintro ⟨h1, h2⟩; have := h h1; omega
  · rintro ⟨h1, h2, _⟩; have := h h1; omega

theorem wanted_char {bs : List Byte} {v : Nat} (hc : Utf8Char bs v) (r : List Byte) :
    wanted (bs ++ r) = bs.length ∧ ¬ LooksLow (bs ++ r) := by
  cases hc with
  | plain hv =>
    obtain ⟨h1, h2, h3⟩ := hv
    by_cases c1 : v < 0x80
    · have e : Spec.utf8 v = [BitVec.ofNat 8 v] := by
        unfold Spec.utf8 Spec.utf8Values; rw [if_pos c1]; rfl
      have hb : (BitVec.ofNat 8 v).toNat = v := toNat_byte (by omega)
      have hn := not_looks (b := BitVec.ofNat 8 v) r (by omega)
      rw [e, List.singleton_append]
      refine ⟨?_, hn.1⟩
      rw [wanted_cons, if_neg hn.2, if_pos (by omega)]; rfl
    by_cases c2 : 0x800 ≤ v ∧ v < 0x10000
    · rw [utf8_three c2.1 c2.2]
      simp only [List.cons_append, List.nil_append]
      unfold Surrogate at h3
      have hb : (BitVec.ofNat 8 (0xE0 + v / 0x1000)).toNat = 0xE0 + v / 0x1000 := toNat_byte (by omega)
      have hc : (BitVec.ofNat 8 (0x80 + v / 0x40 % 0x40)).toNat = 0x80 + v / 0x40 % 0x40 :=
        toNat_byte (by omega)
      have hn := looks_of_prefix (b := BitVec.ofNat 8 (0xE0 + v / 0x1000))
        (c := BitVec.ofNat 8 (0x80 + v / 0x40 % 0x40)) (d := BitVec.ofNat 8 (0x80 + v % 0x40)) r (by omega)
      refine ⟨?_, hn.1⟩
      rw [wanted_cons, if_neg hn.2, if_neg (by omega), announced_three (by omega) (by omega)]; rfl
    · obtain ⟨b, cs, e, hcs, hl⟩ := utf8_shape (by omega : 0x80 ≤ v) h2
      have hb := utf8_head e h2
      have hED : b.toNat ≠ 0xED := by
        repeat' split at hb
        all_goals omega
      have hn := not_looks (cs ++ r) hED
      rw [e, List.cons_append]
      refine ⟨?_, hn.1⟩
      have := announced_pos (b := b) (by omega)
      rw [wanted_cons, if_neg hn.2, if_neg (by omega), if_neg (by omega), ← hl]; rfl
  | @pair hi lo hh hl =>
    unfold HighSurrogate at hh; unfold LowSurrogate at hl
    rw [utf8_three (v := hi) (by omega) (by omega), utf8_three (v := lo) (by omega) (by omega)]
    simp only [List.cons_append, List.nil_append]
    have hb : (BitVec.ofNat 8 (0xE0 + hi / 0x1000)).toNat = 0xE0 + hi / 0x1000 := toNat_byte (by omega)
    have hc : (BitVec.ofNat 8 (0x80 + hi / 0x40 % 0x40)).toNat = 0x80 + hi / 0x40 % 0x40 :=
      toNat_byte (by omega)
    constructor
    · rw [wanted_cons, if_pos]
      · rfl
      · show _ ∧ _ ∧ _
        rw [hb, hc]; omega
    · rintro ⟨_, h⟩
      rw [hc] at h; omega

theorem truncated_wanted {t : List Byte} (h : Truncated t) : t.length < wanted t := by
  cases h with
  | @short b cs hc hl =>
    have := announced_pos (b := b) (by omega)
    have h6 : announced b ≤ 6 := by
      unfold announced
      repeat' split
      all_goals omega
    rw [wanted_cons]
    rw [List.length_cons]
    split
    · omega
    · rw [if_neg (by omega), if_neg (by omega)]; exact hl
  | half0 hb h1 h2 h3 => rw [wanted_cons, if_pos (by show _ ∧ _ ∧ _; omega)]; simp
  | half1 hb h1 h2 h3 => rw [wanted_cons, if_pos (by show _ ∧ _ ∧ _; omega)]; simp
  | half2 hb h1 h2 h3 => rw [wanted_cons, if_pos (by show _ ∧ _ ∧ _; omega)]; simp

theorem nul_split (t : List Byte) : NulFree t ∨ ∃ u w, t = u ++ 0 :: w ∧ NulFree u := by
  induction t with
  | nil => exact .inl NulFree.nil
  | cons b t ih =>
    by_cases h : b = 0
    · exact .inr ⟨[], t, by rw [h]; rfl, NulFree.nil⟩
    · rcases ih with ih | ⟨u, w, rfl, hu⟩
      · exact .inl (NulFree.cons.2 ⟨h, ih⟩)
      · exact .inr ⟨b :: u, w, rfl, NulFree.cons.2 ⟨h, hu⟩⟩

theorem nul_split_unique {u u' w w' : List Byte} (hu : NulFree u) (hu' : NulFree u')
    (h : u ++ 0 :: w = u' ++ 0 :: w') : u = u' := by
  induction u generalizing u' with
  | nil =>
    cases u' with
    | nil => rfl
    | cons b u' =>
      simp only [List.nil_append, List.cons_append, List.cons.injEq] at h
      exact absurd h.1.symm (NulFree.cons.1 hu').1
  | cons b u ih =>
    cases u' with
    | nil =>
      simp only [List.nil_append, List.cons_append, List.cons.injEq] at h
      exact absurd h.1 (NulFree.cons.1 hu).1
    | cons b' u' =>
      simp only [List.cons_append, List.cons.injEq] at h
      rw [h.1, ih (NulFree.cons.1 hu).2 (NulFree.cons.1 hu').2 h.2]

/-- What the decoder does where no character starts but enough bytes are there. -/
theorem decode_tail {b : Byte} {t : List Byte} (hn : NoChar (b :: t)) (h0 : b ≠ 0)
    (hw : ¬ (b :: t).length < wanted (b :: t)) (x : List Byte) :
    (CutByNul (b :: t) ∧ ∃ q, decodeUtf8 (b :: (t ++ x)) = .ok (0, some (0 :: q))) ∨
    (¬ CutByNul (b :: t) ∧ ∃ c, decodeUtf8 (b :: (t ++ x)) = .ok (c, none)) := by
  rcases nul_split (b :: t) with hnf | ⟨u, w, e, hu⟩
  · right
    constructor
    · rintro ⟨u, w, e, _⟩
      have := hnf 0 (by rw [e]; simp)
      exact this rfl
    · rcases decode_cases hnf (by simp) with ⟨bs, v, rest, e, hc⟩ | h | h
      · exact absurd ⟨bs, v, rest, e, hc⟩ hn
      · exact absurd (truncated_wanted h) hw
      · exact fails_any hnf (by simp) h x
  · have hune : u ≠ [] := by
      rintro rfl
      simp only [List.nil_append, List.cons.injEq] at e
      exact h0 e.1
    have e' : b :: (t ++ x) = u ++ 0 :: (w ++ x) := by
      rw [← List.cons_append, e, List.append_assoc, List.cons_append]
    rcases decode_cases hu hune with ⟨bs, v, rest, eu, hc⟩ | h | h
    · exact absurd ⟨bs, v, rest ++ 0 :: w, by rw [e, eu, List.append_assoc], hc⟩ hn
    · left
      exact ⟨⟨u, w, e, h⟩, w ++ x, by rw [e']; exact stops_truncated h _⟩
    · right
      constructor
      · rintro ⟨u', w', e2, ht⟩
        have := nul_split_unique hu (truncated_nulFree ht) (e.symm.trans e2)
        subst this
        exact not_fails_of_truncated ht h
      · rw [e']; exact h _

/-! ## The validator -/

theorem isUtf8Loop_len_eq (U : CharClass) (f : Nat) (pred : Pred) (b : Byte) (t : List Byte)
    (l pl : Nat) :
    isUtf8Loop U true f pred (b :: t) l pl =
      if b = 0 then .ok false
      else if getRangeFlag8 b.toNat &&& f = 0 then .ok false
      else match seqCheck (b :: t) l with
      | .ub => .ub
      | .ok .outOfOrder => .ok false
      | .ok .outOfSpace => .ok true
      | .ok (.go seqStarts) =>
        match decodeUtf8 (b :: t) with
        | .ub => .ub
        | .ok (_, none) => .ok false
        | .ok (c, some q) =>
          if c = 0 then (readAt q 0).bind fun b' => .ok (b' == 0)
          else
            if seqStarts ≠ (pl - q.length) % 4294967296 then .ok false
            else if getCharEncodableRangeFlags c.toNat &&& f = 0 ∨ pred.call32 U c.toNat = false then
              .ok false
            else if l ≤ (pl - q.length) % 4294967296 then .ok true
            else isUtf8Loop U true f pred q.tail (l - (pl - q.length) % 4294967296) q.length := by
  rw [isUtf8Loop]
  simp only [seqCheckIf, if_true, true_and, Bool.not_true, pred32_reject]
  split
  · rfl
  · split
    · rfl
    · split <;> rename_i hsq <;> rw [hsq]
      split <;> rename_i hd <;> simp only [hd]

/-- Nothing outside the text is read, with the exception of the second but last byte of the look-ahead. -/
def OneMore (t x : List Byte) : Prop :=
  ∀ b c, t = [b, c] → 0xE0 ≤ b.toNat → b.toNat ≤ 0xEF → x ≠ []

theorem OneMore.of_ne {t x : List Byte} (h : x ≠ []) : OneMore t x := fun _ _ _ _ _ => h

theorem seqCheck_tail {b : Byte} {t x : List Byte} (h0 : b ≠ 0) (hx : OneMore (b :: t) x) :
    seqCheck (b :: (t ++ x)) (b :: t).length = .ok (lookAhead (b :: t)) := by
  refine seqCheck_eq h0 fun h1 h2 h3 => ?_
  match t, h3 with
  | [c], _ => exact hx b c rfl h1 h2

theorem char_long {b : Byte} {t : List Byte} {v : Nat} (hc : Utf8Char (b :: t) v)
    (h : 0xE0 ≤ b.toNat) : 3 ≤ (b :: t).length := by
  have hw := (wanted_char hc []).1
  rw [List.append_nil, wanted_cons] at hw
  rw [← hw]
  split
  · decide
  · rw [if_neg (by omega)]
    split
    · decide
    · rename_i hne
      have := announced_pos (b := b) (by omega)
      unfold announced
      rw [if_neg (by omega), if_neg (by omega)]
      repeat' split
      all_goals omega

theorem seqCheck_char {b : Byte} {t r x : List Byte} {v : Nat} (hc : Utf8Char (b :: t) v)
    (h0 : b ≠ 0) :
    seqCheck (b :: (t ++ (r ++ x))) (b :: t ++ r).length = .ok (.go (b :: t).length) := by
  have hw := wanted_char hc r
  have := seqCheck_eq (b := b) (t := t ++ r) (x := x) h0 (fun h1 _ h3 => by
    have := char_long hc h1
    simp only [List.length_append, List.length_cons] at h3 this
    omega)
  rw [List.append_assoc] at this
  rw [List.cons_append, this]
  unfold lookAhead
  rw [List.cons_append] at hw
  rw [if_neg hw.2, hw.1, if_neg (by simp)]

theorem char_short {bs : List Byte} {v : Nat} (hc : Utf8Char bs v) : bs.length ≤ 6 := by
  have hw := (wanted_char hc []).1
  obtain ⟨b, t, y, rfl, hb, hd⟩ := at_char hc []
  have henc := char_encodable hc
  have hl := ((accept_char .utf8 hc).2 (by unfold Acc8; have := henc.2.1; omega)).1
  rw [List.append_nil, wanted_cons] at hw
  rw [← hw]
  unfold Lead8 at hl
  have := char_head hc
  split
  · decide
  split
  · decide
  · unfold announced
    repeat' split
    all_goals omega

/-- One character of a length-terminated validation. -/
theorem isUtf8Loop_char (U : CharClass) (pred : Pred) {bs : List Byte} {v : Nat}
    (hc : Utf8Char bs v) (r x : List Byte) :
    isUtf8Loop U true (flagOf .utf8) pred (bs ++ (r ++ x)) (bs ++ r).length
        ((bs ++ (r ++ x)).length + 1) =
      if pred.call32 U v = false then .ok false
      else if r = [] then .ok true
      else isUtf8Loop U true (flagOf .utf8) pred (r ++ x) r.length ((r ++ x).length + 1) := by
  obtain ⟨b, t, y, rfl, hb, hd⟩ := at_char hc (r ++ x)
  have henc := char_encodable hc
  have hlt : v < 0x80000000 := by have := henc.2.1; omega
  have hl := (accept_char .utf8 hc).2 hlt
  have h6 := char_short hc
  rw [List.cons_append, isUtf8Loop_len_eq, if_neg hb, if_neg ((lead_flags .utf8 (char_head hc)).2 hl.1),
    seqCheck_char hc hb, hd]
  have hu : (((b :: (t ++ (r ++ x))).length + 1) - (y :: (r ++ x)).length) % 4294967296 =
      (b :: t).length := by
    simp only [List.length_cons, List.length_append] at h6 ⊢
    omega
  simp only [if_neg (char_ne_zero hc), hu, ne_eq, not_true_eq_false, if_false, char_toNat hc,
    List.tail_cons]
  have hcf := (char_flags .utf8 (by omega) henc.2.2).2 hl.2
  by_cases hp : pred.call32 U v = false
  · rw [if_pos (.inr hp), if_pos hp]
  · rw [if_neg (fun h => h.elim hcf hp), if_neg hp]
    by_cases hr : r = []
    · subst hr
      rw [if_pos (by simp), if_pos rfl]
    · have : 0 < r.length := List.length_pos_iff.2 hr
      rw [if_neg (by simp only [List.length_append]; omega), if_neg hr]
      have e : (b :: t ++ r).length - (b :: t).length = r.length := by
        simp only [List.length_append]; omega
      rw [e]
      rfl

theorem isUtf8Loop_tail (U : CharClass) (pred : Pred) {t : List Byte} (hne : t ≠ []) (hn : NoChar t)
    (x : List Byte) (hx : OneMore t x) (pl : Nat) :
    ∃ b, isUtf8Loop U true (flagOf .utf8) pred (t ++ x) t.length pl = .ok b ∧ (b = true ↔ TailOk t) := by
  obtain ⟨b, t, rfl⟩ := cons_of_ne_nil hne
  rw [List.cons_append, isUtf8Loop_len_eq]
  by_cases h0 : b = 0
  · rw [if_pos h0]
    refine ⟨false, rfl, by simp, ?_⟩
    rintro ⟨b', t', e, h1, _⟩
    simp only [List.cons.injEq] at e
    rw [← e.1, h0] at h1
    exact absurd h1 (by decide)
  rw [if_neg h0]
  by_cases hlead : 0xC0 ≤ b.toNat ∧ b.toNat ≤ 0xFD
  · rw [if_neg ((lead_flags .utf8 (.inr hlead.1)).2 (by unfold Lead8; omega)), seqCheck_tail h0 hx]
    unfold lookAhead
    by_cases hlo : LooksLow (b :: t)
    · rw [if_pos hlo]
      refine ⟨false, rfl, by simp, ?_⟩
      rintro ⟨_, _, _, _, _, h, _⟩
      exact absurd hlo h
    rw [if_neg hlo]
    by_cases hw : (b :: t).length < wanted (b :: t)
    · rw [if_pos hw]
      exact ⟨true, rfl, fun _ => ⟨b, t, rfl, hlead.1, hlead.2, hlo, .inl hw⟩, fun _ => rfl⟩
    rw [if_neg hw]
    rcases decode_tail hn h0 hw x with ⟨h1, q, hd⟩ | ⟨h1, c, hd⟩
    · rw [hd]
      exact ⟨true, rfl, fun _ => ⟨b, t, rfl, hlead.1, hlead.2, hlo, .inr h1⟩, fun _ => rfl⟩
    · rw [hd]
      refine ⟨false, rfl, by simp, ?_⟩
      rintro ⟨_, _, _, _, _, _, h⟩
      exact (h.elim hw h1).elim
  · refine ⟨false, ?_, by simp, ?_⟩
    · rw [if_pos]
      by_cases h8 : b.toNat < 0x80
      · exfalso
        refine hn ⟨[b], b.toNat, t, rfl, ?_⟩
        have h1 := toNat_ne_zero h0
        have e : [b] = Spec.utf8 b.toNat := by
          unfold Spec.utf8 Spec.utf8Values; rw [if_pos h8]
          simp only [List.map_cons, List.map_nil, byte_eq rfl]
        rw [e]
        exact .plain ⟨by omega, by omega, by unfold Surrogate; omega⟩
      · unfold getRangeFlag8
        have := b.isLt
        rw [if_neg (by omega)]
        by_cases h9 : b.toNat ≤ 0xbf
        · rw [if_pos h9]; decide
        · rw [if_neg h9, if_neg (by omega), if_neg (by omega), if_neg (by omega)]; decide
    · rintro ⟨b', t', e, h1, h2, _⟩
      simp only [List.cons.injEq] at e
      rw [← e.1] at h1 h2
      exact absurd ⟨h1, h2⟩ hlead

theorem isUtf8Loop_text (U : CharClass) (pred : Pred) {a : List Byte} {vs : List Nat}
    (ha : Utf8Text a vs) {t : List Byte} (hne : a ++ t ≠ []) (hn : t = [] ∨ NoChar t)
    (x : List Byte) (hx : OneMore t x) :
    ∃ b, isUtf8Loop U true (flagOf .utf8) pred (a ++ (t ++ x)) (a ++ t).length
        ((a ++ (t ++ x)).length + 1) = .ok b ∧
      (b = true ↔ (∀ v ∈ vs, pred.call32 U v = true) ∧ (t = [] ∨ TailOk t)) := by
  induction ha with
  | nil =>
    simp only [List.nil_append] at hne ⊢
    obtain ⟨b, h1, h2⟩ := isUtf8Loop_tail U pred hne (hn.resolve_left hne) x hx ((t ++ x).length + 1)
    exact ⟨b, h1, by rw [h2]; simp [hne]⟩
  | @cons bs s v vs hc _ ih =>
    rw [List.append_assoc, List.append_assoc, ← List.append_assoc s t x, isUtf8Loop_char U pred hc,
      List.append_assoc s t x]
    by_cases hp : pred.call32 U v = false
    · rw [if_pos hp]
      exact ⟨false, rfl, by simp [hp]⟩
    rw [if_neg hp]
    have hp' : pred.call32 U v = true := by simpa using hp
    by_cases hr : s ++ t = []
    · rw [if_pos hr]
      have ⟨hs, ht⟩ := List.append_eq_nil_iff.1 hr
      subst hs ht
      rename_i hs
      have := (text_eq_nil_iff hs).1 rfl
      subst this
      exact ⟨true, rfl, by simp [hp']⟩
    · rw [if_neg hr]
      obtain ⟨b, h1, h2⟩ := ih hr
      exact ⟨b, h1, by rw [h2]; simp [hp']⟩

/-! ## The counter -/

theorem unicodeLength8Loop_len_eq (b : Byte) (t : List Byte) (l pl n : Nat) :
    unicodeLength8Loop true (b :: t) l pl n =
      if b = 0 then .ok 0
      else match seqCheck (b :: t) l with
      | .ub => .ub
      | .ok .outOfOrder => .ok 0
      | .ok .outOfSpace => .ok (uintOf n)
      | .ok (.go _) =>
        match decodeUtf8 (b :: t) with
        | .ub => .ub
        | .ok (_, none) => .ok 0
        | .ok (c, some q) =>
          if kUnicodeFlag &&& getCharEncodableRangeFlags c.toNat = 0 then .ok 0
          else if c = 0 then
            (readAt q 0).bind fun b' => .ok (if b' = 0 then uintOf n - 1 else 0)
          else if l = (pl - q.length) % 4294967296 then .ok (uintOf (n + 1))
          else unicodeLength8Loop true q.tail (usub l ((pl - q.length) % 4294967296)) q.length (n + 1) := by
  rw [unicodeLength8Loop]
  simp only [seqCheckIf, if_true]
  split
  · rfl
  · split <;> rename_i hsq <;> rw [hsq]
    split <;> rename_i hd <;> simp only [hd]

/-- One character of a length-terminated count. -/
theorem unicodeLength8Loop_char {bs : List Byte} {v : Nat}
    (hc : Utf8Char bs v) (r x : List Byte) (hlen : (bs ++ r).length < 4294967296) (n : Nat) :
    unicodeLength8Loop true (bs ++ (r ++ x)) (bs ++ r).length ((bs ++ (r ++ x)).length + 1) n =
      if ¬ v ≤ 0x10FFFF then .ok 0
      else if r = [] then .ok (uintOf (n + 1))
      else unicodeLength8Loop true (r ++ x) r.length ((r ++ x).length + 1) (n + 1) := by
  have h6 := char_short hc
  obtain ⟨b, t, y, rfl, hb, hd⟩ := at_char hc (r ++ x)
  have henc := char_encodable hc
  have hcf := char_flags .unicode (v := v) (by have := henc.2.1; omega) henc.2.2
  rw [Nat.and_comm, show flagOf .unicode = kUnicodeFlag by decide] at hcf
  simp only [AccFlags] at hcf
  rw [List.cons_append, unicodeLength8Loop_len_eq, if_neg hb, seqCheck_char hc hb, hd]
  have hu : (((b :: (t ++ (r ++ x))).length + 1) - (y :: (r ++ x)).length) % 4294967296 =
      (b :: t).length := by
    simp only [List.length_cons, List.length_append] at h6 ⊢
    omega
  simp only [if_neg (char_ne_zero hc), hu, char_toNat hc, List.tail_cons]
  by_cases hv : v ≤ 0x10FFFF
  · rw [if_neg (hcf.2 (by omega)), if_neg (show ¬ ¬ v ≤ 0x10FFFF from fun h => h hv)]
    by_cases hr : r = []
    · subst hr
      rw [if_pos (by simp), if_pos rfl]
    · have : 0 < r.length := List.length_pos_iff.2 hr
      rw [if_neg (by simp only [List.length_append]; omega), if_neg hr]
      have e : usub (b :: t ++ r).length (b :: t).length = r.length := by
        unfold usub
        simp only [List.length_append] at hlen ⊢
        omega
      rw [e]
      rfl
  · have h0 : kUnicodeFlag &&& getCharEncodableRangeFlags v = 0 := by
      have := mt hcf.1 (by omega : ¬ v < 0x110000); omega
    rw [if_pos h0, if_pos hv]

theorem unicodeLength8Loop_text {a : List Byte} {vs : List Nat}
    (ha : Utf8Text a vs) {t : List Byte} (hne : a ++ t ≠ []) (x : List Byte)
    (hlen : (a ++ t).length < 4294967296) (n : Nat) :
    unicodeLength8Loop true (a ++ (t ++ x)) (a ++ t).length ((a ++ (t ++ x)).length + 1) n =
      if ∀ v ∈ vs, v ≤ 0x10FFFF then
        if t = [] then .ok (uintOf (n + vs.length))
        else unicodeLength8Loop true (t ++ x) t.length ((t ++ x).length + 1) (n + vs.length)
      else .ok 0 := by
  induction ha generalizing n with
  | nil =>
    simp only [List.nil_append] at hne ⊢
    rw [if_pos (by simp), if_neg hne]; rfl
  | @cons bs s v vs hc hs ih =>
    rw [List.append_assoc] at hlen
    rw [List.append_assoc, List.append_assoc, ← List.append_assoc s t x,
      unicodeLength8Loop_char hc _ _ hlen, List.append_assoc s t x]
    simp only [List.forall_mem_cons, List.length_cons]
    by_cases hv : v ≤ 0x10FFFF
    · rw [if_neg (fun h => h hv)]
      by_cases hr : s ++ t = []
      · rw [if_pos hr]
        have ⟨hs', ht⟩ := List.append_eq_nil_iff.1 hr
        subst hs' ht
        have := (text_eq_nil_iff hs).1 rfl
        subst this
        simp [hv]
      · rw [if_neg hr, ih hr (by rw [List.length_append] at hlen; omega)]
        have : n + 1 + vs.length = n + (vs.length + 1) := by omega
        simp only [hv, true_and, this]
    · rw [if_pos hv, if_neg (fun h => hv h.1)]

/-- The end of a length-terminated count. -/
theorem unicodeLength8Loop_tail {b : Byte} {t : List Byte} (hn : NoChar (b :: t)) (h0 : b ≠ 0)
    (x : List Byte) (hx : OneMore (b :: t) x) (pl n : Nat) :
    ∃ r, unicodeLength8Loop true (b :: (t ++ x)) (b :: t).length pl n = .ok r ∧
      (LooksLow (b :: t) → r = 0) ∧
      (¬ LooksLow (b :: t) → (b :: t).length < wanted (b :: t) → r = uintOf n) ∧
      (¬ LooksLow (b :: t) → ¬ (b :: t).length < wanted (b :: t) → CutByNul (b :: t) → r = uintOf n - 1) ∧
      (¬ LooksLow (b :: t) → ¬ (b :: t).length < wanted (b :: t) → ¬ CutByNul (b :: t) → r = 0) := by
  rw [unicodeLength8Loop_len_eq, if_neg h0, seqCheck_tail h0 hx]
  unfold lookAhead
  by_cases hlo : LooksLow (b :: t)
  · rw [if_pos hlo]
    exact ⟨0, rfl, fun _ => rfl, fun h => absurd hlo h, fun h => absurd hlo h, fun h => absurd hlo h⟩
  rw [if_neg hlo]
  by_cases hw : (b :: t).length < wanted (b :: t)
  · rw [if_pos hw]
    exact ⟨_, rfl, fun h => absurd h hlo, fun _ _ => rfl, fun _ h => absurd hw h, fun _ h => absurd hw h⟩
  rw [if_neg hw]
  rcases decode_tail hn h0 hw x with ⟨h1, q, hd⟩ | ⟨h1, c, hd⟩
  · rw [hd]
    have hf : kUnicodeFlag &&& getCharEncodableRangeFlags (0 : U32).toNat ≠ 0 := by decide
    refine ⟨uintOf n - 1, ?_, fun h => absurd h hlo, fun _ h => absurd h hw, fun _ _ _ => rfl,
      fun _ _ h => absurd h1 h⟩
    simp only [if_neg hf, readAt, List.getElem?_cons_zero, Res.bind_ok, if_true]
  · rw [hd]
    exact ⟨0, rfl, fun h => absurd h hlo, fun _ h => absurd h hw, fun _ _ h => absurd h h1, fun _ _ _ => rfl⟩

/-! ## Every text splits into characters and a rest where no character starts -/

theorem text_split (p : List Byte) : ∃ a vs t, p = a ++ t ∧ Utf8Text a vs ∧ (t = [] ∨ NoChar t) := by
  generalize hn : p.length = n
  induction n using Nat.strongRecOn generalizing p with
  | ind n ih =>
    by_cases h : NoChar p
    · exact ⟨[], [], p, rfl, .nil, .inr h⟩
    · have h := Classical.not_not.1 h
      obtain ⟨bs, v, rest, rfl, hc⟩ := h
      have : 0 < bs.length := List.length_pos_iff.2 (char_ne_nil hc)
      obtain ⟨a, vs, t, rfl, ha, ht⟩ := ih rest.length (by rw [List.length_append] at hn; omega) rest rfl
      exact ⟨bs ++ a, v :: vs, t, (List.append_assoc ..).symm, .cons hc ha, ht⟩

theorem noChar_truncated {t : List Byte} (h : Truncated t) : NoChar t := by
  rintro ⟨bs, v, rest, e, hc⟩
  exact not_char_of_truncated h hc e

theorem noChar_nul (w : List Byte) : NoChar (0 :: w) := by
  rintro ⟨bs, v, rest, e, hc⟩
  obtain ⟨b, t, y, rfl, hb, _⟩ := at_char hc []
  simp only [List.cons_append, List.cons.injEq] at e
  exact hb e.1.symm

theorem text_length_le {a : List Byte} {vs : List Nat} (h : Utf8Text a vs) : vs.length ≤ a.length := by
  induction h with
  | nil => simp
  | cons hc _ ih =>
    have : 0 < List.length _ := List.length_pos_iff.2 (char_ne_nil hc)
    simp only [List.length_append, List.length_cons]
    omega

end Ansak
