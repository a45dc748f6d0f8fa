import Verif.Model.Trim
import Verif.Spec.Edit
import Verif.Lemmas.Compose

namespace Ansak

open Spec (TrimmedTo TrimBlank Scalar utf16Of utf8Of)

section
variable {α : Type}

theorem trimBack_snoc (blank : α → Bool) (s : List α) (c : α) :
    trimBack blank (s ++ [c]) = if blank c then trimBack blank s else s ++ [c] := by
  rw [trimBack]
  split
  · rename_i h; simp at h
  · rename_i d h
    rw [List.getLast?_concat] at h
    cases h
    rw [List.dropLast_concat]

theorem trimBack_nil (blank : α → Bool) : trimBack blank ([] : List α) = [] := by
  rw [trimBack]; rfl

/-- A string from its end. -/
theorem snoc_induction {P : List α → Prop} (h0 : P []) (h1 : ∀ s c, P s → P (s ++ [c])) (s : List α) : P s := by
  have : P s.reverse.reverse := by
    generalize s.reverse = t
    induction t with
    | nil => exact h0
    | cons c t ih => rw [List.reverse_cons]; exact h1 _ _ ih
  rwa [List.reverse_reverse] at this

theorem trimBack_spec (blank : α → Bool) (s : List α) :
    (∃ suf, s = trimBack blank s ++ suf ∧ ∀ c ∈ suf, blank c = true) ∧
    ∀ c, (trimBack blank s).getLast? = some c → blank c = false := by
  induction s using snoc_induction with
  | h0 => rw [trimBack_nil]; exact ⟨⟨[], rfl, by simp⟩, by simp⟩
  | h1 s c ih =>
    rw [trimBack_snoc]
    by_cases hb : blank c = true
    · rw [if_pos hb]
      obtain ⟨⟨suf, e, h⟩, h2⟩ := ih
      refine ⟨⟨suf ++ [c], ?_, ?_⟩, h2⟩
      · rw [← List.append_assoc, ← e]
      · intro d hd
        rw [List.mem_append, List.mem_singleton] at hd
        rcases hd with hd | rfl
        · exact h d hd
        · exact hb
    · rw [if_neg hb]
      refine ⟨⟨[], by rw [List.append_nil], by simp⟩, ?_⟩
      intro d hd
      rw [List.getLast?_concat] at hd
      cases hd
      simpa using hb

theorem trimFront_spec (blank : α → Bool) (s : List α) :
    (∃ pre, s = pre ++ trimFront blank s ∧ ∀ c ∈ pre, blank c = true) ∧
    ∀ c, (trimFront blank s).head? = some c → blank c = false := by
  induction s with
  | nil => exact ⟨⟨[], rfl, by simp⟩, by simp [trimFront]⟩
  | cons c s ih =>
    unfold trimFront
    by_cases hb : blank c = true
    · rw [if_pos hb]
      obtain ⟨⟨pre, e, h⟩, h2⟩ := ih
      refine ⟨⟨c :: pre, by rw [List.cons_append, ← e], ?_⟩, h2⟩
      rw [List.forall_mem_cons]; exact ⟨hb, h⟩
    · rw [if_neg hb]
      refine ⟨⟨[], rfl, by simp⟩, ?_⟩
      intro d hd
      cases hd
      simpa using hb

theorem getLast?_of_suffix {a b : List α} (hb : b ≠ []) : (a ++ b).getLast? = b.getLast? := by
  rw [List.getLast?_append]
  cases h : b.getLast? with
  | none => rw [List.getLast?_eq_none_iff] at h; exact absurd h hb
  | some c => rfl

theorem trim_trimmedTo {P : α → Prop} {blank : α → Bool} (hP : ∀ c, blank c = true ↔ P c) (s : List α) :
    TrimmedTo P s (trimFront blank (trimBack blank s)) := by
  obtain ⟨⟨suf, e1, h1⟩, h2⟩ := trimBack_spec blank s
  obtain ⟨⟨pre, e3, h3⟩, h4⟩ := trimFront_spec blank (trimBack blank s)
  refine ⟨⟨pre, suf, ?_, fun c hc => (hP c).1 (h3 c hc), fun c hc => (hP c).1 (h1 c hc)⟩, ?_, ?_⟩
  · rw [← e3, ← e1]
  · intro c hc h
    rw [← hP, h4 c hc] at h
    exact absurd h (by decide)
  · intro c hc h
    have hne : trimFront blank (trimBack blank s) ≠ [] := by
      intro e; rw [e] at hc; simp at hc
    rw [← hP, h2 c (by rw [e3, getLast?_of_suffix hne]; exact hc)] at h
    exact absurd h (by decide)

theorem trimmedTo_unique {P : α → Prop} {s r r' : List α} (h : TrimmedTo P s r) (h' : TrimmedTo P s r') :
    r = r' := by
  obtain ⟨⟨pre, suf, e, hp, hs⟩, hh, hl⟩ := h
  obtain ⟨⟨pre', suf', e', hp', hs'⟩, hh', hl'⟩ := h'
  -- the front
  have front : ∀ (a b x y : List α), a ++ x = b ++ y → (∀ c ∈ a, P c) → (∀ c ∈ b, P c) →
      (∀ c, x.head? = some c → ¬ P c) → (∀ c, y.head? = some c → ¬ P c) → x = [] ∨ y = [] ∨ x = y := by
    intro a
    induction a with
    | nil =>
      intro b x y e _ hb hx _
      cases b with
      | nil => exact .inr (.inr e)
      | cons c b =>
        rw [List.nil_append] at e
        exact absurd (hb c (by simp)) (hx c (by rw [e]; rfl))
    | cons d a ih =>
      intro b x y e ha hb hx hy
      cases b with
      | nil =>
        rw [List.nil_append] at e
        exact absurd (ha d (by simp)) (hy d (by rw [← e]; rfl))
      | cons c b =>
        rw [List.cons_append, List.cons_append, List.cons.injEq] at e
        exact ih b x y e.2 (fun c hc => ha c (by simp [hc])) (fun c hc => hb c (by simp [hc])) hx hy
  have empty : ∀ (r : List α) (pre suf : List α), s = pre ++ r ++ suf → (∀ c ∈ s, P c) →
      (∀ c, r.head? = some c → ¬ P c) → r = [] := by
    intro r pre suf e ha hr
    cases r with
    | nil => rfl
    | cons c r => exact absurd (ha c (by rw [e]; simp)) (hr c rfl)
  by_cases hall : ∀ c ∈ s, P c
  · rw [empty r pre suf e hall hh, empty r' pre' suf' e' hall hh']
  · have key : ∀ (r : List α) (pre suf : List α), s = pre ++ r ++ suf → (∀ c ∈ pre, P c) → (∀ c ∈ suf, P c) →
        r ≠ [] := by
      rintro r pre suf e hp hs rfl
      refine hall fun c hc => ?_
      rw [e, List.append_nil, List.mem_append] at hc
      exact hc.elim (hp c) (hs c)
    have hr := key r pre suf e hp hs
    have hr' := key r' pre' suf' e' hp' hs'
    have h1 : r ++ suf = r' ++ suf' := by
      have := front pre pre' (r ++ suf) (r' ++ suf') (by rw [← List.append_assoc, ← List.append_assoc, ← e, ← e'])
        hp hp' (fun c hc => hh c (by cases r with | nil => exact absurd rfl hr | cons => exact hc))
        (fun c hc => hh' c (by cases r' with | nil => exact absurd rfl hr' | cons => exact hc))
      rcases this with h | h | h
      · rw [List.append_eq_nil_iff] at h; exact absurd h.1 hr
      · rw [List.append_eq_nil_iff] at h; exact absurd h.1 hr'
      · exact h
    have h2 := congrArg List.reverse h1
    rw [List.reverse_append, List.reverse_append] at h2
    have := front suf.reverse suf'.reverse r.reverse r'.reverse h2
      (fun c hc => hs c (List.mem_reverse.1 hc)) (fun c hc => hs' c (List.mem_reverse.1 hc))
      (fun c hc => hl c (by rwa [List.head?_reverse] at hc))
      (fun c hc => hl' c (by rwa [List.head?_reverse] at hc))
    rcases this with h | h | h
    · rw [List.reverse_eq_nil_iff] at h; exact absurd h hr
    · rw [List.reverse_eq_nil_iff] at h; exact absurd h hr'
    · exact List.reverse_inj.1 h

/-- Trimming something trimmed changes nothing. -/
theorem trimmedTo_self {P : α → Prop} {s r : List α} (h : TrimmedTo P s r) : TrimmedTo P r r :=
  ⟨⟨[], [], by simp, by simp, by simp⟩, h.2⟩

end

/-! ## White space -/

theorem mem_toNat {w : Nat} {l : List (BitVec w)} {c : BitVec w} : c ∈ l ↔ c.toNat ∈ l.map BitVec.toNat := by
  rw [List.mem_map]
  exact ⟨fun h => ⟨c, h, rfl⟩, fun ⟨d, hd, e⟩ => BitVec.eq_of_toNat_eq e ▸ hd⟩

theorem trimBlank_mem (v : Nat) : v ∈ [0x9, 0xA, 0xD, 0x20, 0xA0, 0x2000, 0x2001, 0x2002, 0x2003, 0x2004, 0x2005,
    0x2006, 0x2007, 0x2008, 0x2009, 0x200A, 0x202F, 0x205F, 0x3000] ↔ TrimBlank v := by
  unfold TrimBlank
  simp only [List.mem_cons, List.not_mem_nil, or_false]
  omega

theorem spaces16_mem (c : U16) : findFirstOf spaces16 c = true ↔ TrimBlank c.toNat := by
  unfold findFirstOf
  rw [decide_eq_true_iff, mem_toNat, ← trimBlank_mem]
  rfl

theorem spaces32_mem (c : U32) : findFirstOf spaces32 c = true ↔ TrimBlank c.toNat := by
  unfold findFirstOf
  rw [decide_eq_true_iff, mem_toNat, ← trimBlank_mem]
  rfl

theorem utf16Of_append (a b : List Nat) : utf16Of (a ++ b) = utf16Of a ++ utf16Of b := by
  unfold utf16Of; rw [List.flatMap_append]

/-- Trimming characters trims units: the blanks are single units, and no half of a pair is a blank. -/
theorem trimmedTo_utf16 {vs ws : List Nat} (hv : ∀ v ∈ vs, Scalar v)
    (h : TrimmedTo TrimBlank vs ws) :
    TrimmedTo (fun c : U16 => TrimBlank c.toNat) (utf16Of vs) (utf16Of ws) := by
  obtain ⟨⟨pre, suf, e, hp, hs⟩, hh, hl⟩ := h
  have one : ∀ v, TrimBlank v → v ≤ 0xFFFF := by intro v hb; unfold TrimBlank at hb; omega
  have blank : ∀ l : List Nat, (∀ v ∈ l, TrimBlank v) → ∀ c ∈ utf16Of l, TrimBlank c.toNat := by
    intro l hb c hc
    unfold utf16Of at hc
    rw [List.mem_flatMap] at hc
    obtain ⟨v, hv, hc⟩ := hc
    have := one v (hb v hv)
    rw [utf16_bmp this, List.mem_singleton] at hc
    rw [hc, BitVec.toNat_ofNat, Nat.mod_eq_of_lt (by omega)]
    exact hb v hv
  have hw : ∀ v ∈ ws, Scalar v := fun v h => hv v (by rw [e]; simp [h])
  have units : ∀ v, Scalar v → ¬ TrimBlank v → ∀ c ∈ Spec.utf16 v, ¬ TrimBlank c.toNat := by
    intro v hsv hb c hc
    unfold Scalar at hsv
    unfold Spec.utf16 at hc
    split at hc
    · rw [List.mem_singleton] at hc
      rw [hc, BitVec.toNat_ofNat, Nat.mod_eq_of_lt (by omega)]
      exact hb
    · rw [List.mem_cons, List.mem_singleton] at hc
      rcases hc with rfl | rfl <;> rw [BitVec.toNat_ofNat, Nat.mod_eq_of_lt (by omega)] <;>
        unfold TrimBlank <;> omega
  have ne : ∀ v, Spec.utf16 v ≠ [] := by intro v; unfold Spec.utf16; split <;> simp
  refine ⟨⟨utf16Of pre, utf16Of suf, ?_, blank pre hp, blank suf hs⟩, ?_, ?_⟩
  · rw [e, utf16Of_append, utf16Of_append]
  · intro c hc
    cases ws with
    | nil => simp [utf16Of] at hc
    | cons w ws =>
      have e : utf16Of (w :: ws) = Spec.utf16 w ++ utf16Of ws := rfl
      rw [e, List.head?_append] at hc
      obtain ⟨d, l, el⟩ := List.exists_cons_of_ne_nil (ne w)
      rw [el] at hc
      cases hc
      exact units w (hw w (by simp)) (hh w rfl) c (by rw [el]; simp)
  · intro c hc
    by_cases hws : ws = []
    · subst hws; simp [utf16Of] at hc
    · obtain ⟨l, w, rfl⟩ : ∃ l w, ws = l ++ [w] :=
        ⟨ws.dropLast, ws.getLast hws, (List.dropLast_concat_getLast hws).symm⟩
      have e : utf16Of (l ++ [w]) = utf16Of l ++ Spec.utf16 w := by
        rw [utf16Of_append]
        congr 1
        unfold utf16Of; simp
      rw [e, getLast?_of_suffix (ne w)] at hc
      exact units w (hw w (by simp)) (hl w (by simp)) c (List.mem_of_getLast? hc)

end Ansak
