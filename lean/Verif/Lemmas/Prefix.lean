import Verif.Lemmas.Compose

/-!
# Prefixes of texts
-/

namespace Ansak

open Spec (NulFree Utf8Char Utf8Text Encodable HighSurrogate LowSurrogate Surrogate Scalar
  Utf8Incomplete Utf16Incomplete textOf Utf8Reads Truncated utf16Of IsCont announced)

theorem textOf_prefix {w : Nat} {a s : List (BitVec w)} (h : a <+: s) : textOf a <+: textOf s := by
  obtain ⟨b, rfl⟩ := h
  unfold textOf
  induction a with
  | nil => exact List.nil_prefix
  | cons c a ih =>
    rw [List.cons_append, List.takeWhile_cons, List.takeWhile_cons]
    split
    · exact List.cons_prefix_cons.2 ⟨rfl, ih⟩
    · exact List.nil_prefix

theorem prefix_cons_of {α : Type} {x : α} {a s : List α} (h : a <+: x :: s) (ha : a ≠ []) :
    ∃ a', a = x :: a' ∧ a' <+: s := by
  rcases List.prefix_cons_iff.1 h with e | h
  · exact absurd e ha
  · exact h

theorem truncated_prefix {a s : List Byte} (h : Truncated s) (hp : a <+: s) (ha : a ≠ []) :
    Truncated a := by
  have ed : ∀ {x : Byte}, x.toNat = 0xED → announced x = 3 := fun h => by
    unfold announced; rw [if_neg (by omega), if_neg (by omega), if_pos (by omega)]
  have c1ok : ∀ {c : Byte}, 0xA0 ≤ c.toNat → c.toNat ≤ 0xAF → IsCont c := fun h1 h2 =>
    ⟨by omega, by omega⟩
  have one : ∀ {x : Byte}, x.toNat = 0xED → Truncated [x] := fun h =>
    .short (fun _ h => nomatch h) (by rw [ed h]; exact Nat.lt_of_sub_eq_succ rfl)
  have two : ∀ {x c : Byte}, x.toNat = 0xED → 0xA0 ≤ c.toNat → c.toNat ≤ 0xAF → Truncated [x, c] :=
    fun h h1 h2 => .short (fun d hd => by rw [List.mem_singleton.1 hd]; exact c1ok h1 h2)
      (by rw [ed h]; exact Nat.lt_of_sub_eq_succ rfl)
  cases h with
  | @short y cs hc hl =>
    obtain ⟨a, rfl, hq⟩ := prefix_cons_of hp ha
    exact .short (fun c h => hc c (hq.subset h)) (by have := hq.length_le; omega)
  | @half0 y c1 c2 h1 h2 h3 h4 =>
    obtain ⟨a, rfl, hq⟩ := prefix_cons_of hp ha
    rcases List.prefix_cons_iff.1 hq with rfl | ⟨a, rfl, hq'⟩
    · exact one h1
    rcases List.prefix_cons_iff.1 hq' with rfl | ⟨a, rfl, hq''⟩
    · exact two h1 h2 h3
    rw [List.prefix_nil.1 hq'']
    exact .half0 h1 h2 h3 h4
  | @half1 y c1 c2 c3 h1 h2 h3 h4 h5 h6 =>
    obtain ⟨a, rfl, hq⟩ := prefix_cons_of hp ha
    rcases List.prefix_cons_iff.1 hq with rfl | ⟨a, rfl, hq'⟩
    · exact one h1
    rcases List.prefix_cons_iff.1 hq' with rfl | ⟨a, rfl, hq''⟩
    · exact two h1 h2 h3
    rcases List.prefix_cons_iff.1 hq'' with rfl | ⟨a, rfl, hq'''⟩
    · exact .half0 h1 h2 h3 h4
    rw [List.prefix_nil.1 hq''']
    exact .half1 h1 h2 h3 h4 h5 h6
  | @half2 y c1 c2 c3 c4 h1 h2 h3 h4 h5 h6 h7 =>
    obtain ⟨a, rfl, hq⟩ := prefix_cons_of hp ha
    rcases List.prefix_cons_iff.1 hq with rfl | ⟨a, rfl, hq'⟩
    · exact one h1
    rcases List.prefix_cons_iff.1 hq' with rfl | ⟨a, rfl, hq''⟩
    · exact two h1 h2 h3
    rcases List.prefix_cons_iff.1 hq'' with rfl | ⟨a, rfl, hq'''⟩
    · exact .half0 h1 h2 h3 h4
    rcases List.prefix_cons_iff.1 hq''' with rfl | ⟨a, rfl, hq''''⟩
    · exact .half1 h1 h2 h3 h4 h5 h6
    rw [List.prefix_nil.1 hq'''']
    exact .half2 h1 h2 h3 h4 h5 h6 h7

/-- A prefix of a text reads as a prefix of its characters, and is as acceptable at its end. -/
theorem reads_prefix {a s t : List Byte} {vs : List Nat} (h : Utf8Reads s vs t) (hp : a <+: s) :
    ∃ us u, Utf8Reads a us u ∧ us <+: vs ∧
      ∀ r, (∀ v ∈ vs, Acc8 r v) → EndOk r (endOf t) → EndOk r (endOf u) := by
  obtain ⟨b, rfl⟩ := hp
  obtain ⟨s, e, hs, ht⟩ := h
  induction hs generalizing a with
  | nil =>
    rw [List.nil_append] at e
    subst e
    by_cases ha : a = []
    · subst ha
      exact ⟨[], [], reads_done .nil, List.nil_prefix, fun r _ _ => trivial⟩
    · have ht' : Truncated (a ++ b) := by
        rcases ht with e | ht
        · exact absurd (List.append_eq_nil_iff.1 e).1 ha
        · exact ht
      refine ⟨[], a, reads_cut .nil (truncated_prefix ht' (List.prefix_append a b) ha), List.nil_prefix, fun r _ hr => ?_⟩
      obtain ⟨x, a, rfl⟩ := cons_of_ne_nil ha
      unfold endOf at hr ⊢
      rw [if_neg (by simp)] at hr ⊢
      obtain ⟨y, t', ey, hy⟩ := hr
      obtain ⟨rfl, _⟩ := List.cons.inj ey
      exact ⟨x, a, rfl, hy⟩
  | @cons bs s v vs hc hs ih =>
    rw [List.append_assoc] at e
    rcases List.append_eq_append_iff.1 e with ⟨m, rfl, e'⟩ | ⟨a', rfl, e'⟩
    · -- the prefix ends inside this character
      by_cases ha : a = []
      · subst ha
        exact ⟨[], [], reads_done .nil, List.nil_prefix, fun r _ _ => trivial⟩
      by_cases hm : m = []
      · subst hm
        rw [List.append_nil] at hc
        have h1 : Utf8Text a [v] := by
          have := Utf8Text.cons hc .nil
          rwa [List.append_nil] at this
        exact ⟨[v], [], reads_done h1, List.cons_prefix_cons.2 ⟨rfl, List.nil_prefix⟩,
          fun r _ _ => trivial⟩
      · have hi : Utf8Incomplete (fun _ => True) a := ⟨ha, _, v, m, hc, trivial, hm, rfl⟩
        refine ⟨[], a, reads_cut .nil (incomplete_truncated hi), List.nil_prefix, fun r hr _ => ?_⟩
        obtain ⟨x, a, rfl⟩ := cons_of_ne_nil ha
        unfold endOf
        rw [if_neg (by simp)]
        exact ⟨x, a, rfl, ((accept_char r hc).2 (hr v (List.mem_cons_self ..))).1⟩
    · obtain ⟨us, u, h1, h2, h3⟩ := ih e'.symm
      obtain ⟨c, rfl, hc', hu⟩ := h1
      refine ⟨v :: us, u, ⟨bs ++ c, (List.append_assoc ..).symm, .cons hc hc', hu⟩,
        List.cons_prefix_cons.2 ⟨rfl, h2⟩, fun r hr he => h3 r (fun w hw => ?_) he⟩
      exact hr w (List.mem_cons_of_mem _ hw)

/-- A prefix of UTF-16 text reads as a prefix of its characters; it ends in the middle of one only if
the text goes beyond the BMP. -/
theorem scan16_prefix {lenient : Bool} {a s : List U16} {vs : List Nat} {e : End16}
    (h : Scan16 lenient s vs e) (he : e ≠ .bad) (hp : a <+: s) :
    ∃ us f, Scan16 lenient a us f ∧ us <+: vs ∧ f ≠ .bad ∧
      ∀ r, (∀ v ∈ vs, AccFlags r v) → EndOk16 r e → EndOk16 r f := by
  induction h generalizing a with
  | done =>
    rw [List.prefix_nil.1 hp]
    exact ⟨[], .done, .done, List.nil_prefix, by simp, fun _ _ _ => trivial⟩
  | @cut h hh =>
    rcases List.prefix_cons_iff.1 hp with rfl | ⟨a', rfl, ha⟩
    · exact ⟨[], .done, .done, List.nil_prefix, by simp, fun _ _ _ => trivial⟩
    · rw [List.prefix_nil.1 ha]
      exact ⟨[], .cut, .cut hh, List.nil_prefix, by simp, fun _ _ h => h⟩
  | badHigh => exact absurd rfl he
  | badLow => exact absurd rfl he
  | @unit c s vs e h0 hn hl hs ih =>
    rcases List.prefix_cons_iff.1 hp with rfl | ⟨a', rfl, ha⟩
    · exact ⟨[], .done, .done, List.nil_prefix, by simp, fun _ _ _ => trivial⟩
    · obtain ⟨us, f, h1, h2, h3, h4⟩ := ih he ha
      exact ⟨_, f, .unit h0 hn hl h1, List.cons_prefix_cons.2 ⟨rfl, h2⟩, h3,
        fun r hr h => h4 r (fun v hv => hr v (List.mem_cons_of_mem _ hv)) h⟩
  | @pair h l s vs e hh hl hs ih =>
    rcases List.prefix_cons_iff.1 hp with rfl | ⟨a', rfl, ha⟩
    · exact ⟨[], .done, .done, List.nil_prefix, by simp, fun _ _ _ => trivial⟩
    rcases List.prefix_cons_iff.1 ha with rfl | ⟨a'', rfl, hb⟩
    · exact ⟨[], .cut, .cut hh, List.nil_prefix, by simp, fun r hr _ =>
        (accFlags_wide r hh hl).1 (hr _ (List.mem_cons_self ..))⟩
    · obtain ⟨us, f, h1, h2, h3, h4⟩ := ih he hb
      exact ⟨_, f, .pair hh hl h1, List.cons_prefix_cons.2 ⟨rfl, h2⟩, h3,
        fun r hr h => h4 r (fun v hv => hr v (List.mem_cons_of_mem _ hv)) h⟩

end Ansak
