import Verif.Spec.Program
import Verif.Lemmas.Alone
import Verif.Props.Pieces
import Verif.Props.PiecesValid
import Verif.Props.Trim
import Verif.Props.LowerAcross

/-!
# Lemmas: what the library does to texts, for the three encodings at once
-/

namespace Ansak

open Spec (Encodable Utf8Char Utf8Text Scalar Surrogate utf8Of utf16Of ucs4Of TrimmedTo TrimBlank Lang strip cut cutAll)
open Props

/-! ## Encodings character by character -/

section
variable {w : Nat} {f : Nat → List (BitVec w)}

/-- The encoding of one character by `f`. -/
def Coded (f : Nat → List (BitVec w)) (bs : List (BitVec w)) (v : Nat) : Prop := Scalar v ∧ bs = f v

theorem encText_coded {s : List (BitVec w)} {vs : List Nat} :
    EncText (Coded f) s vs ↔ s = vs.flatMap f ∧ ∀ v ∈ vs, Scalar v := by
  constructor
  · intro h
    induction h with
    | nil => exact ⟨rfl, fun _ h => nomatch h⟩
    | cons hc _ ih =>
      refine ⟨?_, ?_⟩
      · rw [List.flatMap_cons, hc.2, ih.1]
      · rw [List.forall_mem_cons]; exact ⟨hc.1, ih.2⟩
  · rintro ⟨rfl, hv⟩
    induction vs with
    | nil => exact .nil
    | cons v vs ih =>
      rw [List.forall_mem_cons] at hv
      rw [List.flatMap_cons]
      exact .cons ⟨hv.1, rfl⟩ (ih hv.2)

theorem cut_eq_pieces (d : Nat) (t : List Nat) : cut d t = pieces d t := by
  induction t with
  | nil => rfl
  | cons c t ih =>
    unfold cut pieces
    rw [ih]
    by_cases h : c = d
    · rw [if_pos h, if_pos h]
    · rw [if_neg h, if_neg h]
      cases h2 : pieces d t with
      | nil => rfl
      | cons p ps => rfl

theorem strip_trimmedTo {P : Nat → Prop} {blank : Nat → Bool} (hP : ∀ c, blank c = true ↔ P c) (t : List Nat) :
    TrimmedTo P t (strip blank t) := by
  have head : ∀ (l : List Nat) c, (l.dropWhile blank).head? = some c → ¬ P c := by
    intro l c h hc
    have := List.head?_dropWhile_not blank l
    rw [h] at this
    exact absurd ((hP c).2 hc) (by simpa using this)
  have pre : ∀ l : List Nat, ∃ a, l = a ++ l.dropWhile blank ∧ ∀ c ∈ a, P c := fun l =>
    ⟨l.takeWhile blank, (List.takeWhile_append_dropWhile).symm, fun c hc => (hP c).1 (List.all_eq_true.1 List.all_takeWhile c hc)⟩
  unfold strip
  obtain ⟨a, ha, hap⟩ := pre t
  obtain ⟨b, hb, hbp⟩ := pre (t.dropWhile blank).reverse
  have hb' : t.dropWhile blank =
      ((t.dropWhile blank).reverse.dropWhile blank).reverse ++ b.reverse := by
    have := congrArg List.reverse hb
    rwa [List.reverse_reverse, List.reverse_append] at this
  refine ⟨⟨a, b.reverse, ?_, hap, fun c hc => hbp c (List.mem_reverse.1 hc)⟩, ?_, ?_⟩
  · rw [List.append_assoc, ← hb', ← ha]
  · intro c hc
    refine head t c ?_
    rw [hb']
    cases h : ((t.dropWhile blank).reverse.dropWhile blank).reverse with
    | nil => rw [h] at hc; cases hc
    | cons x xs => rw [h] at hc; exact hc
  · intro c hc
    rw [List.getLast?_reverse] at hc
    exact head _ c hc

theorem flatMap_eq_nil {d : BitVec w} (hd : Alone (Coded f) d) {vs : List Nat} (hv : ∀ v ∈ vs, Scalar v) :
    vs.flatMap f = [] ↔ vs = [] := by
  cases vs with
  | nil => exact ⟨fun _ => rfl, fun _ => rfl⟩
  | cons v vs =>
    refine ⟨fun h => ?_, fun h => nomatch h⟩
    rw [List.flatMap_cons] at h
    exact absurd (List.append_eq_nil_iff.1 h).1 (hd _ v ⟨hv v List.mem_cons_self, rfl⟩).1

theorem split_coded {d : BitVec w} (hd : Alone (Coded f) d) {vs : List Nat} (hv : ∀ v ∈ vs, Scalar v) :
    split (vs.flatMap f) d =
      if vs.count d.toNat ≤ 0x7FFFFFFF then
        .ok ((if vs = [] then [] else cut d.toNat vs).map (List.flatMap f)) else .ub := by
  obtain ⟨parts, h1, h2, h3⟩ := pieces_enc hd (encText_coded.2 ⟨rfl, hv⟩)
  have hc : (vs.flatMap f).count d = vs.count d.toNat := by
    have l1 := pieces_length d (vs.flatMap f)
    have l2 := pieces_length d.toNat vs
    rw [h1, List.length_map] at l1
    rw [h2, List.length_map] at l2
    omega
  rw [split_eq]
  by_cases e : vs = []
  · subst e
    rfl
  rw [if_neg (mt (flatMap_eq_nil hd hv).1 e), hc]
  by_cases hn : vs.count d.toNat ≤ 0x7FFFFFFF
  · rw [if_pos hn, if_pos hn, if_neg e, cut_eq_pieces, h1, h2, List.map_map]
    exact congrArg Res.ok (List.map_congr_left fun p hp => (encText_coded.1 (h3 p hp)).1)
  · rw [if_neg hn, if_neg hn]

theorem join_coded {d : BitVec w} (h0 : d ≠ 0) (hd : f d.toNat = [d]) (ts : List (List Nat)) :
    join (ts.map (List.flatMap f)) d = .ok ((List.intercalate [d.toNat] ts).flatMap f) := by
  rw [C31_join_partial _ h0]
  congr 1
  have one : ([d.toNat] : List Nat).flatMap f = [d] := by rw [List.flatMap_singleton, hd]
  induction ts with
  | nil => rfl
  | cons a ts ih =>
    cases ts with
    | nil => simp [List.intercalate]
    | cons b ts =>
      simp only [List.intercalate, List.intersperse, List.map_cons, List.flatten_cons, List.flatMap_append] at ih ⊢
      rw [ih, one]

theorem trimOf_coded {spaces : List (BitVec w)} (hsp : ∀ d ∈ spaces, Alone (Coded f) d) {blank : Nat → Bool}
    (hb : ∀ v, blank v = true ↔ v ∈ spaces.map BitVec.toNat) {vs : List Nat} (hv : ∀ v ∈ vs, Scalar v) :
    trimOf (vs.flatMap f) spaces = (strip blank vs).flatMap f := by
  obtain ⟨r, h1, h2⟩ := trim_enc hsp (encText_coded.2 ⟨rfl, hv⟩) (strip_trimmedTo hb vs)
  rw [C33_unique (C33_trimOf _ spaces) h1]
  exact (encText_coded.1 h2).1

end

theorem strip_mem {blank : Nat → Bool} {t : List Nat} {c : Nat} (h : c ∈ strip blank t) : c ∈ t :=
  mem_trimmed (strip_trimmedTo (P := fun c => blank c = true) (fun _ => Iff.rfl) t) h

theorem cutAll_mem {d : Nat} {ts : List (List Nat)} {p : List Nat} (hp : p ∈ cutAll d ts) {c : Nat} (hc : c ∈ p) :
    ∃ t ∈ ts, c ∈ t := by
  obtain ⟨t, ht, h⟩ := List.mem_flatMap.1 hp
  refine ⟨t, ht, ?_⟩
  by_cases e : t = []
  · rw [if_pos e] at h; cases h
  · rw [if_neg e, cut_eq_pieces] at h
    have := mem_of_mem_piece (d := d) h hc
    rwa [intercalate_pieces] at this

/-! ## The three encodings -/

theorem ucs4Of_flatMap (vs : List Nat) : ucs4Of vs = vs.flatMap fun v => [BitVec.ofNat 32 v] := by
  unfold ucs4Of
  induction vs with
  | nil => rfl
  | cons v vs ih => rw [List.map_cons, List.flatMap_cons, ih]; rfl

theorem alone8 {d : Byte} (hd : d.toNat < 0x80) : Alone (Coded Spec.utf8) d := by
  rintro bs v ⟨hv, rfl⟩
  exact alone_ascii hd _ v (.plain (scalar_encodable hv))

theorem alone16 {d : U16} (hd : ¬ Surrogate d.toNat) : Alone (Coded Spec.utf16) d := by
  rintro bs v ⟨hv, rfl⟩
  exact alone_bmp hd _ v ⟨hv, rfl⟩

theorem alone32 (d : U32) : Alone (Coded fun v => [BitVec.ofNat 32 v]) d := by
  rintro bs v ⟨hv, rfl⟩
  unfold Scalar at hv
  refine ⟨List.cons_ne_nil _ _, fun h => by rw [List.mem_singleton.1 h], ?_⟩
  constructor
  · intro e
    rw [← (List.cons.inj e).1, BitVec.toNat_ofNat]
    omega
  · rintro rfl
    dsimp only
    rw [BitVec.ofNat_toNat, BitVec.setWidth_eq]

/-! ## Vectors -/

/-- The texts in an encoding. -/
def Vec.of (ts : List (List Nat)) : Enc → Vec
  | .utf8 => .v8 (ts.map utf8Of)
  | .utf16 => .v16 (ts.map utf16Of)
  | .ucs4 => .v32 (ts.map ucs4Of)

/-- All are made of characters. -/
def Scalars (ts : List (List Nat)) : Prop := ∀ t ∈ ts, ∀ v ∈ t, Scalar v

theorem holds_iff {x : Vec} {ts : List (List Nat)} : x.Holds ts ↔ x = Vec.of ts x.enc ∧ Scalars ts := by
  cases x <;> unfold Vec.Holds Vec.enc Vec.of Scalars <;> simp

theorem of_holds {ts : List (List Nat)} (h : Scalars ts) (e : Enc) : (Vec.of ts e).Holds ts := by
  cases e <;> exact ⟨rfl, h⟩

theorem enc_of (ts : List (List Nat)) (e : Enc) : (Vec.of ts e).enc = e := by cases e <;> rfl

theorem onEach_map {α β : Type} {ts : List (List Nat)} {f : α → Res β} {g : List Nat → α} {k : List Nat → β}
    (h : ∀ t ∈ ts, f (g t) = .ok (k t)) : onEach f (ts.map g) = .ok (ts.map k) := by
  induction ts with
  | nil => rfl
  | cons t ts ih =>
    rw [List.forall_mem_cons] at h
    rw [List.map_cons]
    unfold onEach
    rw [h.1, Res.bind_ok, ih h.2]
    rfl

theorem onEach_map_if {α β : Type} {P : List Nat → Prop} [DecidablePred P] {ts : List (List Nat)} {f : α → Res β}
    {g : List Nat → α} {k : List Nat → β} (h : ∀ t ∈ ts, f (g t) = if P t then .ok (k t) else .ub) :
    onEach f (ts.map g) = if ∀ t ∈ ts, P t then .ok (ts.map k) else .ub := by
  induction ts with
  | nil => rfl
  | cons t ts ih =>
    rw [List.forall_mem_cons] at h
    rw [List.map_cons]
    unfold onEach
    rw [h.1, ih h.2]
    by_cases h1 : P t
    · rw [if_pos h1, Res.bind_ok]
      by_cases h2 : ∀ t ∈ ts, P t
      · rw [if_pos h2, if_pos (List.forall_mem_cons.2 ⟨h1, h2⟩)]; rfl
      · rw [if_neg h2, if_neg (fun h => h2 (List.forall_mem_cons.1 h).2)]; rfl
    · rw [if_neg h1, if_neg (fun h => h1 (List.forall_mem_cons.1 h).1)]; rfl

theorem to_of {ts : List (List Nat)} (h : Scalars ts) (e e' : Enc) : (Vec.of ts e).to e' = .ok (Vec.of ts e') := by
  have hE : ∀ t ∈ ts, ∀ v ∈ t, Encodable v := fun t ht v hv => scalar_encodable (h t ht v hv)
  cases e <;> cases e' <;> try rfl
  · show (onEach toUtf16From8S _).map _ = _
    rw [onEach_map fun t ht => toUtf16From8S_utf8Of (h t ht)]; rfl
  · show (onEach toUcs4From8S _).map _ = _
    rw [onEach_map fun t ht => toUcs4From8S_utf8Of (hE t ht)]; rfl
  · show (onEach toUtf8From16S _).map _ = _
    rw [onEach_map fun t ht => toUtf8From16S_utf16Of (h t ht)]; rfl
  · show (onEach toUcs4From16S _).map _ = _
    rw [onEach_map fun t ht => toUcs4From16S_utf16Of (h t ht)]; rfl
  · show (onEach toUtf8From32S _).map _ = _
    rw [onEach_map fun t ht => toUtf8From32S_ucs4Of (hE t ht)]; rfl
  · show (onEach toUtf16From32S _).map _ = _
    rw [onEach_map fun t ht => (toUtf16From32S_ucs4Of (hE t ht)).trans
      (by rw [if_pos fun v hv => (h t ht v hv).2.1])]; rfl

theorem lower_of (v : Version) (lang : Lang) {ts : List (List Nat)} (h : Scalars ts) (e : Enc) :
    (Vec.of ts e).lower v (langPtr lang) = .ok (Vec.of (ts.map (List.map (lowerNat v (turkicLang lang)))) e) := by
  have hE : ∀ t ∈ ts, ∀ v ∈ t, Encodable v := fun t ht v hv => scalar_encodable (h t ht v hv)
  cases e
  · show (onEach _ _).map _ = _
    rw [onEach_map (f := fun s => toLower8S v s (langPtr lang)) (g := utf8Of) fun t ht => toLower8S_chars v lang (toUcs4From8S_utf8Of (hE t ht)) (hE t ht)]
    unfold Vec.of
    dsimp only
    rw [List.map_map]; rfl
  · show (onEach _ _).map _ = _
    rw [onEach_map (f := fun s => toLower16S v s (langPtr lang)) (g := utf16Of) fun t ht => toLower16S_chars v lang (toUcs4From16S_utf16Of (h t ht)) (h t ht)]
    unfold Vec.of
    dsimp only
    rw [List.map_map]; rfl
  · show (onEach _ _).map _ = _
    rw [onEach_map (f := fun s => toLower32S v s (langPtr lang)) (g := ucs4Of)
      (k := fun t => ucs4Of (t.map (lowerNat v (turkicLang lang)))) fun t ht => by
        rw [toLower32S_eq, map_lowerChar_ucs4Of v _ (hE t ht)]]
    unfold Vec.of
    dsimp only
    rw [List.map_map]; rfl

theorem trim_of {ts : List (List Nat)} (h : Scalars ts) (e : Enc) :
    (Vec.of ts e).trim = Vec.of (ts.map (strip (· = 0x20))) e := by
  have hb : ∀ {w : Nat}, (0x20 : BitVec w).toNat = 0x20 → ∀ v : Nat,
      decide (v = 0x20) = true ↔ v ∈ [(0x20 : BitVec w)].map BitVec.toNat := by
    intro w hw v
    rw [List.map_cons, hw, List.map_nil, List.mem_singleton, decide_eq_true_iff]
  cases e <;> unfold Vec.of Vec.trim <;> dsimp only <;> rw [List.map_map, List.map_map]
  · refine congrArg _ (List.map_congr_left fun t ht => ?_)
    rw [Function.comp_apply, Function.comp_apply, trim_is_trimOf]
    exact trimOf_coded (by intro d hd; rw [List.mem_singleton.1 hd]; exact alone8 (by decide)) (hb (by decide)) (h t ht)
  · refine congrArg _ (List.map_congr_left fun t ht => ?_)
    rw [Function.comp_apply, Function.comp_apply, trim_is_trimOf]
    exact trimOf_coded (by intro d hd; rw [List.mem_singleton.1 hd]; exact alone16 (by decide)) (hb (by decide)) (h t ht)
  · refine congrArg _ (List.map_congr_left fun t ht => ?_)
    rw [Function.comp_apply, Function.comp_apply, trim_is_trimOf, ucs4Of_flatMap, ucs4Of_flatMap]
    exact trimOf_coded (fun d _ => alone32 d) (hb (by decide)) (h t ht)

theorem trimWhite_of {ts : List (List Nat)} (h : Scalars ts) (e : Enc) :
    (Vec.of ts e).trimWhite = .ok (Vec.of (ts.map (strip (TrimBlank ·))) e) := by
  have hT : ∀ t : List Nat, TrimmedTo TrimBlank t (strip (TrimBlank ·) t) :=
    strip_trimmedTo fun _ => decide_eq_true_iff
  cases e
  · show (onEach _ _).map _ = _
    rw [onEach_map fun t ht => C34_utf8 (h t ht) (hT t)]
    unfold Vec.of
    dsimp only
    rw [List.map_map]; rfl
  · unfold Vec.of Vec.trimWhite
    dsimp only
    rw [List.map_map, List.map_map]
    refine congrArg (fun x => Res.ok (Vec.v16 x)) (List.map_congr_left fun t ht => ?_)
    exact C33_unique (C33_trimWhiteSpace _ []).1 (trimmedTo_utf16 (h t ht) (hT t))
  · unfold Vec.of Vec.trimWhite
    dsimp only
    rw [List.map_map, List.map_map]
    refine congrArg (fun x => Res.ok (Vec.v32 x)) (List.map_congr_left fun t ht => ?_)
    rw [Function.comp_apply, Function.comp_apply, ucs4Of_flatMap, ucs4Of_flatMap]
    refine trimOf_coded (fun d _ => alone32 d) (fun v => ?_) (h t ht)
    rw [decide_eq_true_iff]
    constructor
    · intro hv
      have hm := (spaces32_mem (BitVec.ofNat 32 v)).2 (by
        rw [BitVec.toNat_ofNat, Nat.mod_eq_of_lt (by unfold TrimBlank at hv; omega)]; exact hv)
      have hm : BitVec.ofNat 32 v ∈ spaces32 := of_decide_eq_true hm
      refine List.mem_map.2 ⟨_, hm, ?_⟩
      rw [BitVec.toNat_ofNat, Nat.mod_eq_of_lt (by unfold TrimBlank at hv; omega)]
    · intro hm
      obtain ⟨d, hd, rfl⟩ := List.mem_map.1 hm
      exact (spaces32_mem d).1 (decide_eq_true hd)

theorem flatten_map_map {α β : Type} (g : α → β) (f : List Nat → List α) (ts : List (List Nat)) :
    (ts.map fun t => (f t).map g).flatten = (ts.flatMap f).map g := by
  induction ts with
  | nil => rfl
  | cons t ts ih => rw [List.map_cons, List.flatten_cons, ih, List.flatMap_cons, List.map_append]

theorem split_of {d : Nat} (hd : 1 ≤ d ∧ d < 0x80) {ts : List (List Nat)} (h : Scalars ts) (e : Enc) :
    (Vec.of ts e).split d =
      if ∀ t ∈ ts, t.count d ≤ 0x7FFFFFFF then .ok (Vec.of (cutAll d ts) e) else .ub := by
  have n8 : (BitVec.ofNat 8 d).toNat = d := by rw [BitVec.toNat_ofNat, Nat.mod_eq_of_lt (by omega)]
  have n16 : (BitVec.ofNat 16 d).toNat = d := by rw [BitVec.toNat_ofNat, Nat.mod_eq_of_lt (by omega)]
  have n32 : (BitVec.ofNat 32 d).toNat = d := by rw [BitVec.toNat_ofNat, Nat.mod_eq_of_lt (by omega)]
  have fin : ∀ {w : Nat} (g : List (List (BitVec w)) → Vec) (k : List Nat → List (BitVec w)) (e : Enc),
      (∀ l, Vec.of l e = g (l.map k)) →
      Res.map (fun ps => g ps.flatten) (if ∀ t ∈ ts, t.count d ≤ 0x7FFFFFFF then
        .ok (ts.map fun t => (if t = [] then [] else cut d t).map k) else .ub) =
      if ∀ t ∈ ts, t.count d ≤ 0x7FFFFFFF then .ok (Vec.of (cutAll d ts) e) else .ub := by
    intro w g k e he
    by_cases hn : ∀ t ∈ ts, t.count d ≤ 0x7FFFFFFF
    · rw [if_pos hn, if_pos hn, he, Res.map_ok, flatten_map_map k (fun t => if t = [] then [] else cut d t)]
      rfl
    · rw [if_neg hn, if_neg hn]; rfl
  cases e
  · show (onEach _ _).map _ = _
    rw [onEach_map_if fun t ht => by
      have := split_coded (alone8 (d := BitVec.ofNat 8 d) (by rw [n8]; exact hd.2)) (h t ht)
      rw [n8] at this
      exact this]
    exact fin Vec.v8 _ .utf8 fun _ => rfl
  · show (onEach _ _).map _ = _
    rw [onEach_map_if fun t ht => by
      have := split_coded (alone16 (d := BitVec.ofNat 16 d) (by rw [n16]; unfold Surrogate; omega)) (h t ht)
      rw [n16] at this
      exact this]
    exact fin Vec.v16 _ .utf16 fun _ => rfl
  · show (onEach _ _).map _ = _
    rw [onEach_map_if fun t ht => by
      have := split_coded (alone32 (BitVec.ofNat 32 d)) (h t ht)
      rw [n32] at this
      rw [ucs4Of_flatMap]
      exact this]
    refine fin Vec.v32 _ .ucs4 fun l => ?_
    exact congrArg Vec.v32 (List.map_congr_left fun t _ => ucs4Of_flatMap t)

theorem join_of {d : Nat} (hd : 1 ≤ d ∧ d < 0x80) (ts : List (List Nat)) (e : Enc) :
    (Vec.of ts e).join d = .ok (Vec.of [List.intercalate [d] ts] e) := by
  have n8 : (BitVec.ofNat 8 d).toNat = d := by rw [BitVec.toNat_ofNat, Nat.mod_eq_of_lt (by omega)]
  have n16 : (BitVec.ofNat 16 d).toNat = d := by rw [BitVec.toNat_ofNat, Nat.mod_eq_of_lt (by omega)]
  have n32 : (BitVec.ofNat 32 d).toNat = d := by rw [BitVec.toNat_ofNat, Nat.mod_eq_of_lt (by omega)]
  have nz : ∀ {w : Nat} {b : BitVec w}, b.toNat = d → b ≠ 0 := by
    rintro w b hb rfl
    rw [BitVec.ofNat_eq_ofNat, BitVec.toNat_ofNat] at hb
    simp at hb
    omega
  cases e
  · show (Ansak.join _ _).map _ = _
    have := join_coded (f := Spec.utf8) (nz n8) (by rw [n8]; exact alone_low hd.2) ts
    rw [n8] at this
    show (Ansak.join (ts.map (List.flatMap Spec.utf8)) _).map _ = _
    rw [this]; rfl
  · have := join_coded (f := Spec.utf16) (nz n16)
      (by rw [n16]; unfold Spec.utf16; rw [if_pos (by omega)]) ts
    rw [n16] at this
    show (Ansak.join (ts.map (List.flatMap Spec.utf16)) _).map _ = _
    rw [this]; rfl
  · have := join_coded (f := fun v => [BitVec.ofNat 32 v]) (nz n32) (by rw [n32]) ts
    rw [n32] at this
    have e : ts.map ucs4Of = ts.map (List.flatMap fun v => [BitVec.ofNat 32 v]) :=
      List.map_congr_left fun t _ => ucs4Of_flatMap t
    show (Ansak.join (ts.map ucs4Of) _).map _ = _
    rw [e, this, ← ucs4Of_flatMap]
    rfl

theorem glue_of (ts : List (List Nat)) (e : Enc) : (Vec.of ts e).glue = Vec.of [ts.flatten] e := by
  have flat : ∀ {w : Nat} (f : Nat → List (BitVec w)), (ts.map (List.flatMap f)).flatten = ts.flatten.flatMap f := by
    intro w f
    induction ts with
    | nil => rfl
    | cons t ts ih => rw [List.map_cons, List.flatten_cons, ih, List.flatten_cons, List.flatMap_append]
  cases e
  · exact congrArg (fun x => Vec.v8 [x]) (flat Spec.utf8)
  · exact congrArg (fun x => Vec.v16 [x]) (flat Spec.utf16)
  · exact congrArg (fun x => Vec.v32 [x]) (by unfold ucs4Of; rw [List.map_flatten])

theorem append_of (ts us : List (List Nat)) (e : Enc) :
    (Vec.of ts e).append (Vec.of us e) = Vec.of (ts ++ us) e := by
  cases e <;> unfold Vec.of Vec.append <;> dsimp only <;> rw [List.map_append]

theorem pick_of (i : Nat) (ts : List (List Nat)) (e : Enc) : (Vec.of ts e).pick i = Vec.of ts[i]?.toList e := by
  cases e <;> unfold Vec.of Vec.pick <;> dsimp only <;> rw [List.getElem?_map] <;> cases ts[i]? <;> rfl

/-! ## Conditions -/

theorem map_beq {α β : Type} [BEq α] [LawfulBEq α] [BEq β] [LawfulBEq β] {f : α → β} {P : α → Prop}
    (hf : ∀ a b, P a → P b → f a = f b → a = b) {as bs : List α} (ha : ∀ a ∈ as, P a) (hb : ∀ b ∈ bs, P b) :
    (as.map f == bs.map f) = (as == bs) := by
  rw [Bool.eq_iff_iff, beq_iff_eq, beq_iff_eq]
  refine ⟨fun h => ?_, fun h => by rw [h]⟩
  induction as generalizing bs with
  | nil => cases bs with
    | nil => rfl
    | cons b bs => cases h
  | cons a as ih => cases bs with
    | nil => cases h
    | cons b bs =>
      rw [List.map_cons, List.map_cons] at h
      obtain ⟨h1, h2⟩ := List.cons.inj h
      rw [List.forall_mem_cons] at ha hb
      rw [hf a b ha.1 hb.1 h1, ih ha.2 hb.2 h2]

theorem same_of {ts us : List (List Nat)} (h : Scalars ts) (h' : Scalars us) (e : Enc) :
    (Vec.of ts e).same (Vec.of us e) = (ts == us) := by
  have inj : ∀ {α : Type} {f : α → Res (List U32)} {g : List Nat → α},
      (∀ t, (∀ v ∈ t, Scalar v) → f (g t) = .ok (ucs4Of t)) →
      ∀ a b, (∀ v ∈ a, Scalar v) → (∀ v ∈ b, Scalar v) → g a = g b → a = b := by
    intro α f g hf a b ha hb hab
    have : ucs4Of a = ucs4Of b := Res.ok.inj ((hf a ha).symm.trans ((congrArg f hab).trans (hf b hb)))
    have := congrArg (List.map BitVec.toNat) this
    have hE : ∀ {t : List Nat}, (∀ v ∈ t, Scalar v) → (ucs4Of t).map BitVec.toNat = t := fun ht =>
      vals_ucs4Of fun v hv => scalar_encodable (ht v hv)
    rwa [hE ha, hE hb] at this
  cases e
  · exact map_beq (inj (f := toUcs4From8S) fun t ht => toUcs4From8S_utf8Of fun v hv => scalar_encodable (ht v hv)) h h'
  · exact map_beq (inj (f := toUcs4From16S) fun t ht => toUcs4From16S_utf16Of ht) h h'
  · exact map_beq (inj (f := Res.ok) fun t ht => rfl) h h'

theorem allTrue_map {α : Type} {f : α → Res Bool} {g : List Nat → α} {P : List Nat → Prop} [DecidablePred P]
    {ts : List (List Nat)} (h : ∀ t ∈ ts, f (g t) = .ok (decide (P t))) :
    allTrue f (ts.map g) = .ok (decide (∀ t ∈ ts, P t)) := by
  unfold allTrue
  rw [onEach_map h, Res.map_ok]
  refine congrArg _ ?_
  rw [Bool.eq_iff_iff, decide_eq_true_iff, List.all_eq_true, List.forall_mem_map]
  exact ⟨fun h t ht => of_decide_eq_true (h t ht), fun h t ht => decide_eq_true (h t ht)⟩

theorem fits_of (v : Version) (r : Spec.Range) {ts : List (List Nat)} (h : Scalars ts) (e : Enc) :
    (Vec.of ts e).fits v r = .ok (decide (∀ t ∈ ts, ∀ c ∈ t, r.Has c)) := by
  have fin : ∀ {x : Res Bool} {P : Prop} [Decidable P], (∃ b, x = .ok b) → (x = .ok true ↔ P) → x = .ok (decide P) := by
    rintro x P _ ⟨b, rfl⟩ hx
    refine congrArg _ (Bool.eq_iff_iff.2 ?_)
    rw [decide_eq_true_iff, ← hx]
    exact ⟨fun e => by rw [e], fun e => by injection e⟩
  have none32 : ∀ x, Pred.none.call32 (Unicode.charClass v) x = true := fun _ => rfl
  have none16 : ∀ x, Pred.none.call16 (Unicode.charClass v) x = true := fun _ => rfl
  have hA : ∀ {c : Nat}, Scalar c → ((Acc8 r c ↔ r.Has c) ∧ (AccFlags r c ↔ r.Has c)) := by
    intro c hc
    have hs := hc.2.2
    unfold Scalar at hc
    cases r <;> simp only [Acc8, AccFlags, Spec.Range.Has, hs, not_false_eq_true, and_true, true_iff] <;> omega
  cases e
  · refine allTrue_map fun t ht => fin ?_ ?_
    · obtain ⟨b, hb, _⟩ := isUtf8S_any (Unicode.charClass v) r Pred.none
        (by rw [textOf_of_nulFree (utf8Of_nulFree fun v hv => scalar_encodable (h t ht v hv))]
            exact scan_of_text (text_utf8Of fun v hv => scalar_encodable (h t ht v hv)))
      exact ⟨b, hb⟩
    · rw [accept8 (text_utf8Of fun v hv => scalar_encodable (h t ht v hv))]
      exact ⟨fun hx c hc => (hA (h t ht c hc)).1.1 (hx c hc).1,
        fun hx c hc => ⟨(hA (h t ht c hc)).1.2 (hx c hc), none32 c⟩⟩
  · refine allTrue_map fun t ht => fin ?_ ?_
    · obtain ⟨b, hb, _⟩ := isUtf16S_any (Unicode.charClass v) r Pred.none
        (by rw [textOf_of_nulFree (utf16Of_nulFree (h t ht))]
            exact scan16_done_iff.2 ⟨rfl, h t ht⟩)
      exact ⟨b, hb⟩
    · rw [accept16 (h t ht)]
      exact ⟨fun hx c hc => (hA (h t ht c hc)).2.1 (hx c hc).1,
        fun hx c hc => ⟨(hA (h t ht c hc)).2.2 (hx c hc), none16 _⟩⟩
  · refine allTrue_map fun t ht => fin ?_ ?_
    · obtain ⟨b, hb, _⟩ := isUcs4S_any (Unicode.charClass v) r Pred.none (ucs4Of t)
      exact ⟨b, hb⟩
    · have hE : ∀ c ∈ t, Encodable c := fun v hv => scalar_encodable (h t ht v hv)
      rw [accept4 (ucs4Of_nulFree hE),
        ucs4Of_forall (P := fun c => ¬ Surrogate c ∧ AccFlags r c ∧ Pred.none.call32 (Unicode.charClass v) c = true) hE]
      exact ⟨fun hx c hc => (hA (h t ht c hc)).2.1 (hx c hc).2.1,
        fun hx c hc => ⟨(h t ht c hc).2.2, (hA (h t ht c hc)).2.2 (hx c hc), none32 c⟩⟩

theorem unicodeLength_texts {t : List Nat} (h : ∀ x ∈ t, Scalar x) :
    unicodeLength8S (utf8Of t) = .ok (uintOf t.length) ∧ unicodeLength16S (utf16Of t) = .ok (uintOf t.length) ∧
    unicodeLength32S (ucs4Of t) = .ok (uintOf t.length) := by
  have hE : ∀ x ∈ t, Encodable x := fun x hx => scalar_encodable (h x hx)
  refine ⟨?_, ?_, ?_⟩
  · unfold unicodeLength8S
    rw [cStr_nulFree (utf8Of_nulFree hE), unicodeLength8_text (utf8Of_nulFree hE)
      (scan_of_text (text_utf8Of hE)), if_pos fun x hx => (h x hx).2.1]
    rfl
  · unfold unicodeLength16S
    rw [cStr_nulFree (utf16Of_nulFree h), unicodeLength16_text (scan16_utf16Of (lenient := false) h)]
    rfl
  · unfold unicodeLength32S
    rw [cStr_nulFree (ucs4Of_nulFree hE), unicodeLength32_buf (ucs4Of_nulFree hE),
      if_pos ((ucs4Of_forall (P := fun x => ¬ Surrogate x) hE).2 fun x hx => (h x hx).2.2)]
    unfold ucs4Of
    rw [List.length_map]

theorem count_of (n : Nat) {ts : List (List Nat)} (h : Scalars ts) (e : Enc) :
    (Vec.of ts e).count n = .ok (decide (∀ t ∈ ts, t.length % 0x100000000 = n)) := by
  have fin : ∀ {t : List Nat} {x : Res U32}, x = .ok (uintOf t.length) →
      x.map (fun k => k.toNat == n) = .ok (decide (t.length % 0x100000000 = n)) := by
    rintro t x rfl
    rw [Res.map_ok]
    refine congrArg _ ?_
    unfold uintOf
    rw [BitVec.toNat_ofNat]
    exact Bool.eq_iff_iff.2 (by rw [beq_iff_eq, decide_eq_true_iff])
  cases e
  · exact allTrue_map fun t ht => fin (unicodeLength_texts (h t ht)).1
  · exact allTrue_map fun t ht => fin (unicodeLength_texts (h t ht)).2.1
  · exact allTrue_map fun t ht => fin (unicodeLength_texts (h t ht)).2.2

theorem size_of (ts : List (List Nat)) (e : Enc) : (Vec.of ts e).size = ts.length := by
  cases e <;> exact List.length_map ..

end Ansak
