import Verif.Props.Ascii
import Verif.Props.Validate
import Verif.Props.Safety
import Verif.Props.Wide

/-! # C53: exactly ASCII text is accepted as ASCII; C39: what `toTstring` does with it in builds with `_MBCS` -/

namespace Ansak.Props

open Spec (textOf NulFree utf16Of Scalar StaysInBounds)

theorem textOf_ascii {w : Nat} {s : List (BitVec w)} (h : ∀ c ∈ textOf s, c.toNat ≤ 0x7F) : Ascii (textOf s) := by
  intro c hc
  refine ⟨?_, h c hc⟩
  have := textOf_nulFree s c hc
  have : c.toNat ≠ 0 := fun e => this (BitVec.eq_of_toNat_eq e)
  omega

theorem units_of_ascii {vs : List Nat} (h : ∀ v ∈ vs, v ≤ 0x7F) : ∀ c ∈ utf16Of vs, c.toNat ≤ 0x7F := by
  intro c hc
  obtain ⟨v, hv, hc⟩ := List.mem_flatMap.1 hc
  have hv := h v hv
  unfold Spec.utf16 at hc
  rw [if_pos (by omega)] at hc
  rw [List.mem_singleton.1 hc, BitVec.toNat_ofNat]
  omega

/-- For the target range ASCII each validator accepts exactly the strings of ASCII characters. -/
theorem C53_exact (U : CharClass) :
    (∀ s, ∃ b, isUtf8S U s kAscii Pred.none = .ok b ∧ (b = true ↔ Ascii (textOf s))) ∧
    (∀ s, ∃ b, isUtf16S U s kAscii Pred.none = .ok b ∧ (b = true ↔ Ascii (textOf s))) ∧
    (∀ s, ∃ b, isUcs2S U s kAscii Pred.none = .ok b ∧ (b = true ↔ Ascii (textOf s))) ∧
    (∀ s, ∃ b, isUcs4S U s kAscii Pred.none = .ok b ∧ (b = true ↔ Ascii (textOf s))) := by
  have accepted {s : List Byte} {t : List U16} {u : List U32} (hs : Ascii s) (ht : Ascii t) (hu : Ascii u) :=
    C53_accepted U .ascii hs ht hu
  have none8 : Ascii ([] : List Byte) := nofun
  have none16 : Ascii ([] : List U16) := nofun
  have none32 : Ascii ([] : List U32) := nofun
  have only := C12_validators U kAscii Pred.none
  refine ⟨fun s => ?_, fun s => ?_, fun s => ?_, fun s => ?_⟩
  · obtain ⟨post, hp⟩ := cStr_text s
    obtain ⟨b, _, hb⟩ := C10_isUtf8 U kAscii Pred.none _ (textOf_nulFree s)
    have hb : isUtf8S U s kAscii Pred.none = .ok b := by
      have := hb post
      rw [← hp] at this
      exact this
    refine ⟨b, hb, fun e => C53_only U (e ▸ hb), fun h => ?_⟩
    have := (accepted h none16 none32).1
    rw [show isUtf8S U s kAscii Pred.none = _ from only.1 s] at hb
    exact Res.ok.inj (hb.symm.trans this)
  · obtain ⟨b, hb, h⟩ := C17_isUtf16 U .ascii s
    refine ⟨b, hb, fun e => ?_, fun h' => ?_⟩
    · obtain ⟨vs, t, ht, hv, rfl | ⟨_, hh⟩⟩ := h.1 e
      · refine textOf_ascii ?_
        rw [ht, List.append_nil]
        exact units_of_ascii fun v hv' => (hv v hv').2
      · exact absurd hh (by decide)
    · have := (accepted none8 h' none32).2.1
      rw [show isUtf16S U s Spec.Range.ascii.code Pred.none = _ from only.2.1 s] at hb
      exact Res.ok.inj (hb.symm.trans this)
  · obtain ⟨b, hb, h⟩ := C18_isUcs2 U .ascii s
    refine ⟨b, hb, fun e => textOf_ascii fun c hc => (h.1 e c hc).1, fun h' => ?_⟩
    have := (accepted none8 h' none32).2.2.1
    rw [show isUcs2S U s Spec.Range.ascii.code Pred.none = _ from only.2.2.1 s] at hb
    exact Res.ok.inj (hb.symm.trans this)
  · obtain ⟨b, hb, h⟩ := C18_isUcs4_partial U .ascii (by decide) s
    refine ⟨b, hb, fun e => textOf_ascii fun c hc => (h.1 e c hc).1, fun h' => ?_⟩
    have := (accepted none8 none16 h').2.2.2
    rw [show isUcs4S U s Spec.Range.ascii.code Pred.none = _ from only.2.2.2 s] at hb
    exact Res.ok.inj (hb.symm.trans this)

instance {w : Nat} (s : List (BitVec w)) : Decidable (Ascii s) := by unfold Ascii; infer_instance

/-- `_MBCS`: `toTstring` of a pointer returns ASCII text with the same characters, and nothing for any other text. -/
theorem C39_mbcs_all_partial (U : CharClass) :
    (∀ s, W16.Mbcs.toTstring8 U (cStr s) = .ok (if Ascii (textOf s) then textOf s else [])) ∧
    (∀ s, W16.Mbcs.toTstring16 U (cStr s) = .ok (if Ascii (textOf s) then (textOf s).map (BitVec.setWidth 8) else [])) ∧
    (∀ s, W16.Mbcs.toTstring32 U (cStr s) = .ok (if Ascii (textOf s) then (textOf s).map (BitVec.setWidth 8) else [])) := by
  obtain ⟨e8, e16, _, e32⟩ := C53_exact U
  have nul {w : Nat} {s : List (BitVec w)} (h : Ascii s) : textOf (s.map (BitVec.setWidth 8)) = s.map (BitVec.setWidth 8) := by
    refine textOf_of_nulFree fun c hc => ?_
    obtain ⟨d, hd, rfl⟩ := List.mem_map.1 hc
    have := h d hd
    intro e
    have e := congrArg BitVec.toNat e
    rw [BitVec.toNat_setWidth] at e
    have e : d.toNat % 2 ^ 8 = 0 := e
    omega
  refine ⟨fun s => ?_, fun s => ?_, fun s => ?_⟩
  · obtain ⟨b, hb, h⟩ := e8 s
    show (isUtf8S U s kAscii Pred.none).bind _ = _
    rw [hb, Res.bind_ok]
    by_cases ha : Ascii (textOf s)
    · rw [h.2 ha, if_pos rfl, if_pos ha, stringOfPtr_cStr]
    · rw [if_neg fun e => ha (h.1 e), if_neg ha]
  · obtain ⟨b, hb, h⟩ := e16 s
    show (isUtf16S U s kAscii Pred.none).bind (fun b => if b then (toUtf8From16S s).bind _ else _) = _
    rw [hb, Res.bind_ok]
    by_cases ha : Ascii (textOf s)
    · rw [h.2 ha, if_pos rfl, if_pos ha, C12_conversions.2.2.2.2.1 s, (C53_from_utf16 ha).1, Res.bind_ok, stringOfPtr_cStr,
        nul ha]
    · rw [if_neg fun e => ha (h.1 e), if_neg ha]
  · obtain ⟨b, hb, h⟩ := e32 s
    show (isUcs4S U s kAscii Pred.none).bind (fun b => if b then (toUtf8From32S s).bind _ else _) = _
    rw [hb, Res.bind_ok]
    by_cases ha : Ascii (textOf s)
    · rw [h.2 ha, if_pos rfl, if_pos ha, C12_conversions.2.2.2.2.2.1 s, (C53_from_ucs4 ha).1, Res.bind_ok, stringOfPtr_cStr,
        nul ha]
    · rw [if_neg fun e => ha (h.1 e), if_neg ha]

example : Ascii (textOf ([0x41, 0x7F, 0, 0x80] : List U16)) ∧ ¬ Ascii (textOf ([0x41, 0x80] : List U16)) := by decide

end Ansak.Props
