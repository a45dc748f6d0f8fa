import Verif.Lemmas.Cpp.Early
import Verif.Props.TextDefined
import Verif.Props.TextPredicate

/-!
# C72: the library can be used before its globals are initialised, apart from the function that returns the version

Everything here is about the text of the library.
-/

namespace Ansak.Props

open Cpp
open Spec (Arg enough bytesOf Runs RunsOn Changes RunsMember Early EarlyOn EarlyChanges EarlyMember Overload OverloadW Changer Member
  unready Yields)

theorem early_same {v : Version} {name : Nat} {args : List Arg} {x : Res Arg} (h : Runs v name args x) (h' : Early v name args x)
    {out : Res Arg} (ho : Runs v name args out) : Early v name args out := C67_unique h ho ▸ h'

theorem earlyOn_same {w : Bool} {v : Version} {name : Nat} {args : List Arg} {x : Res Arg} (h : RunsOn w v name args x)
    (h' : EarlyOn w v name args x) {out : Res Arg} (ho : RunsOn w v name args out) : EarlyOn w v name args out :=
  yields_unique (h false _ (Nat.le_refl _)) (ho false _ (Nat.le_refl _)) ▸ h'

theorem earlyChanges_same {v : Version} {name : Nat} {s : Arg} {args : List Arg} {x : Res Arg} (h : Changes v name s args x)
    (h' : EarlyChanges v name s args x) {out : Res Arg} (ho : Changes v name s args out) : EarlyChanges v name s args out :=
  C67_changes_unique h ho ▸ h'

/-- A call of a function of the library has the same outcome when it is made before the globals are initialised. Missing:
`getUnicodeVersionSupported` (`C72_text_version_violated`). -/
theorem C72_text_calls_partial (v : Version) {name : Nat} {args : List Arg} (h : Overload name args) {out : Res Arg}
    (ho : Runs v name args out) : Early v name args out := by
  cases h with
  | isUtf8 ha h =>
    cases ha with
    | str s =>
      cases h with
      | none => exact early_same (C67_isUtf8_S1 v s) (early_isUtf8_S1 v s) ho
      | range t => exact early_same (C67_isUtf8_SR v s t) (early_isUtf8_SR v s t) ho
      | pred q => exact early_same (C67_isUtf8_S2 v s q) (early_isUtf8_S2 v s q) ho
      | both t q => exact early_same (C67_isUtf8_S3 v s t q) (early_isUtf8_S3 v s t q) ho
    | ptr p =>
      cases h with
      | none => exact early_same (C67_isUtf8_P1 v p) (early_isUtf8_P1 v p) ho
      | range t => exact early_same (C67_isUtf8_PR v p t) (early_isUtf8_PR v p t) ho
      | pred q => exact early_same (C67_isUtf8_P2 v p q) (early_isUtf8_P2 v p q) ho
      | both t q => exact early_same (C67_isUtf8_P3 v p t q) (early_isUtf8_P3 v p t q) ho
  | isUtf16 ha h =>
    cases ha with
    | str s =>
      cases h with
      | none => exact early_same (C67_isUtf16_S1 v s) (early_isUtf16_S1 v s) ho
      | range t => exact early_same (C67_isUtf16_SR v s t) (early_isUtf16_SR v s t) ho
      | pred q => exact early_same (C67_isUtf16_S2 v s q) (early_isUtf16_S2 v s q) ho
      | both t q => exact early_same (C67_isUtf16_S3 v s t q) (early_isUtf16_S3 v s t q) ho
    | ptr p =>
      cases h with
      | none => exact early_same (C67_isUtf16_P1 v p) (early_isUtf16_P1 v p) ho
      | range t => exact early_same (C67_isUtf16_PR v p t) (early_isUtf16_PR v p t) ho
      | pred q => exact early_same (C67_isUtf16_P2 v p q) (early_isUtf16_P2 v p q) ho
      | both t q => exact early_same (C67_isUtf16_P3 v p t q) (early_isUtf16_P3 v p t q) ho
  | isUcs2 ha h =>
    cases ha with
    | str s =>
      cases h with
      | none => exact early_same (C67_isUcs2_S1 v s) (early_isUcs2_S1 v s) ho
      | range t => exact early_same (C67_isUcs2_SR v s t) (early_isUcs2_SR v s t) ho
      | pred q => exact early_same (C67_isUcs2_S2 v s q) (early_isUcs2_S2 v s q) ho
      | both t q => exact early_same (C67_isUcs2_S3 v s t q) (early_isUcs2_S3 v s t q) ho
    | ptr p =>
      cases h with
      | none => exact early_same (C67_isUcs2_P1 v p) (early_isUcs2_P1 v p) ho
      | range t => exact early_same (C67_isUcs2_PR v p t) (early_isUcs2_PR v p t) ho
      | pred q => exact early_same (C67_isUcs2_P2 v p q) (early_isUcs2_P2 v p q) ho
      | both t q => exact early_same (C67_isUcs2_P3 v p t q) (early_isUcs2_P3 v p t q) ho
  | isUcs4 ha h =>
    cases ha with
    | str s =>
      cases h with
      | none => exact early_same (C67_isUcs4_S1 v s) (early_isUcs4_S1 v s) ho
      | range t => exact early_same (C67_isUcs4_SR v s t) (early_isUcs4_SR v s t) ho
      | pred q => exact early_same (C67_isUcs4_S2 v s q) (early_isUcs4_S2 v s q) ho
      | both t q => exact early_same (C67_isUcs4_S3 v s t q) (early_isUcs4_S3 v s t q) ho
    | ptr p =>
      cases h with
      | none => exact early_same (C67_isUcs4_P1 v p) (early_isUcs4_P1 v p) ho
      | range t => exact early_same (C67_isUcs4_PR v p t) (early_isUcs4_PR v p t) ho
      | pred q => exact early_same (C67_isUcs4_P2 v p q) (early_isUcs4_P2 v p q) ho
      | both t q => exact early_same (C67_isUcs4_P3 v p t q) (early_isUcs4_P3 v p t q) ho
  | isUtf8Len p len => exact early_same (C67_isUtf8_L2 v p len) (early_isUtf8_L2 v p len) ho
  | isUtf8LenPred p len q => exact early_same (C67_isUtf8_L3 v p len q) (early_isUtf8_L3 v p len q) ho
  | toUtf8_16 ha =>
    cases ha with
    | str s => exact early_same (C67_toUtf8_S16 v s) (early_toUtf8_S16 v s) ho
    | ptr p => exact early_same (C67_toUtf8_P16 v p) (early_toUtf8_P16 v p) ho
  | toUtf8_32 ha =>
    cases ha with
    | str s => exact early_same (C67_toUtf8_S32 v s) (early_toUtf8_S32 v s) ho
    | ptr p => exact early_same (C67_toUtf8_P32 v p) (early_toUtf8_P32 v p) ho
  | toUcs2_8 ha =>
    cases ha with
    | str s => exact early_same (C67_toUcs2_S8 v s) (early_toUcs2_S8 v s) ho
    | ptr p => exact early_same (C67_toUcs2_P8 v p) (early_toUcs2_P8 v p) ho
  | toUcs2_32 ha =>
    cases ha with
    | str s => exact early_same (C67_toUcs2_S32 v s) (early_toUcs2_S32 v s) ho
    | ptr p => exact early_same (C67_toUcs2_P32 v p) (early_toUcs2_P32 v p) ho
  | toUtf16_8 ha =>
    cases ha with
    | str s => exact early_same (C67_toUtf16_S8 v s) (early_toUtf16_S8 v s) ho
    | ptr p => exact early_same (C67_toUtf16_P8 v p) (early_toUtf16_P8 v p) ho
  | toUtf16_32 ha =>
    cases ha with
    | str s => exact early_same (C67_toUtf16_S32 v s) (early_toUtf16_S32 v s) ho
    | ptr p => exact early_same (C67_toUtf16_P32 v p) (early_toUtf16_P32 v p) ho
  | toUcs4_8 ha =>
    cases ha with
    | str s => exact early_same (C67_toUcs4_S8 v s) (early_toUcs4_S8 v s) ho
    | ptr p => exact early_same (C67_toUcs4_P8 v p) (early_toUcs4_P8 v p) ho
  | toUcs4_16 ha =>
    cases ha with
    | str s => exact early_same (C67_toUcs4_S16 v s) (early_toUcs4_S16 v s) ho
    | ptr p => exact early_same (C67_toUcs4_P16 v p) (early_toUcs4_P16 v p) ho
  | unicodeLength8 ha =>
    cases ha with
    | str s => exact early_same (C67_unicodeLength_S8 v s) (early_unicodeLength_S8 v s) ho
    | ptr p => exact early_same (C67_unicodeLength_P8 v p) (early_unicodeLength_P8 v p) ho
  | unicodeLength16 ha =>
    cases ha with
    | str s => exact early_same (C67_unicodeLength_S16 v s) (early_unicodeLength_S16 v s) ho
    | ptr p => exact early_same (C67_unicodeLength_P16 v p) (early_unicodeLength_P16 v p) ho
  | unicodeLength32 ha =>
    cases ha with
    | str s => exact early_same (C67_unicodeLength_S32 v s) (early_unicodeLength_S32 v s) ho
    | ptr p => exact early_same (C67_unicodeLength_P32 v p) (early_unicodeLength_P32 v p) ho
  | page p t => exact early_same (C67_toUtf8_page v p t) (early_toUtf8_page v p t) ho
  | unicodeLength8Len p len => exact early_same (C67_unicodeLength_L8 v p len) (early_unicodeLength_L8 v p len) ho
  | toLower8 s => exact early_same (C67_toLower_S8 v s) (early_toLower_S8 v s) ho
  | toLower8Lang s p => exact early_same (C67_toLower_S8_lang v s p) (early_toLower_S8_lang v s p) ho
  | split8 c h => exact early_same (C67_split_8 v _ c h) (early_split_8 v _ c h) ho
  | join8 l c => exact early_same (C67_join_8 v l c) (early_join_8 v l c) ho
  | unicodeLength16Len p len => exact early_same (C67_unicodeLength_L16 v p len) (early_unicodeLength_L16 v p len) ho
  | toLower16 s => exact early_same (C67_toLower_S16 v s) (early_toLower_S16 v s) ho
  | toLower16Lang s p => exact early_same (C67_toLower_S16_lang v s p) (early_toLower_S16_lang v s p) ho
  | split16 c h => exact early_same (C67_split_16 v _ c h) (early_split_16 v _ c h) ho
  | join16 l c => exact early_same (C67_join_16 v l c) (early_join_16 v l c) ho
  | unicodeLength32Len p len => exact early_same (C67_unicodeLength_L32 v p len) (early_unicodeLength_L32 v p len) ho
  | toLower32 s => exact early_same (C67_toLower_S32 v s) (early_toLower_S32 v s) ho
  | toLower32Lang s p => exact early_same (C67_toLower_S32_lang v s p) (early_toLower_S32_lang v s p) ho
  | split32 c h => exact early_same (C67_split_32 v _ c h) (early_split_32 v _ c h) ho
  | join32 l c => exact early_same (C67_join_32 v l c) (early_join_32 v l c) ho
  | validIf t => exact early_same (C67_validIf v t) (early_validIf v t) ho
  | validIfNot t => exact early_same (C67_validIfNot v t) (early_validIfNot v t) ho
  | checkIf t => exact early_same (C67_checkIf v t) (early_checkIf v t) ho
  | checkIfNot t => exact early_same (C67_checkIfNot v t) (early_checkIfNot v t) ho

/-- The functions for `wchar_t`. -/
theorem C72_text_wide_partial (v : Version) {w : Bool} {name : Nat} {args : List Arg} (h : OverloadW w name args) {out : Res Arg}
    (ho : RunsOn w v name args out) : EarlyOn w v name args out := by
  cases h with
  | isUtf8 ha =>
    cases ha with
    | str32 s => exact earlyOn_same (C67_w32_isUtf8_SW v s) (early_w32_isUtf8_SW v s) ho
    | ptr32 p => exact earlyOn_same (C67_w32_isUtf8_PW v p) (early_w32_isUtf8_PW v p) ho
    | str16 s => exact earlyOn_same (C67_w16_isUtf8_SW v s) (early_w16_isUtf8_SW v s) ho
    | ptr16 p => exact earlyOn_same (C67_w16_isUtf8_PW v p) (early_w16_isUtf8_PW v p) ho
  | isUtf16 ha =>
    cases ha with
    | str32 s => exact earlyOn_same (C67_w32_isUtf16_SW v s) (early_w32_isUtf16_SW v s) ho
    | ptr32 p => exact earlyOn_same (C67_w32_isUtf16_PW v p) (early_w32_isUtf16_PW v p) ho
    | str16 s => exact earlyOn_same (C67_w16_isUtf16_SW v s) (early_w16_isUtf16_SW v s) ho
    | ptr16 p => exact earlyOn_same (C67_w16_isUtf16_PW v p) (early_w16_isUtf16_PW v p) ho
  | isUcs2 ha =>
    cases ha with
    | str32 s => exact earlyOn_same (C67_w32_isUcs2_SW v s) (early_w32_isUcs2_SW v s) ho
    | ptr32 p => exact earlyOn_same (C67_w32_isUcs2_PW v p) (early_w32_isUcs2_PW v p) ho
    | str16 s => exact earlyOn_same (C67_w16_isUcs2_SW v s) (early_w16_isUcs2_SW v s) ho
    | ptr16 p => exact earlyOn_same (C67_w16_isUcs2_PW v p) (early_w16_isUcs2_PW v p) ho
  | isUcs4 ha =>
    cases ha with
    | str32 s => exact earlyOn_same (C67_w32_isUcs4_SW v s) (early_w32_isUcs4_SW v s) ho
    | ptr32 p => exact earlyOn_same (C67_w32_isUcs4_PW v p) (early_w32_isUcs4_PW v p) ho
    | str16 s => exact earlyOn_same (C67_w16_isUcs4_SW v s) (early_w16_isUcs4_SW v s) ho
    | ptr16 p => exact earlyOn_same (C67_w16_isUcs4_PW v p) (early_w16_isUcs4_PW v p) ho
  | toUtf8 ha =>
    cases ha with
    | str32 s => exact earlyOn_same (C67_w32_toUtf8_SW v s) (early_w32_toUtf8_SW v s) ho
    | ptr32 p => exact earlyOn_same (C67_w32_toUtf8_PW v p) (early_w32_toUtf8_PW v p) ho
    | str16 s => exact earlyOn_same (C67_w16_toUtf8_SW v s) (early_w16_toUtf8_SW v s) ho
    | ptr16 p => exact earlyOn_same (C67_w16_toUtf8_PW v p) (early_w16_toUtf8_PW v p) ho
  | toUtf16 ha =>
    cases ha with
    | str32 s => exact earlyOn_same (C67_w32_toUtf16_SW v s) (early_w32_toUtf16_SW v s) ho
    | ptr32 p => exact earlyOn_same (C67_w32_toUtf16_PW v p) (early_w32_toUtf16_PW v p) ho
    | str16 s => exact earlyOn_same (C67_w16_toUtf16_SW v s) (early_w16_toUtf16_SW v s) ho
    | ptr16 p => exact earlyOn_same (C67_w16_toUtf16_PW v p) (early_w16_toUtf16_PW v p) ho
  | toUcs2 ha =>
    cases ha with
    | str32 s => exact earlyOn_same (C67_w32_toUcs2_SW v s) (early_w32_toUcs2_SW v s) ho
    | ptr32 p => exact earlyOn_same (C67_w32_toUcs2_PW v p) (early_w32_toUcs2_PW v p) ho
    | str16 s => exact earlyOn_same (C67_w16_toUcs2_SW v s) (early_w16_toUcs2_SW v s) ho
    | ptr16 p => exact earlyOn_same (C67_w16_toUcs2_PW v p) (early_w16_toUcs2_PW v p) ho
  | toUcs4 ha =>
    cases ha with
    | str32 s => exact earlyOn_same (C67_w32_toUcs4_SW v s) (early_w32_toUcs4_SW v s) ho
    | ptr32 p => exact earlyOn_same (C67_w32_toUcs4_PW v p) (early_w32_toUcs4_PW v p) ho
    | str16 s => exact earlyOn_same (C67_w16_toUcs4_SW v s) (early_w16_toUcs4_SW v s) ho
    | ptr16 p => exact earlyOn_same (C67_w16_toUcs4_PW v p) (early_w16_toUcs4_PW v p) ho
  | isWstring8 ha =>
    cases w with
    | true =>
      cases ha with
      | str s => exact earlyOn_same (C67_w32_isWstring_S8 v s) (early_w32_isWstring_S8 v s) ho
      | ptr p => exact earlyOn_same (C67_w32_isWstring_P8 v p) (early_w32_isWstring_P8 v p) ho
    | false =>
      cases ha with
      | str s => exact earlyOn_same (C67_w16_isWstring_S8 v s) (early_w16_isWstring_S8 v s) ho
      | ptr p => exact earlyOn_same (C67_w16_isWstring_P8 v p) (early_w16_isWstring_P8 v p) ho
  | isWstring16 ha =>
    cases w with
    | true =>
      cases ha with
      | str s => exact earlyOn_same (C67_w32_isWstring_S16 v s) (early_w32_isWstring_S16 v s) ho
      | ptr p => exact earlyOn_same (C67_w32_isWstring_P16 v p) (early_w32_isWstring_P16 v p) ho
    | false =>
      cases ha with
      | str s => exact earlyOn_same (C67_w16_isWstring_S16 v s) (early_w16_isWstring_S16 v s) ho
      | ptr p => exact earlyOn_same (C67_w16_isWstring_P16 v p) (early_w16_isWstring_P16 v p) ho
  | isWstring32 ha =>
    cases w with
    | true =>
      cases ha with
      | str s => exact earlyOn_same (C67_w32_isWstring_S32 v s) (early_w32_isWstring_S32 v s) ho
      | ptr p => exact earlyOn_same (C67_w32_isWstring_P32 v p) (early_w32_isWstring_P32 v p) ho
    | false =>
      cases ha with
      | str s => exact earlyOn_same (C67_w16_isWstring_S32 v s) (early_w16_isWstring_S32 v s) ho
      | ptr p => exact earlyOn_same (C67_w16_isWstring_P32 v p) (early_w16_isWstring_P32 v p) ho
  | toWstring8 ha =>
    cases w with
    | true =>
      cases ha with
      | str s => exact earlyOn_same (C67_w32_toWstring_S8 v s) (early_w32_toWstring_S8 v s) ho
      | ptr p => exact earlyOn_same (C67_w32_toWstring_P8 v p) (early_w32_toWstring_P8 v p) ho
    | false =>
      cases ha with
      | str s => exact earlyOn_same (C67_w16_toWstring_S8 v s) (early_w16_toWstring_S8 v s) ho
      | ptr p => exact earlyOn_same (C67_w16_toWstring_P8 v p) (early_w16_toWstring_P8 v p) ho
  | toWstring16 ha =>
    cases w with
    | true =>
      cases ha with
      | str s => exact earlyOn_same (C67_w32_toWstring_S16 v s) (early_w32_toWstring_S16 v s) ho
      | ptr p => exact earlyOn_same (C67_w32_toWstring_P16 v p) (early_w32_toWstring_P16 v p) ho
    | false =>
      cases ha with
      | str s => exact earlyOn_same (C67_w16_toWstring_S16 v s) (early_w16_toWstring_S16 v s) ho
      | ptr p => exact earlyOn_same (C67_w16_toWstring_P16 v p) (early_w16_toWstring_P16 v p) ho
  | toWstring32 ha =>
    cases w with
    | true =>
      cases ha with
      | str s => exact earlyOn_same (C67_w32_toWstring_S32 v s) (early_w32_toWstring_S32 v s) ho
      | ptr p => exact earlyOn_same (C67_w32_toWstring_P32 v p) (early_w32_toWstring_P32 v p) ho
    | false =>
      cases ha with
      | str s => exact earlyOn_same (C67_w16_toWstring_S32 v s) (early_w16_toWstring_S32 v s) ho
      | ptr p => exact earlyOn_same (C67_w16_toWstring_P32 v p) (early_w16_toWstring_P32 v p) ho

/-- The functions that change their first argument. -/
theorem C72_text_changes_partial (v : Version) {name : Nat} {s : Arg} {args : List Arg} (h : Changer name s args) {out : Res Arg}
    (ho : Changes v name s args out) : EarlyChanges v name s args out := by
  cases h with
  | trim8 h => exact earlyChanges_same (C67_trim_8 v _ h) (early_trim_8 v _ h) ho
  | trim16 h => exact earlyChanges_same (C67_trim_16 v _ h) (early_trim_16 v _ h) ho
  | trim32 h => exact earlyChanges_same (C67_trim_32 v _ h) (early_trim_32 v _ h) ho
  | trimOf8 h h' => exact earlyChanges_same (C67_trimOf_8 v _ _ h h') (early_trimOf_8 v _ _ h h') ho
  | trimOf16 h h' => exact earlyChanges_same (C67_trimOf_16 v _ _ h h') (early_trimOf_16 v _ _ h h') ho
  | trimOf32 h h' => exact earlyChanges_same (C67_trimOf_32 v _ _ h h') (early_trimOf_32 v _ _ h h') ho
  | trimAscii7 h => exact earlyChanges_same (C67_trimAscii7WhiteSpace v _ h) (early_trimAscii7WhiteSpace v _ h) ho
  | trimWhite8 h => exact earlyChanges_same (C67_trimWhiteSpace_8 v _ h) (early_trimWhiteSpace_8 v _ h) ho
  | trimWhite16 h => exact earlyChanges_same (C67_trimWhiteSpace_16 v _ h) (early_trimWhiteSpace_16 v _ h) ho
  | trimWhite32 h => exact earlyChanges_same (C67_trimWhiteSpace_32 v _ h) (early_trimWhiteSpace_32 v _ h) ho

theorem earlyMember_same {v : Version} {name : Nat} {p : Pred} {args : List Arg} {a b : Arg} {q r : Pred}
    (h : RunsMember v name p args a q) (h' : EarlyMember v name p args a q) (ho : RunsMember v name p args b r) :
    EarlyMember v name p args b r := by
  obtain ⟨rfl, rfl⟩ := C67_member_unique h ho
  exact h'

/-- The member functions of `EncodingCheckPredicate`. -/
theorem C72_text_members_partial (v : Version) {name : Nat} {p : Pred} {args : List Arg} (h : Member name args) {a : Arg} {q : Pred}
    (ho : RunsMember v name p args a q) : EarlyMember v name p args a q := by
  cases h with
  | andIf t => exact earlyMember_same (C67_andIf v p t) (early_andIf v p t) ho
  | andIfNot t => exact earlyMember_same (C67_andIfNot v p t) (early_andIfNot v p t) ho
  | equals q => exact earlyMember_same (C67_equals v p q) (early_equals v p q) ho
  | differs q => exact earlyMember_same (C67_differs v p q) (early_differs v p q) ho
  | apply8 c => exact earlyMember_same (C67_apply8 v p c) (early_apply8 v p c) ho
  | apply16 c => exact earlyMember_same (C67_apply16 v p c) (early_apply16 v p c) ho
  | apply32 c => exact earlyMember_same (C67_apply32 v p c) (early_apply32 v p c) ho

/-- The constructor without arguments, and `x == x` and `x != x`. -/
theorem C72_text_objects_partial (v : Version) :
    (∀ p, Spec.Constructs v p → Spec.EarlyConstructs v p) ∧
    (∀ p r, Spec.RunsOnItself v (name% "operator==") p r → Spec.EarlyOnItself v (name% "operator==") p r) ∧
    (∀ p r, Spec.RunsOnItself v (name% "operator!=") p r → Spec.EarlyOnItself v (name% "operator!=") p r) := by
  have one : ∀ {name : Nat} {p : Pred} {r r' : Arg}, Spec.RunsOnItself v name p r → Spec.RunsOnItself v name p r' → r = r' :=
    fun h h' => by
      have e := (h false false 8 (Nat.le_refl _)).symm.trans (h' false false 8 (Nat.le_refl _))
      injection e with e
      exact val_injective false e
  refine ⟨fun p h => ?_, fun p r h => ?_, fun p r h => ?_⟩
  · cases C67_construct_unique h (C67_construct v)
    intro w u sc n hn
    rw [callText_eq (X := unready v sc u) (s := u) rfl]
    obtain ⟨d, rfl⟩ : ∃ d, n = d + 8 := ⟨n - 8, by omega⟩
    exact construct_default (E := Sealed.real) (d := d + 7)
  · cases one h (C67_equals_itself v p)
    intro w u sc n hn
    rw [callText_eq (X := unready v sc u) (s := u) rfl]
    obtain ⟨d, rfl⟩ : ∃ d, n = d + 8 := ⟨n - 8, by omega⟩
    exact equals_itself (E := Sealed.real) (d := d + 7) p
  · cases one h (C67_differs_itself v p)
    intro w u sc n hn
    rw [callText_eq (X := unready v sc u) (s := u) rfl]
    obtain ⟨d, rfl⟩ : ∃ d, n = d + 8 := ⟨n - 8, by omega⟩
    exact differs_itself (E := Sealed.real) (d := d + 6) p

/-- `supportedUnicodeVersion` is the only variable that the text of the library takes from elsewhere. -/
theorem C72_text_globals (w : Bool) : ∃ is, Cpp.parseAll (Cpp.Source.pieces w) = some is ∧
    Spec.definedElsewhere is = [name% "supportedUnicodeVersion"] := by
  refine ⟨_, Cpp.parse_pieces w, ?_⟩
  cases w
  · kernel_rfl
  · kernel_rfl

/-- `getUnicodeVersionSupported` is not one of them: it returns what `supportedUnicodeVersion` is at the time. -/
theorem C72_text_version_violated (v : Version) :
    Runs v (name% "getUnicodeVersionSupported") [] (.ok (.str8 (bytesOf (Unicode.getUnicodeVersionSupported v)))) ∧
    (∀ u w sc n, 8 ≤ n →
      Cpp.callText (unready v sc u) sc (Cpp.wideType w) (Cpp.Source.pieces w) n (nat_lit 0) (name% "getUnicodeVersionSupported") [] =
        .done (.str .char u) []) ∧
    ¬ ∃ out, Early v (name% "getUnicodeVersionSupported") [] out := by
  have key : ∀ u w sc n, 8 ≤ n →
      Cpp.callText (unready v sc u) sc (Cpp.wideType w) (Cpp.Source.pieces w) n (nat_lit 0) (name% "getUnicodeVersionSupported") [] =
        .done (.str .char u) [] := fun u w sc n hn => by
    rw [callText_eq (X := unready v sc u) (s := u) rfl]
    obtain ⟨d, rfl⟩ : ∃ d, n = d + 8 := ⟨n - 8, by omega⟩
    exact getUnicodeVersionSupported_call (E := Sealed.real) (d := d + 7)
  refine ⟨C67_version v, key, ?_⟩
  rintro ⟨out, h⟩
  have h1 := h false [] false _ (Nat.le_refl _)
  have h2 := h false [0x31] false _ (Nat.le_refl _)
  rw [show [].map (Arg.val false) = [] from rfl, key _ _ _ (enough []) (Nat.le_refl 8)] at h1 h2
  cases out with
  | ok a =>
    obtain ⟨_, e1, _⟩ := h1
    obtain ⟨_, e2, _⟩ := h2
    injection e1 with e1
    injection e2 with e2
    have e := e1.trans e2.symm
    cases e
  | ub => cases h1

/-- A check with a range and a predicate; a call of `trim`; calls that a global may make in its initialiser. -/
example (v : Version) : Overload (name% "isUtf8") [.str8 [0xC3, 0xA4], .range 3, .pred (Pred.validIf 1)] ∧
    Changer (name% "trim") (.str8 [0x20, 0x41]) [] ∧ Member (name% "andIf") [.encoding 2] ∧
    OverloadW true (name% "toWstring") [.str8 [0x41]] ∧
    EarlyChanges v (name% "trim") (.str8 [0x20, 0x41]) [] (.ok (.str8 [0x41])) := by
  refine ⟨.isUtf8 (.str _) (.both _ _), .trim8 (by decide), .andIf _, .toWstring8 (.str _), ?_⟩
  have h := C67_trim_8 v [0x20, 0x41] (by decide)
  rw [show trim [(0x20 : Byte), 0x41] = [0x41] by decide +kernel] at h
  exact C72_text_changes_partial v (.trim8 (by decide)) h

end Ansak.Props
