import Verif.Lemmas.Cpp.Shallow
import Verif.Props.TextDefined
import Verif.Props.TextPredicate

/-!
# C74: calls need little of the stack, whatever the length of the text

Everything here is about the text of the library. The calls on Windows are in `Verif.Props.ShallowWindows`.
-/

namespace Ansak.Props

open Cpp
open Spec (Arg enough bytesOf Runs RunsOn Changes RunsMember Shallow ShallowOn ShallowChanges ShallowMember Overload OverloadW Changer Member
  callWithin Yields)

theorem enough_eight : (args : List Arg) → 8 ≤ enough args
  | [] => Nat.le_refl _
  | _ :: args => Nat.le_trans (enough_eight args) (Nat.le_add_left _ _)

theorem callWithin_self (X : Externals) (sc : Bool) (wide : Ty) (ps : List Cxx.Text) (n cls name : Nat) (vs : List Val) :
    callWithin X sc wide ps n n cls name vs = callText X sc wide ps n cls name vs := rfl

theorem shallow_same {v : Version} {name : Nat} {args : List Arg} {x : Res Arg} (h : Runs v name args x) (h' : Shallow v name args x)
    {out : Res Arg} (ho : Runs v name args out) : Shallow v name args out := C67_unique h ho ▸ h'

theorem shallowOn_same {w : Bool} {v : Version} {name : Nat} {args : List Arg} {x : Res Arg} (h : RunsOn w v name args x)
    (h' : ShallowOn w v name args x) {out : Res Arg} (ho : RunsOn w v name args out) : ShallowOn w v name args out :=
  yields_unique (h false _ (Nat.le_refl _)) (ho false _ (Nat.le_refl _)) ▸ h'

theorem shallowChanges_same {v : Version} {name : Nat} {s : Arg} {args : List Arg} {x : Res Arg} (h : Changes v name s args x)
    (h' : ShallowChanges v name s args x) {out : Res Arg} (ho : Changes v name s args out) : ShallowChanges v name s args out :=
  C67_changes_unique h ho ▸ h'

/-- A call of a function of the library has its outcome with eight calls inside each other, and with loops that have no more rounds
than the arguments have characters (and 8 more). -/
theorem C74_text_calls (v : Version) {name : Nat} {args : List Arg} (h : Overload name args) {out : Res Arg}
    (ho : Runs v name args out) : Shallow v name args out := by
  cases h with
  | isUtf8 ha h =>
    cases ha with
    | str s =>
      cases h with
      | none => exact shallow_same (C67_isUtf8_S1 v s) (shallow_isUtf8_S1 v s) ho
      | range t => exact shallow_same (C67_isUtf8_SR v s t) (shallow_isUtf8_SR v s t) ho
      | pred q => exact shallow_same (C67_isUtf8_S2 v s q) (shallow_isUtf8_S2 v s q) ho
      | both t q => exact shallow_same (C67_isUtf8_S3 v s t q) (shallow_isUtf8_S3 v s t q) ho
    | ptr p =>
      cases h with
      | none => exact shallow_same (C67_isUtf8_P1 v p) (shallow_isUtf8_P1 v p) ho
      | range t => exact shallow_same (C67_isUtf8_PR v p t) (shallow_isUtf8_PR v p t) ho
      | pred q => exact shallow_same (C67_isUtf8_P2 v p q) (shallow_isUtf8_P2 v p q) ho
      | both t q => exact shallow_same (C67_isUtf8_P3 v p t q) (shallow_isUtf8_P3 v p t q) ho
  | isUtf16 ha h =>
    cases ha with
    | str s =>
      cases h with
      | none => exact shallow_same (C67_isUtf16_S1 v s) (shallow_isUtf16_S1 v s) ho
      | range t => exact shallow_same (C67_isUtf16_SR v s t) (shallow_isUtf16_SR v s t) ho
      | pred q => exact shallow_same (C67_isUtf16_S2 v s q) (shallow_isUtf16_S2 v s q) ho
      | both t q => exact shallow_same (C67_isUtf16_S3 v s t q) (shallow_isUtf16_S3 v s t q) ho
    | ptr p =>
      cases h with
      | none => exact shallow_same (C67_isUtf16_P1 v p) (shallow_isUtf16_P1 v p) ho
      | range t => exact shallow_same (C67_isUtf16_PR v p t) (shallow_isUtf16_PR v p t) ho
      | pred q => exact shallow_same (C67_isUtf16_P2 v p q) (shallow_isUtf16_P2 v p q) ho
      | both t q => exact shallow_same (C67_isUtf16_P3 v p t q) (shallow_isUtf16_P3 v p t q) ho
  | isUcs2 ha h =>
    cases ha with
    | str s =>
      cases h with
      | none => exact shallow_same (C67_isUcs2_S1 v s) (shallow_isUcs2_S1 v s) ho
      | range t => exact shallow_same (C67_isUcs2_SR v s t) (shallow_isUcs2_SR v s t) ho
      | pred q => exact shallow_same (C67_isUcs2_S2 v s q) (shallow_isUcs2_S2 v s q) ho
      | both t q => exact shallow_same (C67_isUcs2_S3 v s t q) (shallow_isUcs2_S3 v s t q) ho
    | ptr p =>
      cases h with
      | none => exact shallow_same (C67_isUcs2_P1 v p) (shallow_isUcs2_P1 v p) ho
      | range t => exact shallow_same (C67_isUcs2_PR v p t) (shallow_isUcs2_PR v p t) ho
      | pred q => exact shallow_same (C67_isUcs2_P2 v p q) (shallow_isUcs2_P2 v p q) ho
      | both t q => exact shallow_same (C67_isUcs2_P3 v p t q) (shallow_isUcs2_P3 v p t q) ho
  | isUcs4 ha h =>
    cases ha with
    | str s =>
      cases h with
      | none => exact shallow_same (C67_isUcs4_S1 v s) (shallow_isUcs4_S1 v s) ho
      | range t => exact shallow_same (C67_isUcs4_SR v s t) (shallow_isUcs4_SR v s t) ho
      | pred q => exact shallow_same (C67_isUcs4_S2 v s q) (shallow_isUcs4_S2 v s q) ho
      | both t q => exact shallow_same (C67_isUcs4_S3 v s t q) (shallow_isUcs4_S3 v s t q) ho
    | ptr p =>
      cases h with
      | none => exact shallow_same (C67_isUcs4_P1 v p) (shallow_isUcs4_P1 v p) ho
      | range t => exact shallow_same (C67_isUcs4_PR v p t) (shallow_isUcs4_PR v p t) ho
      | pred q => exact shallow_same (C67_isUcs4_P2 v p q) (shallow_isUcs4_P2 v p q) ho
      | both t q => exact shallow_same (C67_isUcs4_P3 v p t q) (shallow_isUcs4_P3 v p t q) ho
  | isUtf8Len p len => exact shallow_same (C67_isUtf8_L2 v p len) (shallow_isUtf8_L2 v p len) ho
  | isUtf8LenPred p len q => exact shallow_same (C67_isUtf8_L3 v p len q) (shallow_isUtf8_L3 v p len q) ho
  | toUtf8_16 ha =>
    cases ha with
    | str s => exact shallow_same (C67_toUtf8_S16 v s) (shallow_toUtf8_S16 v s) ho
    | ptr p => exact shallow_same (C67_toUtf8_P16 v p) (shallow_toUtf8_P16 v p) ho
  | toUtf8_32 ha =>
    cases ha with
    | str s => exact shallow_same (C67_toUtf8_S32 v s) (shallow_toUtf8_S32 v s) ho
    | ptr p => exact shallow_same (C67_toUtf8_P32 v p) (shallow_toUtf8_P32 v p) ho
  | toUcs2_8 ha =>
    cases ha with
    | str s => exact shallow_same (C67_toUcs2_S8 v s) (shallow_toUcs2_S8 v s) ho
    | ptr p => exact shallow_same (C67_toUcs2_P8 v p) (shallow_toUcs2_P8 v p) ho
  | toUcs2_32 ha =>
    cases ha with
    | str s => exact shallow_same (C67_toUcs2_S32 v s) (shallow_toUcs2_S32 v s) ho
    | ptr p => exact shallow_same (C67_toUcs2_P32 v p) (shallow_toUcs2_P32 v p) ho
  | toUtf16_8 ha =>
    cases ha with
    | str s => exact shallow_same (C67_toUtf16_S8 v s) (shallow_toUtf16_S8 v s) ho
    | ptr p => exact shallow_same (C67_toUtf16_P8 v p) (shallow_toUtf16_P8 v p) ho
  | toUtf16_32 ha =>
    cases ha with
    | str s => exact shallow_same (C67_toUtf16_S32 v s) (shallow_toUtf16_S32 v s) ho
    | ptr p => exact shallow_same (C67_toUtf16_P32 v p) (shallow_toUtf16_P32 v p) ho
  | toUcs4_8 ha =>
    cases ha with
    | str s => exact shallow_same (C67_toUcs4_S8 v s) (shallow_toUcs4_S8 v s) ho
    | ptr p => exact shallow_same (C67_toUcs4_P8 v p) (shallow_toUcs4_P8 v p) ho
  | toUcs4_16 ha =>
    cases ha with
    | str s => exact shallow_same (C67_toUcs4_S16 v s) (shallow_toUcs4_S16 v s) ho
    | ptr p => exact shallow_same (C67_toUcs4_P16 v p) (shallow_toUcs4_P16 v p) ho
  | unicodeLength8 ha =>
    cases ha with
    | str s => exact shallow_same (C67_unicodeLength_S8 v s) (shallow_unicodeLength_S8 v s) ho
    | ptr p => exact shallow_same (C67_unicodeLength_P8 v p) (shallow_unicodeLength_P8 v p) ho
  | unicodeLength16 ha =>
    cases ha with
    | str s => exact shallow_same (C67_unicodeLength_S16 v s) (shallow_unicodeLength_S16 v s) ho
    | ptr p => exact shallow_same (C67_unicodeLength_P16 v p) (shallow_unicodeLength_P16 v p) ho
  | unicodeLength32 ha =>
    cases ha with
    | str s => exact shallow_same (C67_unicodeLength_S32 v s) (shallow_unicodeLength_S32 v s) ho
    | ptr p => exact shallow_same (C67_unicodeLength_P32 v p) (shallow_unicodeLength_P32 v p) ho
  | page p t => exact shallow_same (C67_toUtf8_page v p t) (shallow_toUtf8_page v p t) ho
  | unicodeLength8Len p len => exact shallow_same (C67_unicodeLength_L8 v p len) (shallow_unicodeLength_L8 v p len) ho
  | toLower8 s => exact shallow_same (C67_toLower_S8 v s) (shallow_toLower_S8 v s) ho
  | toLower8Lang s p => exact shallow_same (C67_toLower_S8_lang v s p) (shallow_toLower_S8_lang v s p) ho
  | split8 c h => exact shallow_same (C67_split_8 v _ c h) (shallow_split_8 v _ c h) ho
  | join8 l c => exact shallow_same (C67_join_8 v l c) (shallow_join_8 v l c) ho
  | unicodeLength16Len p len => exact shallow_same (C67_unicodeLength_L16 v p len) (shallow_unicodeLength_L16 v p len) ho
  | toLower16 s => exact shallow_same (C67_toLower_S16 v s) (shallow_toLower_S16 v s) ho
  | toLower16Lang s p => exact shallow_same (C67_toLower_S16_lang v s p) (shallow_toLower_S16_lang v s p) ho
  | split16 c h => exact shallow_same (C67_split_16 v _ c h) (shallow_split_16 v _ c h) ho
  | join16 l c => exact shallow_same (C67_join_16 v l c) (shallow_join_16 v l c) ho
  | unicodeLength32Len p len => exact shallow_same (C67_unicodeLength_L32 v p len) (shallow_unicodeLength_L32 v p len) ho
  | toLower32 s => exact shallow_same (C67_toLower_S32 v s) (shallow_toLower_S32 v s) ho
  | toLower32Lang s p => exact shallow_same (C67_toLower_S32_lang v s p) (shallow_toLower_S32_lang v s p) ho
  | split32 c h => exact shallow_same (C67_split_32 v _ c h) (shallow_split_32 v _ c h) ho
  | join32 l c => exact shallow_same (C67_join_32 v l c) (shallow_join_32 v l c) ho
  | validIf t => exact shallow_same (C67_validIf v t) (shallow_validIf v t) ho
  | validIfNot t => exact shallow_same (C67_validIfNot v t) (shallow_validIfNot v t) ho
  | checkIf t => exact shallow_same (C67_checkIf v t) (shallow_checkIf v t) ho
  | checkIfNot t => exact shallow_same (C67_checkIfNot v t) (shallow_checkIfNot v t) ho

/-- The functions for `wchar_t`. -/
theorem C74_text_wide (v : Version) {w : Bool} {name : Nat} {args : List Arg} (h : OverloadW w name args) {out : Res Arg}
    (ho : RunsOn w v name args out) : ShallowOn w v name args out := by
  cases h with
  | isUtf8 ha =>
    cases ha with
    | str32 s => exact shallowOn_same (C67_w32_isUtf8_SW v s) (shallow_w32_isUtf8_SW v s) ho
    | ptr32 p => exact shallowOn_same (C67_w32_isUtf8_PW v p) (shallow_w32_isUtf8_PW v p) ho
    | str16 s => exact shallowOn_same (C67_w16_isUtf8_SW v s) (shallow_w16_isUtf8_SW v s) ho
    | ptr16 p => exact shallowOn_same (C67_w16_isUtf8_PW v p) (shallow_w16_isUtf8_PW v p) ho
  | isUtf16 ha =>
    cases ha with
    | str32 s => exact shallowOn_same (C67_w32_isUtf16_SW v s) (shallow_w32_isUtf16_SW v s) ho
    | ptr32 p => exact shallowOn_same (C67_w32_isUtf16_PW v p) (shallow_w32_isUtf16_PW v p) ho
    | str16 s => exact shallowOn_same (C67_w16_isUtf16_SW v s) (shallow_w16_isUtf16_SW v s) ho
    | ptr16 p => exact shallowOn_same (C67_w16_isUtf16_PW v p) (shallow_w16_isUtf16_PW v p) ho
  | isUcs2 ha =>
    cases ha with
    | str32 s => exact shallowOn_same (C67_w32_isUcs2_SW v s) (shallow_w32_isUcs2_SW v s) ho
    | ptr32 p => exact shallowOn_same (C67_w32_isUcs2_PW v p) (shallow_w32_isUcs2_PW v p) ho
    | str16 s => exact shallowOn_same (C67_w16_isUcs2_SW v s) (shallow_w16_isUcs2_SW v s) ho
    | ptr16 p => exact shallowOn_same (C67_w16_isUcs2_PW v p) (shallow_w16_isUcs2_PW v p) ho
  | isUcs4 ha =>
    cases ha with
    | str32 s => exact shallowOn_same (C67_w32_isUcs4_SW v s) (shallow_w32_isUcs4_SW v s) ho
    | ptr32 p => exact shallowOn_same (C67_w32_isUcs4_PW v p) (shallow_w32_isUcs4_PW v p) ho
    | str16 s => exact shallowOn_same (C67_w16_isUcs4_SW v s) (shallow_w16_isUcs4_SW v s) ho
    | ptr16 p => exact shallowOn_same (C67_w16_isUcs4_PW v p) (shallow_w16_isUcs4_PW v p) ho
  | toUtf8 ha =>
    cases ha with
    | str32 s => exact shallowOn_same (C67_w32_toUtf8_SW v s) (shallow_w32_toUtf8_SW v s) ho
    | ptr32 p => exact shallowOn_same (C67_w32_toUtf8_PW v p) (shallow_w32_toUtf8_PW v p) ho
    | str16 s => exact shallowOn_same (C67_w16_toUtf8_SW v s) (shallow_w16_toUtf8_SW v s) ho
    | ptr16 p => exact shallowOn_same (C67_w16_toUtf8_PW v p) (shallow_w16_toUtf8_PW v p) ho
  | toUtf16 ha =>
    cases ha with
    | str32 s => exact shallowOn_same (C67_w32_toUtf16_SW v s) (shallow_w32_toUtf16_SW v s) ho
    | ptr32 p => exact shallowOn_same (C67_w32_toUtf16_PW v p) (shallow_w32_toUtf16_PW v p) ho
    | str16 s => exact shallowOn_same (C67_w16_toUtf16_SW v s) (shallow_w16_toUtf16_SW v s) ho
    | ptr16 p => exact shallowOn_same (C67_w16_toUtf16_PW v p) (shallow_w16_toUtf16_PW v p) ho
  | toUcs2 ha =>
    cases ha with
    | str32 s => exact shallowOn_same (C67_w32_toUcs2_SW v s) (shallow_w32_toUcs2_SW v s) ho
    | ptr32 p => exact shallowOn_same (C67_w32_toUcs2_PW v p) (shallow_w32_toUcs2_PW v p) ho
    | str16 s => exact shallowOn_same (C67_w16_toUcs2_SW v s) (shallow_w16_toUcs2_SW v s) ho
    | ptr16 p => exact shallowOn_same (C67_w16_toUcs2_PW v p) (shallow_w16_toUcs2_PW v p) ho
  | toUcs4 ha =>
    cases ha with
    | str32 s => exact shallowOn_same (C67_w32_toUcs4_SW v s) (shallow_w32_toUcs4_SW v s) ho
    | ptr32 p => exact shallowOn_same (C67_w32_toUcs4_PW v p) (shallow_w32_toUcs4_PW v p) ho
    | str16 s => exact shallowOn_same (C67_w16_toUcs4_SW v s) (shallow_w16_toUcs4_SW v s) ho
    | ptr16 p => exact shallowOn_same (C67_w16_toUcs4_PW v p) (shallow_w16_toUcs4_PW v p) ho
  | isWstring8 ha =>
    cases w with
    | true =>
      cases ha with
      | str s => exact shallowOn_same (C67_w32_isWstring_S8 v s) (shallow_w32_isWstring_S8 v s) ho
      | ptr p => exact shallowOn_same (C67_w32_isWstring_P8 v p) (shallow_w32_isWstring_P8 v p) ho
    | false =>
      cases ha with
      | str s => exact shallowOn_same (C67_w16_isWstring_S8 v s) (shallow_w16_isWstring_S8 v s) ho
      | ptr p => exact shallowOn_same (C67_w16_isWstring_P8 v p) (shallow_w16_isWstring_P8 v p) ho
  | isWstring16 ha =>
    cases w with
    | true =>
      cases ha with
      | str s => exact shallowOn_same (C67_w32_isWstring_S16 v s) (shallow_w32_isWstring_S16 v s) ho
      | ptr p => exact shallowOn_same (C67_w32_isWstring_P16 v p) (shallow_w32_isWstring_P16 v p) ho
    | false =>
      cases ha with
      | str s => exact shallowOn_same (C67_w16_isWstring_S16 v s) (shallow_w16_isWstring_S16 v s) ho
      | ptr p => exact shallowOn_same (C67_w16_isWstring_P16 v p) (shallow_w16_isWstring_P16 v p) ho
  | isWstring32 ha =>
    cases w with
    | true =>
      cases ha with
      | str s => exact shallowOn_same (C67_w32_isWstring_S32 v s) (shallow_w32_isWstring_S32 v s) ho
      | ptr p => exact shallowOn_same (C67_w32_isWstring_P32 v p) (shallow_w32_isWstring_P32 v p) ho
    | false =>
      cases ha with
      | str s => exact shallowOn_same (C67_w16_isWstring_S32 v s) (shallow_w16_isWstring_S32 v s) ho
      | ptr p => exact shallowOn_same (C67_w16_isWstring_P32 v p) (shallow_w16_isWstring_P32 v p) ho
  | toWstring8 ha =>
    cases w with
    | true =>
      cases ha with
      | str s => exact shallowOn_same (C67_w32_toWstring_S8 v s) (shallow_w32_toWstring_S8 v s) ho
      | ptr p => exact shallowOn_same (C67_w32_toWstring_P8 v p) (shallow_w32_toWstring_P8 v p) ho
    | false =>
      cases ha with
      | str s => exact shallowOn_same (C67_w16_toWstring_S8 v s) (shallow_w16_toWstring_S8 v s) ho
      | ptr p => exact shallowOn_same (C67_w16_toWstring_P8 v p) (shallow_w16_toWstring_P8 v p) ho
  | toWstring16 ha =>
    cases w with
    | true =>
      cases ha with
      | str s => exact shallowOn_same (C67_w32_toWstring_S16 v s) (shallow_w32_toWstring_S16 v s) ho
      | ptr p => exact shallowOn_same (C67_w32_toWstring_P16 v p) (shallow_w32_toWstring_P16 v p) ho
    | false =>
      cases ha with
      | str s => exact shallowOn_same (C67_w16_toWstring_S16 v s) (shallow_w16_toWstring_S16 v s) ho
      | ptr p => exact shallowOn_same (C67_w16_toWstring_P16 v p) (shallow_w16_toWstring_P16 v p) ho
  | toWstring32 ha =>
    cases w with
    | true =>
      cases ha with
      | str s => exact shallowOn_same (C67_w32_toWstring_S32 v s) (shallow_w32_toWstring_S32 v s) ho
      | ptr p => exact shallowOn_same (C67_w32_toWstring_P32 v p) (shallow_w32_toWstring_P32 v p) ho
    | false =>
      cases ha with
      | str s => exact shallowOn_same (C67_w16_toWstring_S32 v s) (shallow_w16_toWstring_S32 v s) ho
      | ptr p => exact shallowOn_same (C67_w16_toWstring_P32 v p) (shallow_w16_toWstring_P32 v p) ho

/-- The functions that change their first argument. -/
theorem C74_text_changes (v : Version) {name : Nat} {s : Arg} {args : List Arg} (h : Changer name s args) {out : Res Arg}
    (ho : Changes v name s args out) : ShallowChanges v name s args out := by
  cases h with
  | trim8 h => exact shallowChanges_same (C67_trim_8 v _ h) (shallow_trim_8 v _ h) ho
  | trim16 h => exact shallowChanges_same (C67_trim_16 v _ h) (shallow_trim_16 v _ h) ho
  | trim32 h => exact shallowChanges_same (C67_trim_32 v _ h) (shallow_trim_32 v _ h) ho
  | trimOf8 h h' => exact shallowChanges_same (C67_trimOf_8 v _ _ h h') (shallow_trimOf_8 v _ _ h h') ho
  | trimOf16 h h' => exact shallowChanges_same (C67_trimOf_16 v _ _ h h') (shallow_trimOf_16 v _ _ h h') ho
  | trimOf32 h h' => exact shallowChanges_same (C67_trimOf_32 v _ _ h h') (shallow_trimOf_32 v _ _ h h') ho
  | trimAscii7 h => exact shallowChanges_same (C67_trimAscii7WhiteSpace v _ h) (shallow_trimAscii7WhiteSpace v _ h) ho
  | trimWhite8 h => exact shallowChanges_same (C67_trimWhiteSpace_8 v _ h) (shallow_trimWhiteSpace_8 v _ h) ho
  | trimWhite16 h => exact shallowChanges_same (C67_trimWhiteSpace_16 v _ h) (shallow_trimWhiteSpace_16 v _ h) ho
  | trimWhite32 h => exact shallowChanges_same (C67_trimWhiteSpace_32 v _ h) (shallow_trimWhiteSpace_32 v _ h) ho

theorem shallowMember_same {v : Version} {name : Nat} {p : Pred} {args : List Arg} {a b : Arg} {q r : Pred}
    (h : RunsMember v name p args a q) (h' : ShallowMember v name p args a q) (ho : RunsMember v name p args b r) :
    ShallowMember v name p args b r := by
  obtain ⟨rfl, rfl⟩ := C67_member_unique h ho
  exact h'

/-- The member functions of `EncodingCheckPredicate`. -/
theorem C74_text_members (v : Version) {name : Nat} {p : Pred} {args : List Arg} (h : Member name args) {a : Arg} {q : Pred}
    (ho : RunsMember v name p args a q) : ShallowMember v name p args a q := by
  cases h with
  | andIf t => exact shallowMember_same (C67_andIf v p t) (shallow_andIf v p t) ho
  | andIfNot t => exact shallowMember_same (C67_andIfNot v p t) (shallow_andIfNot v p t) ho
  | equals q => exact shallowMember_same (C67_equals v p q) (shallow_equals v p q) ho
  | differs q => exact shallowMember_same (C67_differs v p q) (shallow_differs v p q) ho
  | apply8 c => exact shallowMember_same (C67_apply8 v p c) (shallow_apply8 v p c) ho
  | apply16 c => exact shallowMember_same (C67_apply16 v p c) (shallow_apply16 v p c) ho
  | apply32 c => exact shallowMember_same (C67_apply32 v p c) (shallow_apply32 v p c) ho

/-- The constructor without arguments, and `x == x` and `x != x`. -/
theorem C74_text_objects (v : Version) :
    (∀ p, Spec.Constructs v p → Spec.ShallowConstructs v p) ∧
    (∀ p r, Spec.RunsOnItself v (name% "operator==") p r → Spec.ShallowOnItself v (name% "operator==") p r) ∧
    (∀ p r, Spec.RunsOnItself v (name% "operator!=") p r → Spec.ShallowOnItself v (name% "operator!=") p r) := by
  have one : ∀ {name : Nat} {p : Pred} {r r' : Arg}, Spec.RunsOnItself v name p r → Spec.RunsOnItself v name p r' → r = r' :=
    fun h h' => by
      have e := (h false false 8 (Nat.le_refl _)).symm.trans (h' false false 8 (Nat.le_refl _))
      injection e with e
      exact val_injective false e
  refine ⟨fun p h => ?_, fun p r h => ?_, fun p r h => ?_⟩
  · cases C67_construct_unique h (C67_construct v)
    intro w sc n m hn hd
    rw [callWithin_eq (link_str v sc)]
    obtain ⟨d, rfl⟩ : ∃ d, m = d + 8 := ⟨m - 8, by omega⟩
    exact construct_default (E := Sealed.real) (d := d + 7)
  · cases one h (C67_equals_itself v p)
    intro w sc n m hn hd
    rw [callWithin_eq (link_str v sc)]
    obtain ⟨d, rfl⟩ : ∃ d, m = d + 8 := ⟨m - 8, by omega⟩
    exact equals_itself (E := Sealed.real) (d := d + 7) p
  · cases one h (C67_differs_itself v p)
    intro w sc n m hn hd
    rw [callWithin_eq (link_str v sc)]
    obtain ⟨d, rfl⟩ : ∃ d, m = d + 8 := ⟨m - 8, by omega⟩
    exact differs_itself (E := Sealed.real) (d := d + 6) p

/-- `getUnicodeVersionSupported`. -/
theorem C74_text_version (v : Version) {out : Res Arg} (ho : Runs v (name% "getUnicodeVersionSupported") [] out) :
    Shallow v (name% "getUnicodeVersionSupported") [] out := by
  refine shallow_same (C67_version v) (fun w sc n m hn hd => ?_) ho
  rw [callWithin_eq (link_str v sc)]
  obtain ⟨d, rfl⟩ : ∃ d, m = d + 8 := ⟨m - 8, by omega⟩
  exact ⟨[], getUnicodeVersionSupported_call (E := Sealed.real) (d := d + 7), fun _ h => nomatch h⟩

/-- What is `Shallow` is the outcome of the call. -/
theorem C74_text_runs {w : Bool} {v : Version} {name : Nat} {args : List Arg} {out : Res Arg} (h : ShallowOn w v name args out) :
    RunsOn w v name args out :=
  fun sc n hn => callWithin_self _ sc _ _ n _ name _ ▸ h sc n n hn (Nat.le_trans (enough_eight args) hn)

/-- A text of any length: `toUcs4` of a `std::string`. -/
example (v : Version) (s : List Byte) : Overload (name% "toUcs4") [.str8 s] ∧
    Shallow v (name% "toUcs4") [.str8 s] ((toUcs4From8S s).map .str32) :=
  ⟨.toUcs4_8 (.str s), C74_text_calls v (.toUcs4_8 (.str s)) (C67_toUcs4_S8 v s)⟩

end Ansak.Props
