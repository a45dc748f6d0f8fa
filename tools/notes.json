{
 "C01": {
  "note": "An incomplete tail is a lead byte followed by fewer continuation bytes than it announces (or a high surrogate followed by a cut low one). C01_strict_violated: under the stricter reading, tails that no byte could complete (C0; E0 80) are dropped as well."
 },
 "C02": {
  "note": "Violated: a hopeless truncated tail is accepted (C02_tail_violated), kUtf16 accepts 0x110000..0x13FFFF (C02_utf16_violated). The _partial theorems say exactly what is accepted.",
  "status": "partial"
 },
 "C03": {
  "note": ""
 },
 "C04": {
  "note": ""
 },
 "C05": {
  "note": ""
 },
 "C06": {
  "note": ""
 },
 "C07": {
  "note": "UTF-16 to UTF-8 commutes for strings the validator accepts. Without validation it does not: C07_unvalidated_violated."
 },
 "C08": {
  "note": "Violated for kUtf16: 0x110000..0x13FFFF (UTF-8) and 0x110000..0x1FFFFF (UCS-4) are accepted but not convertible to UTF-16. Proved for all other ranges, and for kUtf16 without those characters.",
  "status": "partial"
 },
 "C09": {
  "note": "Violated: toUtf8 of a lone low surrogate emits ED B0 80. Proved for the six other conversions, and for this one on validated input.",
  "status": "partial"
 },
 "C10": {
  "note": "Buffers hold the text, a NUL and any further units. UB is an explicit outcome of the model."
 },
 "C11": {
  "note": "Violated: unicodeLength(char16_t*, n) reads the unit after the last one unless the text ends in a surrogate pair, and the UTF-8 functions read one byte too many when the bytes end in E0..EF and one more byte (C11_violated, C11_unicodeLength16_violated). Proved: nothing else is read out of bounds, the value of the unit read in excess never matters, and the UCS-4 function stays in bounds."
 },
 "C12": {
  "note": "Proved for all contents and whatever is behind the terminator; C12_text_... for the text of every overload."
 },
 "C13": {
  "note": "Violated: unicodeLength(const char16_t*) and unicodeLength(const char32_t*) dereference a null pointer (C13_unicodeLength_violated)."
 },
 "C14": {
  "note": ""
 },
 "C15": {
  "note": "C15_strict shows that each inclusion is strict."
 },
 "C16": {
  "note": "C16_malformed_iff shows that the list of malformations is complete: a NUL-free string is either readable as UTF-8 or begins, after a readable part, with one of them."
 },
 "C17": {
  "note": ""
 },
 "C18": {
  "note": "Violated for kUtf16: 0x110000..0x1FFFFF accepted (C18_isUcs4_violated). Everything else is proved exactly. The text versions include kUtf16 (C18_text_ucs4_utf16_partial)."
 },
 "C19": {
  "note": "Proved for UTF-8 and UTF-16. Violated for UCS-4: units above U+10FFFF are counted (C19_ucs4_violated); everything else about UCS-4 is proved. With C20_utf8_exact_partial, C20_utf16_exact_partial and C19_ucs4_exact_partial the count is given for every string, also of 2^32 characters and more."
 },
 "C20": {
  "note": "Proved for length-terminated input. Violated for NUL-terminated input, where the result is one less (modulo 2^32) for every incomplete tail (C20_nul_terminated_partial, C20_nul_terminated_violated). The count is given for every string (C20_*_exact_partial, C20_text_*_exact_partial)."
 },
 "C21": {
  "note": "The accepted inputs are characterised exactly, for the model and for the text (C21_exact_partial, C21_text_exact_partial, with C21_covers). Agreement with the NUL-terminated function fails for malformed tails shorter than the length their first byte announces, for truncated tails that begin like a low surrogate, and for NULs at the start or inside a sequence (C21_*_violated)."
 },
 "C22": {
  "note": "Proved for complete and truncated text, and the result is given for every other input as well, for the model and for the text (C22_*_exact_partial, with C21_covers and C22_covers16). Violated: a malformed tail may end the count instead of making it 0, a NUL inside a sequence gives count - 1, UCS-4 units above U+10FFFF are counted (C22_*_violated)."
 },
 "C23": {
  "note": "Violated for UTF-16: outside the BMP the predicate is asked about the high surrogate (C23_isUtf16_violated). The partial theorem says exactly what is asked. C23_isUtf16_violated_all: this happens with all ten versions of the tables."
 },
 "C24": {
  "note": "Violated for contradictory chains: validIf(X).andIfNot(X) accepts what is X (C24_contradiction_violated). Proved for all consistent chains. For contradictory chains the result is given as well (C24_text_exact_partial, C57_any_history): the condition that asks for the class wins."
 },
 "C31": {
  "note": "Violated for the delimiter NUL, which join drops (C31_nul_violated), and for 2^31 delimiters or more, where an int index overflows (C31_overflow_violated). Proved for everything else. What join returns is given for every delimiter (C31_text_join_exact_partial)."
 },
 "C32": {
  "note": "Proved except for strings with 2^31 delimiters or more, where the int index overflows (C31_overflow_violated)."
 },
 "C33": {
  "note": "Proved, together with the uniqueness of the specified result; also for trim(s, s), where both arguments are one object."
 },
 "C34": {
  "note": "Proved for the canonical UTF-8 of every Unicode text. For other strings that isUtf8 accepts the result is characterised exactly (C34_any_partial, C34_utf8_exact_partial, C34_text_exact_partial): text beyond U+10FFFF is emptied, surrogate pairs encoded as two three-byte sequences are re-encoded (C34_violated)."
 },
 "C35": {
  "note": "Proved against the published code page tables."
 },
 "C36": {
  "note": ""
 },
 "C40": {
  "note": ""
 },
 "C25": {
  "note": "Proved for every 32-bit and 16-bit value in all ten versions, and lifted to whole UTF-8 and UCS-4 strings. A proved interval evaluator and kernel-checked certificates cover the whole range. C25_source32 and C25_source16 say it of the text of the source files, read as C++ in Lean."
 },
 "C26": {
  "note": "Proved for every value, all overloads, all ten versions; the overloads agree for every predicate (C26_overloads_agree, C26_char_agrees). The C26_source theorems say it of the text of the source files, read as C++ in Lean, for signed and unsigned char."
 },
 "C27": {
  "note": "False as stated: C27_toLower_violated proves a difference at every code point of a short list (Verif/Spec/LowerDeviations.lean); C27_toLower_partial proves agreement everywhere else, so the list is exact. C27_ucs4_partial, C27_utf8_partial and C27_utf16_partial say the same of strings. C27_source_partial and C27_source_violated say it of the text of the source files. What becomes of the code points of the list is stated too, so that the result is given for every string, language and version (C27_*_exact_partial, with Spec.lowered)."
 },
 "C37": {
  "note": "Proved for every pair of versions and every 32-bit value, and for strings in the three encodings."
 },
 "C28": {
  "note": "Proved for every character, every language string (embedded NULs included) and all ten versions."
 },
 "C29": {
  "note": "Proved for every string in each encoding, well-formed or not, every language and all ten versions."
 },
 "C30": {
  "note": "Proved: pointwise action on UCS-4, piecewise action on well-formed UTF-8 and UTF-16, agreement with UCS-4 lower-casing in both directions for every string."
 },
 "C38": {
  "note": "Proved for every string, both widths: agreement with the char16_t/char32_t functions, what isWstring accepts, round trips, no reading past the end. Violated: five pointer overloads copy from a null pointer they have accepted (C38_w16_null_violated, C38_w32_null_violated), and some strings accepted for UTF-16 are not convertible (C38_accepted_violated, C38_isWstring_violated). The text theorems also relate each pointer overload to its string overload (C38_text_..._pointers) and give the outcome of every other null pointer (C38_text_w16_null_partial, C38_text_w32_null_partial)."
 },
 "C39": {
  "note": "Violated: with _MBCS the overloads for strings never return (C39_mbcs_diverges_violated) and text accepted by isTstring is dropped (C39_mbcs_accepted_violated); with _UNICODE a UTF-16 source is not checked (C39_unicode_violated); a null pointer that isTstring accepts is copied (C39_text_mbcs_null_violated). The partial theorems cover the rest. C39_text... are the same statements for the text of interface/string.hxx. C39_mbcs_all_partial: what the pointer overloads with _MBCS return for every string."
 },
 "C41": {
  "note": "Seven conversions proved in full; C41_utf16_to_utf8_partial describes the eighth exactly, C41_utf16_to_utf8_violated shows where it encodes a lone low surrogate instead of rejecting the text."
 },
 "C42": {
  "note": "Proved for the ten versions; C42_source reads the version from the text of the source files."
 },
 "C43": {
  "note": "Proved for every version, language, predicate and string; for the ASCII range only without a Turkic language, as C43_ascii_turkic shows necessary."
 },
 "C44": {
  "note": "Proved for every text and every position."
 },
 "C45": {
  "note": "Proved for every text and every position."
 },
 "C46": {
  "note": "Proved for every text of fewer than 2^31 delimiters (see C31_overflow_violated for why the bound is needed); joining without a bound."
 },
 "C47": {
  "note": "Proved for every text and character, ASCII for UTF-8 and BMP for UTF-16."
 },
 "C48": {
  "note": "UTF-8, UCS-2 and UCS-4 in full. For UTF-16 C48_utf16_partial says exactly what is asked of the predicate: outside the BMP it is asked about the high surrogate instead of the character (C23_isUtf16_violated)."
 },
 "C49": {
  "note": "Everything removed is white space (C49_trimmed_partial); the converse is violated (C49_violated), exactly for the six characters of C49_difference_partial."
 },
 "C50": {
  "note": "Proved for files of at most 2^31-1 lines with two fields and more than ten characters, each ended by a newline, up to the end or the first shorter line (C50_table_partial; C50_text_table_partial for the text of the tool). What comes after a shorter line is lost (C50_text_short_violated), for an empty first line no table is written (C50_text_empty_violated), without the final newline the tool does not terminate (C50_text_no_newline_violated), a line of more than ten characters without semicolon is undefined behaviour (C50_text_field_violated), and if input and output are the same file, it is emptied (C50_text_same_file_violated). C50_text_cases: there are no other files."
 },
 "C51": {
  "note": "UTF-8 and UCS-2 in full. UTF-16 only for text that does not mix characters beyond the BMP with U+E000..U+FFFF (C51_utf16_partial); C51_utf16_violated shows why. UTF-8 with surrogate pairs in 3-byte form sorts like UTF-16 (C51_pair_violated)."
 },
 "C52": {
  "note": "Proved for UTF-8 and UTF-16. UTF-8 in any form is covered by C52_utf8; that the shortest form is needed to find every occurrence is C52_pair_violated."
 },
 "C53": {
  "note": "Proved for all strings and ranges. C53_exact and C53_text_exact: with kAscii all four validators accept exactly ASCII."
 },
 "C54": {
  "note": "Proved for all strings; C54_reached has a witness for each bound."
 },
 "C55": {
  "note": "Proved for every text, language and version; C55_utf8_grows shows that UTF-8 text can get longer."
 },
 "C56": {
  "note": "Proved for all eight conversions and all strings."
 },
 "C57": {
  "note": "C57_history_partial needs conditions that do not contradict one another (see C24_contradiction_violated); C57_any_history says exactly what holds without that assumption. C57_shared: two predicates derived from a common one are not independent, because andIf narrows its receiver. C57_text_...: the same for programs whose statements run the text of the library (Spec/TextHistory)."
 },
 "C58": {
  "note": "For conditions that do not contradict the predicate (C58_narrows_partial); otherwise another condition can widen (C58_contradiction_violated). C58_text_partial, C58_text_violated: for the text of the library."
 },
 "C59": {
  "note": "Proved for all texts, languages and versions; the ASCII part for languages that are not Turkic, as the property says."
 },
 "C60": {
  "note": "Proved for all strings."
 },
 "C61": {
  "note": "Proved for complete text whenever split returns (for 2^31 delimiters or more see C31_overflow_violated)."
 },
 "C62": {
  "note": "Proved for every version."
 },
 "C63": {
  "note": "Violated: a file that cannot be opened or created goes unnoticed and the exit code is 0 (C63_open_violated, C63_text_open_violated for the text of the tool); without even a program name the tool reads a null pointer (C63_text_no_name_violated). C63_exit_partial and C63_text_exit_partial say exactly when the exit code is 0, and C63_text_usage and C63_text_missing give the messages."
 },
 "C64": {
  "note": "C64_texts: the library machine follows the text machine, by induction on the run. C64_encodings: two programs that differ only in encodings compute the same texts. C64_same_texts: the texts are determined by the strings. For the text of the library: C64_text_runs (what the program does on lists of fewer than 2^61 characters, it does through the text of the library, and nothing else), C64_text_only (the other direction), C64_text_encodings and C64_text_both (two programs that differ only in encodings), C64_text_lower (a lower-case mapping that agrees with the text exists). The program must fit into memory: its strings have lengths that a string can have."
 },
 "C65": {
  "note": "Proved for every pair of versions and every predicate a program can build (C57); C65_strict shows that the converse fails for each pair."
 },
 "C66": {
  "note": "Proved for the text of all twenty files (Verif/Model/Cxx/Source*.lean), read and run by Verif/Model/Cxx. C25_source*, C26_source*, C27_source* say what the functions return."
 },
 "C67": {
  "note": "Proved for the text of the library (Verif/Model/Cpp/Source.lean), read by the parser and run by the semantics of Verif/Model/Cpp, linked with the text of the tables. C67_<function>_<overload> says that the text has the outcome of the hand-written model, C67_defined that no allowed call has undefined behaviour, C67_unique that the outcome is determined. The theorems Cnn_text... restate the other properties for the text. The wchar_t overloads (C67_w16_..., C67_w32_..., C67_wide_defined), trim, split and join (TextMore) are included; strings of 2^64 - 1 characters or more, which cannot exist, are excluded for trim and split by a hypothesis. C67_construct is the default constructor of EncodingCheckPredicate. C67_win_..., C67_mbcs_... and C67_unicode_... are the functions for Windows."
 },
 "C68": {
  "note": "Proved for the text of the library and every call, of functions and members of classes."
 },
 "C69": {
  "note": "Proved for the text of the library and all predicates that a program can make."
 },
 "C70": {
  "note": "Proved for the text of the library: what a function changes is read off its syntax tree, and the calls of the threads are runs of the text. A call begins and ends at any time; what happens between is not interleaved step by step, since it touches nothing of other threads."
 },
 "C71": {
  "note": "Violated: on a full disk the tool exits with 0 and writes no message (C71_text_full_violated). C71_text_room_partial compares every run with the one without limits: the output file is cut at the limit, and nothing else differs. C71_text_end: limits do not change whether a run ends."
 },
 "C72": {
  "note": "Violated for getUnicodeVersionSupported, which returns a copy of a global that may not have been constructed yet (C72_text_version_violated). All other functions are proved to have the same outcome whatever that global is (C72_text_calls_partial, C72_text_wide_partial, C72_text_changes_partial, C72_text_members_partial, C72_text_objects_partial; on Windows C72_text_windows_partial and C72_text_unchanged_windows); it is the only variable that the text takes from other files (C72_text_globals, C72_text_globals_windows)."
 },
 "C73": {
  "note": "Proved for the text of the library: the type of every result holds no pointer and no reference (C73_text_types, and for Windows C73_text_types_windows), no function is declared to return one (C73_text_declared, C73_text_declared_windows: the trees do not distinguish const t& from t, the tokens do), and a result remains what it is whatever calls follow (C73_text_kept)."
 },
 "C74": {
  "note": "Proved for the text of the library: every call has its outcome with at most eight calls inside each other, and with loops of at most as many rounds as the arguments have characters, and eight more (C74_text_calls, C74_text_wide, C74_text_changes, C74_text_members, C74_text_objects, C74_text_version); the same calls on Windows (C74_text_unchanged_windows, C74_text_shallow_windows) and the functions for Windows (C74_text_windows_partial). Violated by toTstring of a string with _MBCS, which calls itself without end (C74_text_windows_violated)."
 },
 "C75": {
  "note": "Proved for every expression of the text of the library (C75_text_order, C75_text_order_windows), by a check of the parsed text in the kernel. What an expression uses and changes is read off its text, on the safe side. The theorem is about the text: that evaluation in another order has the same outcome follows from it only outside of Lean, since the semantics of the model has one order. The generated tables and the command line tool are not covered."
 }
}
