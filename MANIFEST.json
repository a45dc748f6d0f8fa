{
 "claims": [
  {
   "property": "C01",
   "status": "proved",
   "theorems": [
    "Ansak.Props.C01_text",
    "Ansak.Props.C01_wellformed",
    "Ansak.Props.C01_incomplete_tail",
    "Ansak.Props.C01_toUcs4_exact",
    "Ansak.Props.C01_strict_violated"
   ],
   "note": "An incomplete tail is a lead byte followed by fewer continuation bytes than it announces (or a high surrogate followed by a cut low one). C01_strict_violated: under the stricter reading, tails that no byte could complete (C0; E0 80) are dropped as well."
  },
  {
   "property": "C02",
   "status": "partial",
   "theorems": [
    "Ansak.Props.C02_text_partial",
    "Ansak.Props.C02_text_utf16_partial",
    "Ansak.Props.C02_text_utf16_violated",
    "Ansak.Props.C02_no_false_rejection",
    "Ansak.Props.C02_isUtf8_partial",
    "Ansak.Props.C02_isUtf8_utf16_partial",
    "Ansak.Props.C02_complete_partial",
    "Ansak.Props.C02_tail_violated",
    "Ansak.Props.C02_utf16_violated"
   ],
   "note": "Violated: a hopeless truncated tail is accepted (C02_tail_violated), kUtf16 accepts 0x110000..0x13FFFF (C02_utf16_violated). The _partial theorems say exactly what is accepted."
  },
  {
   "property": "C03",
   "status": "proved",
   "theorems": [
    "Ansak.Props.C03_text",
    "Ansak.Props.C03_ucs4_roundtrip"
   ],
   "note": ""
  },
  {
   "property": "C04",
   "status": "proved",
   "theorems": [
    "Ansak.Props.C04_text",
    "Ansak.Props.C04_text_canonicalises",
    "Ansak.Props.C04_canonical_roundtrip",
    "Ansak.Props.C04_canonicalises"
   ],
   "note": ""
  },
  {
   "property": "C05",
   "status": "proved",
   "theorems": [
    "Ansak.Props.C05_utf16_via_utf8",
    "Ansak.Props.C05_utf16_via_ucs4",
    "Ansak.Props.C05_text"
   ],
   "note": ""
  },
  {
   "property": "C06",
   "status": "proved",
   "theorems": [
    "Ansak.Props.C06_ucs2_via_utf8",
    "Ansak.Props.C06_ucs2_via_ucs4",
    "Ansak.Props.C06_text"
   ],
   "note": ""
  },
  {
   "property": "C07",
   "status": "proved",
   "theorems": [
    "Ansak.Props.C07_utf8_to_utf16",
    "Ansak.Props.C07_utf8_to_ucs2",
    "Ansak.Props.C07_utf16_to_utf8",
    "Ansak.Props.C07_unvalidated_violated",
    "Ansak.Props.C07_text",
    "Ansak.Props.C07_text_utf16"
   ],
   "note": "UTF-16 to UTF-8 commutes for strings the validator accepts. Without validation it does not: C07_unvalidated_violated."
  },
  {
   "property": "C08",
   "status": "partial",
   "theorems": [
    "Ansak.Props.C08_utf8_to_ucs2",
    "Ansak.Props.C08_utf8_to_ucs4",
    "Ansak.Props.C08_utf8_to_utf16_unicode",
    "Ansak.Props.C08_utf8_to_utf16_partial",
    "Ansak.Props.C08_utf8_to_utf16_violated",
    "Ansak.Props.C08_utf16_to_utf8_and_ucs4",
    "Ansak.Props.C08_ucs2_to_utf8_and_ucs4",
    "Ansak.Props.C08_ucs4_to_utf8",
    "Ansak.Props.C08_ucs4_to_ucs2",
    "Ansak.Props.C08_ucs4_to_utf16_unicode",
    "Ansak.Props.C08_ucs4_to_utf16_partial",
    "Ansak.Props.C08_ucs4_to_utf16_violated",
    "Ansak.Props.C08_text_utf8",
    "Ansak.Props.C08_text_utf16",
    "Ansak.Props.C08_text_ucs4",
    "Ansak.Props.C08_text_utf16_violated"
   ],
   "note": "Violated for kUtf16: 0x110000..0x13FFFF (UTF-8) and 0x110000..0x1FFFFF (UCS-4) are accepted but not convertible to UTF-16. Proved for all other ranges, and for kUtf16 without those characters."
  },
  {
   "property": "C09",
   "status": "partial",
   "theorems": [
    "Ansak.Props.C09_ucs4_to_utf8",
    "Ansak.Props.C09_utf8_to_utf16",
    "Ansak.Props.C09_ucs4_to_utf16",
    "Ansak.Props.C09_utf8_to_ucs2",
    "Ansak.Props.C09_ucs4_to_ucs2",
    "Ansak.Props.C09_utf8_to_ucs4",
    "Ansak.Props.C09_utf16_to_ucs4",
    "Ansak.Props.C09_utf16_to_utf8_partial",
    "Ansak.Props.C09_utf16_to_utf8_violated",
    "Ansak.Props.C09_text",
    "Ansak.Props.C09_text_utf16_to_utf8_violated"
   ],
   "note": "Violated: toUtf8 of a lone low surrogate emits ED B0 80. Proved for the six other conversions, and for this one on validated input."
  },
  {
   "property": "C10",
   "status": "proved",
   "theorems": [
    "Ansak.Props.C10_isUtf8",
    "Ansak.Props.C10_isUtf16",
    "Ansak.Props.C10_isUcs2",
    "Ansak.Props.C10_isUcs4",
    "Ansak.Props.C10_from_utf8",
    "Ansak.Props.C10_from_utf16",
    "Ansak.Props.C10_from_ucs4",
    "Ansak.Props.C10_unicodeLength",
    "Ansak.Props.C10_text"
   ],
   "note": "Buffers hold the text, a NUL and any further units. UB is an explicit outcome of the model."
  },
  {
   "property": "C11",
   "status": "partial",
   "theorems": [
    "Ansak.Props.C11_isUtf8_partial",
    "Ansak.Props.C11_unicodeLength8_partial",
    "Ansak.Props.C11_unicodeLength16_partial",
    "Ansak.Props.C11_unicodeLength32",
    "Ansak.Props.C11_violated",
    "Ansak.Props.C11_unicodeLength16_violated",
    "Ansak.Props.C11_zero",
    "Ansak.Props.C11_text_violated",
    "Ansak.Props.C11_text_partial"
   ],
   "note": "Violated: unicodeLength(char16_t*, n) reads the unit after the last one unless the text ends in a surrogate pair, and the UTF-8 functions read one byte too many when the bytes end in E0..EF and one more byte (C11_violated, C11_unicodeLength16_violated). Proved: nothing else is read out of bounds, the value of the unit read in excess never matters, and the UCS-4 function stays in bounds."
  },
  {
   "property": "C12",
   "status": "proved",
   "theorems": [
    "Ansak.Props.C12_validators",
    "Ansak.Props.C12_conversions",
    "Ansak.Props.C12_unicodeLength",
    "Ansak.Props.C12_text",
    "Ansak.Props.C12_text_isUtf8_pointers",
    "Ansak.Props.C12_text_isUtf16_pointers",
    "Ansak.Props.C12_text_isUcs2_pointers",
    "Ansak.Props.C12_text_isUcs4_pointers",
    "Ansak.Props.C12_text_from8_pointers",
    "Ansak.Props.C12_text_from16_pointers",
    "Ansak.Props.C12_text_from32_pointers"
   ],
   "note": "Proved for all contents and whatever is behind the terminator; C12_text_... for the text of every overload."
  },
  {
   "property": "C13",
   "status": "partial",
   "theorems": [
    "Ansak.Props.C13_validators",
    "Ansak.Props.C13_conversions",
    "Ansak.Props.C13_unicodeLength_partial",
    "Ansak.Props.C13_unicodeLength_violated",
    "Ansak.Props.C13_text",
    "Ansak.Props.C13_text_violated"
   ],
   "note": "Violated: unicodeLength(const char16_t*) and unicodeLength(const char32_t*) dereference a null pointer (C13_unicodeLength_violated)."
  },
  {
   "property": "C14",
   "status": "proved",
   "theorems": [
    "Ansak.Props.C14_illegal_range",
    "Ansak.Props.C14_legal_range",
    "Ansak.Props.C14_text"
   ],
   "note": ""
  },
  {
   "property": "C15",
   "status": "proved",
   "theorems": [
    "Ansak.Props.C15_text",
    "Ansak.Props.C15_isUtf8",
    "Ansak.Props.C15_isUtf16",
    "Ansak.Props.C15_isUcs2",
    "Ansak.Props.C15_isUcs4",
    "Ansak.Props.C15_strict"
   ],
   "note": "C15_strict shows that each inclusion is strict."
  },
  {
   "property": "C16",
   "status": "proved",
   "theorems": [
    "Ansak.Props.C16_text",
    "Ansak.Props.C16_malformed_rejected",
    "Ansak.Props.C16_rejected_iff",
    "Ansak.Props.C16_malformed_iff"
   ],
   "note": "C16_malformed_iff shows that the list of malformations is complete: a NUL-free string is either readable as UTF-8 or begins, after a readable part, with one of them."
  },
  {
   "property": "C17",
   "status": "proved",
   "theorems": [
    "Ansak.Props.C17_text",
    "Ansak.Props.C17_text_toUcs4",
    "Ansak.Props.C17_isUtf16",
    "Ansak.Props.C17_toUcs4"
   ],
   "note": ""
  },
  {
   "property": "C18",
   "status": "partial",
   "theorems": [
    "Ansak.Props.C18_text_ucs4_utf16_partial",
    "Ansak.Props.C18_text_ucs2",
    "Ansak.Props.C18_text_ucs4_partial",
    "Ansak.Props.C18_text_ucs4_violated",
    "Ansak.Props.C18_isUcs2",
    "Ansak.Props.C18_isUcs4_partial",
    "Ansak.Props.C18_isUcs4_utf16_partial",
    "Ansak.Props.C18_isUcs4_violated"
   ],
   "note": "Violated for kUtf16: 0x110000..0x1FFFFF accepted (C18_isUcs4_violated). Everything else is proved exactly. The text versions include kUtf16 (C18_text_ucs4_utf16_partial)."
  },
  {
   "property": "C19",
   "status": "partial",
   "theorems": [
    "Ansak.Props.C19_utf8",
    "Ansak.Props.C19_utf8_invalid",
    "Ansak.Props.C19_utf16",
    "Ansak.Props.C19_utf16_invalid",
    "Ansak.Props.C19_ucs4_partial",
    "Ansak.Props.C19_ucs4_violated",
    "Ansak.Props.C19_agree",
    "Ansak.Props.C19_ucs4_exact_partial",
    "Ansak.Props.C19_text_ucs4_exact_partial",
    "Ansak.Props.C19_text"
   ],
   "note": "Proved for UTF-8 and UTF-16. Violated for UCS-4: units above U+10FFFF are counted (C19_ucs4_violated); everything else about UCS-4 is proved. With C20_utf8_exact_partial, C20_utf16_exact_partial and C19_ucs4_exact_partial the count is given for every string, also of 2^32 characters and more."
  },
  {
   "property": "C20",
   "status": "partial",
   "theorems": [
    "Ansak.Props.C20_utf8_length",
    "Ansak.Props.C20_utf16_length",
    "Ansak.Props.C20_nul_terminated_partial",
    "Ansak.Props.C20_nul_terminated_violated",
    "Ansak.Props.C20_utf8_exact_partial",
    "Ansak.Props.C20_utf16_exact_partial",
    "Ansak.Props.C20_text_utf8_exact_partial",
    "Ansak.Props.C20_text_utf16_exact_partial",
    "Ansak.Props.C20_text_violated"
   ],
   "note": "Proved for length-terminated input. Violated for NUL-terminated input, where the result is one less (modulo 2^32) for every incomplete tail (C20_nul_terminated_partial, C20_nul_terminated_violated). The count is given for every string (C20_*_exact_partial, C20_text_*_exact_partial)."
  },
  {
   "property": "C21",
   "status": "partial",
   "theorems": [
    "Ansak.Props.C21_covers",
    "Ansak.Props.C21_exact_partial",
    "Ansak.Props.C21_complete",
    "Ansak.Props.C21_agrees_partial",
    "Ansak.Props.C21_nul_partial",
    "Ansak.Props.C21_nul_violated",
    "Ansak.Props.C21_agrees_violated",
    "Ansak.Props.C21_unicode_only_violated",
    "Ansak.Props.C21_text_exact_partial",
    "Ansak.Props.C21_text_exact_none_partial",
    "Ansak.Props.C21_text",
    "Ansak.Props.C21_text_violated"
   ],
   "note": "The accepted inputs are characterised exactly, for the model and for the text (C21_exact_partial, C21_text_exact_partial, with C21_covers). Agreement with the NUL-terminated function fails for malformed tails shorter than the length their first byte announces, for truncated tails that begin like a low surrogate, and for NULs at the start or inside a sequence (C21_*_violated)."
  },
  {
   "property": "C22",
   "status": "partial",
   "theorems": [
    "Ansak.Props.C22_utf8_complete",
    "Ansak.Props.C22_utf8_truncated_partial",
    "Ansak.Props.C22_utf8_not_unicode",
    "Ansak.Props.C22_utf8_malformed_partial",
    "Ansak.Props.C22_utf8_nul_partial",
    "Ansak.Props.C22_utf8_violated",
    "Ansak.Props.C22_utf16",
    "Ansak.Props.C22_utf16_nul_partial",
    "Ansak.Props.C22_utf16_violated",
    "Ansak.Props.C22_ucs4_partial",
    "Ansak.Props.C22_ucs4_violated",
    "Ansak.Props.C22_utf8_exact_partial",
    "Ansak.Props.C22_covers16",
    "Ansak.Props.C22_utf16_exact_partial",
    "Ansak.Props.C22_text_utf8_exact_partial",
    "Ansak.Props.C22_text_utf16_exact_partial",
    "Ansak.Props.C22_text_ucs4_exact_partial",
    "Ansak.Props.C22_text"
   ],
   "note": "Proved for complete and truncated text, and the result is given for every other input as well, for the model and for the text (C22_*_exact_partial, with C21_covers and C22_covers16). Violated: a malformed tail may end the count instead of making it 0, a NUL inside a sequence gives count - 1, UCS-4 units above U+10FFFF are counted (C22_*_violated)."
  },
  {
   "property": "C23",
   "status": "partial",
   "theorems": [
    "Ansak.Props.C23_text",
    "Ansak.Props.C23_text_violated",
    "Ansak.Props.C23_isUtf16_violated_all",
    "Ansak.Props.C23_isUtf8",
    "Ansak.Props.C23_isUcs2",
    "Ansak.Props.C23_isUcs4",
    "Ansak.Props.C23_isUtf16_partial",
    "Ansak.Props.C23_isUtf16_violated"
   ],
   "note": "Violated for UTF-16: outside the BMP the predicate is asked about the high surrogate (C23_isUtf16_violated). The partial theorem says exactly what is asked. C23_isUtf16_violated_all: this happens with all ten versions of the tables."
  },
  {
   "property": "C24",
   "status": "partial",
   "theorems": [
    "Ansak.Props.C24_conjunction_partial",
    "Ansak.Props.C24_order",
    "Ansak.Props.C24_default",
    "Ansak.Props.C24_illegal_type",
    "Ansak.Props.C24_contradiction_violated",
    "Ansak.Props.C24_text_exact_partial",
    "Ansak.Props.C24_text_built",
    "Ansak.Props.C24_text_partial",
    "Ansak.Props.C24_text_violated"
   ],
   "note": "Violated for contradictory chains: validIf(X).andIfNot(X) accepts what is X (C24_contradiction_violated). Proved for all consistent chains. For contradictory chains the result is given as well (C24_text_exact_partial, C57_any_history): the condition that asks for the class wins."
  },
  {
   "property": "C25",
   "status": "proved",
   "theorems": [
    "Ansak.Props.C25_source32",
    "Ansak.Props.C25_source16",
    "Ansak.Props.C25_text",
    "Ansak.Props.C25_char32",
    "Ansak.Props.C25_char16",
    "Ansak.Props.C25_isUcs4",
    "Ansak.Props.C25_isUtf8"
   ],
   "note": "Proved for every 32-bit and 16-bit value in all ten versions, and lifted to whole UTF-8 and UCS-4 strings. A proved interval evaluator and kernel-checked certificates cover the whole range. C25_source32 and C25_source16 say it of the text of the source files, read as C++ in Lean."
  },
  {
   "property": "C26",
   "status": "proved",
   "theorems": [
    "Ansak.Props.C26_source_private32",
    "Ansak.Props.C26_source_private16",
    "Ansak.Props.C26_source_control32",
    "Ansak.Props.C26_source_control16",
    "Ansak.Props.C26_source_control8",
    "Ansak.Props.C26_source_white32",
    "Ansak.Props.C26_source_white16",
    "Ansak.Props.C26_source_white8",
    "Ansak.Props.C26_char_agrees",
    "Ansak.Props.C26_text",
    "Ansak.Props.C26_private32",
    "Ansak.Props.C26_private16",
    "Ansak.Props.C26_control32",
    "Ansak.Props.C26_control16",
    "Ansak.Props.C26_control8",
    "Ansak.Props.C26_white32",
    "Ansak.Props.C26_white16",
    "Ansak.Props.C26_white8",
    "Ansak.Props.C26_overloads_agree"
   ],
   "note": "Proved for every value, all overloads, all ten versions; the overloads agree for every predicate (C26_overloads_agree, C26_char_agrees). The C26_source theorems say it of the text of the source files, read as C++ in Lean, for signed and unsigned char."
  },
  {
   "property": "C27",
   "status": "partial",
   "theorems": [
    "Ansak.Props.C27_ucs4_exact_partial",
    "Ansak.Props.C27_utf8_exact_partial",
    "Ansak.Props.C27_utf16_exact_partial",
    "Ansak.Props.C27_text_exact_partial",
    "Ansak.Props.C27_ucs4_partial",
    "Ansak.Props.C27_utf8_partial",
    "Ansak.Props.C27_utf16_partial",
    "Ansak.Props.C27_ucs4_violated",
    "Ansak.Props.C27_source_partial",
    "Ansak.Props.C27_source_violated",
    "Ansak.Props.C27_source_model",
    "Ansak.Props.C27_text_partial",
    "Ansak.Props.C27_text_violated",
    "Ansak.Props.C27_toLower_partial",
    "Ansak.Props.C27_toLower_violated",
    "Ansak.Props.C27_multiplication_sign_violated"
   ],
   "note": "False as stated: C27_toLower_violated proves a difference at every code point of a short list (Verif/Spec/LowerDeviations.lean); C27_toLower_partial proves agreement everywhere else, so the list is exact. C27_ucs4_partial, C27_utf8_partial and C27_utf16_partial say the same of strings. C27_source_partial and C27_source_violated say it of the text of the source files. What becomes of the code points of the list is stated too, so that the result is given for every string, language and version (C27_*_exact_partial, with Spec.lowered)."
  },
  {
   "property": "C28",
   "status": "proved",
   "theorems": [
    "Ansak.Props.C28_text",
    "Ansak.Props.C28_text_other",
    "Ansak.Props.C28_turkic",
    "Ansak.Props.C28_other",
    "Ansak.Props.C28_codes"
   ],
   "note": "Proved for every character, every language string (embedded NULs included) and all ten versions."
  },
  {
   "property": "C29",
   "status": "proved",
   "theorems": [
    "Ansak.Props.C29_text",
    "Ansak.Props.C29_ucs4",
    "Ansak.Props.C29_utf8",
    "Ansak.Props.C29_utf16"
   ],
   "note": "Proved for every string in each encoding, well-formed or not, every language and all ten versions."
  },
  {
   "property": "C30",
   "status": "proved",
   "theorems": [
    "Ansak.Props.C30_text",
    "Ansak.Props.C30_text_utf16",
    "Ansak.Props.C30_ucs4_pointwise",
    "Ansak.Props.C30_ucs4_append",
    "Ansak.Props.C30_utf8_commutes",
    "Ansak.Props.C30_utf8_encodes",
    "Ansak.Props.C30_utf16_commutes",
    "Ansak.Props.C30_utf16_encodes",
    "Ansak.Props.C30_utf8_count",
    "Ansak.Props.C30_utf8_append",
    "Ansak.Props.C30_utf16_count",
    "Ansak.Props.C30_utf16_append"
   ],
   "note": "Proved: pointwise action on UCS-4, piecewise action on well-formed UTF-8 and UTF-16, agreement with UCS-4 lower-casing in both directions for every string."
  },
  {
   "property": "C31",
   "status": "partial",
   "theorems": [
    "Ansak.Props.C31_join_partial",
    "Ansak.Props.C31_join_split_partial",
    "Ansak.Props.C31_split_join_partial",
    "Ansak.Props.C31_nul_violated",
    "Ansak.Props.C31_overflow_violated",
    "Ansak.Props.C31_join_nul_partial",
    "Ansak.Props.C31_text_join_exact_partial",
    "Ansak.Props.C31_text_join_split_8_partial",
    "Ansak.Props.C31_text_split_join_8_partial",
    "Ansak.Props.C31_text_overflow_8_violated",
    "Ansak.Props.C31_text_join_split_16_partial",
    "Ansak.Props.C31_text_split_join_16_partial",
    "Ansak.Props.C31_text_overflow_16_violated",
    "Ansak.Props.C31_text_join_split_32_partial",
    "Ansak.Props.C31_text_split_join_32_partial",
    "Ansak.Props.C31_text_overflow_32_violated",
    "Ansak.Props.C31_text_nul_violated"
   ],
   "note": "Violated for the delimiter NUL, which join drops (C31_nul_violated), and for 2^31 delimiters or more, where an int index overflows (C31_overflow_violated). Proved for everything else. What join returns is given for every delimiter (C31_text_join_exact_partial)."
  },
  {
   "property": "C32",
   "status": "partial",
   "theorems": [
    "Ansak.Props.C32_empty",
    "Ansak.Props.C32_pieces_partial",
    "Ansak.Props.C32_unique_partial",
    "Ansak.Props.C32_text_8_partial",
    "Ansak.Props.C32_text_8_empty",
    "Ansak.Props.C32_text_16_partial",
    "Ansak.Props.C32_text_16_empty",
    "Ansak.Props.C32_text_32_partial",
    "Ansak.Props.C32_text_32_empty"
   ],
   "note": "Proved except for strings with 2^31 delimiters or more, where the int index overflows (C31_overflow_violated)."
  },
  {
   "property": "C33",
   "status": "proved",
   "theorems": [
    "Ansak.Props.C33_text_itself_8",
    "Ansak.Props.C33_text_itself_16",
    "Ansak.Props.C33_text_itself_32",
    "Ansak.Props.C33_text_only_shared",
    "Ansak.Props.C33_text_only_shared_windows",
    "Ansak.Props.C33_text_trim_8",
    "Ansak.Props.C33_text_trim_16",
    "Ansak.Props.C33_text_trim_32",
    "Ansak.Props.C33_text_trimAscii7WhiteSpace",
    "Ansak.Props.C33_text_trimWhiteSpace",
    "Ansak.Props.C33_unique",
    "Ansak.Props.C33_trim",
    "Ansak.Props.C33_trimOf",
    "Ansak.Props.C33_trimAscii7WhiteSpace",
    "Ansak.Props.C33_trimWhiteSpace",
    "Ansak.Props.C33_idempotent"
   ],
   "note": "Proved, together with the uniqueness of the specified result; also for trim(s, s), where both arguments are one object."
  },
  {
   "property": "C34",
   "status": "partial",
   "theorems": [
    "Ansak.Props.C34_utf8_exact_partial",
    "Ansak.Props.C34_text_exact_partial",
    "Ansak.Props.C34_text",
    "Ansak.Props.C34_text_violated",
    "Ansak.Props.C34_utf8",
    "Ansak.Props.C34_commutes",
    "Ansak.Props.C34_any_partial",
    "Ansak.Props.C34_violated"
   ],
   "note": "Proved for the canonical UTF-8 of every Unicode text. For other strings that isUtf8 accepts the result is characterised exactly (C34_any_partial, C34_utf8_exact_partial, C34_text_exact_partial): text beyond U+10FFFF is emptied, surrogate pairs encoded as two three-byte sequences are re-encoded (C34_violated)."
  },
  {
   "property": "C35",
   "status": "proved",
   "theorems": [
    "Ansak.Props.C35_cp1252",
    "Ansak.Props.C35_cp1250",
    "Ansak.Props.C35_valid",
    "Ansak.Props.C35_injective",
    "Ansak.Props.C35_unicode",
    "Ansak.Props.C35_other",
    "Ansak.Props.C35_null",
    "Ansak.Props.C35_text"
   ],
   "note": "Proved against the published code page tables."
  },
  {
   "property": "C36",
   "status": "proved",
   "theorems": [
    "Ansak.Props.C36_utf8_to_ucs4",
    "Ansak.Props.C36_utf8_to_utf16",
    "Ansak.Props.C36_utf8_to_ucs2",
    "Ansak.Props.C36_isUtf8",
    "Ansak.Props.C36_isUtf16",
    "Ansak.Props.C36_utf16_to_ucs4_and_utf8",
    "Ansak.Props.C36_from_ucs4",
    "Ansak.Props.C36_isUcs",
    "Ansak.Props.C36_text_from_utf8",
    "Ansak.Props.C36_text_from_utf16",
    "Ansak.Props.C36_text_from_ucs4",
    "Ansak.Props.C36_text_valid"
   ],
   "note": ""
  },
  {
   "property": "C37",
   "status": "proved",
   "theorems": [
    "Ansak.Props.C37_toLower_char",
    "Ansak.Props.C37_toLower_text",
    "Ansak.Props.C37_text",
    "Ansak.Props.C37_text_assigned",
    "Ansak.Props.C37_assigned",
    "Ansak.Props.C37_toLower"
   ],
   "note": "Proved for every pair of versions and every 32-bit value, and for strings in the three encodings."
  },
  {
   "property": "C38",
   "status": "partial",
   "theorems": [
    "Ansak.Props.C38_text_w16_pointers",
    "Ansak.Props.C38_text_w16_from8_pointers",
    "Ansak.Props.C38_text_w16_from16_pointers",
    "Ansak.Props.C38_text_w16_from32_pointers",
    "Ansak.Props.C38_text_w32_pointers",
    "Ansak.Props.C38_text_w32_from8_pointers",
    "Ansak.Props.C38_text_w32_from16_pointers",
    "Ansak.Props.C38_text_w32_from32_pointers",
    "Ansak.Props.C38_text_w16_null_partial",
    "Ansak.Props.C38_text_w32_null_partial",
    "Ansak.Props.C38_text_w16_is",
    "Ansak.Props.C38_text_w16_from_partial",
    "Ansak.Props.C38_text_w16_to_partial",
    "Ansak.Props.C38_text_w16_round_trip",
    "Ansak.Props.C38_text_w16_round_trip_back",
    "Ansak.Props.C38_text_w16_null_violated",
    "Ansak.Props.C38_text_w32_is",
    "Ansak.Props.C38_text_w32_from_partial",
    "Ansak.Props.C38_text_w32_to_partial",
    "Ansak.Props.C38_text_w32_round_trip",
    "Ansak.Props.C38_text_w32_round_trip_back",
    "Ansak.Props.C38_text_w32_null_violated",
    "Ansak.Props.C38_text_accepted_violated",
    "Ansak.Props.C38_text_isWstring_partial",
    "Ansak.Props.C38_w16_isUtf16",
    "Ansak.Props.C38_w16_isUcs2",
    "Ansak.Props.C38_w16_from_partial",
    "Ansak.Props.C38_w16_to_partial",
    "Ansak.Props.C38_w16_round_trip",
    "Ansak.Props.C38_w16_round_trip_back",
    "Ansak.Props.C38_w16_null",
    "Ansak.Props.C38_w16_null_violated",
    "Ansak.Props.C38_w32_is",
    "Ansak.Props.C38_w32_from_partial",
    "Ansak.Props.C38_w32_to_partial",
    "Ansak.Props.C38_w32_round_trip",
    "Ansak.Props.C38_w32_round_trip_back",
    "Ansak.Props.C38_w32_null",
    "Ansak.Props.C38_w32_null_violated",
    "Ansak.Props.C38_accepted_violated",
    "Ansak.Props.C38_isWstring8_partial",
    "Ansak.Props.C38_isWstring16",
    "Ansak.Props.C38_isWstring32_partial",
    "Ansak.Props.C38_isWstring_violated",
    "Ansak.Props.C38_w16_isWstring_converts_partial",
    "Ansak.Props.C38_w32_isWstring_converts",
    "Ansak.Props.C38_isWstring_text",
    "Ansak.Props.C38_w16_in_bounds",
    "Ansak.Props.C38_w32_in_bounds",
    "Ansak.Props.C38_isWstring_pointers"
   ],
   "note": "Proved for every string, both widths: agreement with the char16_t/char32_t functions, what isWstring accepts, round trips, no reading past the end. Violated: five pointer overloads copy from a null pointer they have accepted (C38_w16_null_violated, C38_w32_null_violated), and some strings accepted for UTF-16 are not convertible (C38_accepted_violated, C38_isWstring_violated). The text theorems also relate each pointer overload to its string overload (C38_text_..._pointers) and give the outcome of every other null pointer (C38_text_w16_null_partial, C38_text_w32_null_partial)."
  },
  {
   "property": "C39",
   "status": "partial",
   "theorems": [
    "Ansak.Props.C39_mbcs_all_partial",
    "Ansak.Props.C39_text_char_pointers",
    "Ansak.Props.C39_text_from8_pointers_partial",
    "Ansak.Props.C39_text_from16_pointers_partial",
    "Ansak.Props.C39_text_from32_pointers_partial",
    "Ansak.Props.C39_text_mbcs_all_partial",
    "Ansak.Props.C39_text_unicode_copy",
    "Ansak.Props.C39_text_null_partial",
    "Ansak.Props.C39_text_mbcs_null_violated",
    "Ansak.Props.C39_text_char",
    "Ansak.Props.C39_text_toUtf8",
    "Ansak.Props.C39_text_toUtf8_null_violated",
    "Ansak.Props.C39_text_isTstring",
    "Ansak.Props.C39_text_isTstring_converts_partial",
    "Ansak.Props.C39_text_unicode_partial",
    "Ansak.Props.C39_text_unicode_toWstring",
    "Ansak.Props.C39_text_unicode_violated",
    "Ansak.Props.C39_text_mbcs_partial",
    "Ansak.Props.C39_text_mbcs_diverges_violated",
    "Ansak.Props.C39_text_mbcs_accepted_violated",
    "Ansak.Props.C39_text_in_bounds",
    "Ansak.Props.C39_text_in_bounds16",
    "Ansak.Props.C39_text_in_bounds32",
    "Ansak.Props.C39_unicode_partial",
    "Ansak.Props.C39_unicode_toWstring",
    "Ansak.Props.C39_unicode_violated",
    "Ansak.Props.C39_mbcs_partial",
    "Ansak.Props.C39_mbcs_diverges_violated",
    "Ansak.Props.C39_mbcs_accepted_violated",
    "Ansak.Props.C39_toUtf8",
    "Ansak.Props.C39_isTstring_partial",
    "Ansak.Props.C39_windows_is_partial",
    "Ansak.Props.C39_windows_is_exact_partial",
    "Ansak.Props.C39_in_bounds"
   ],
   "note": "Violated: with _MBCS the overloads for strings never return (C39_mbcs_diverges_violated) and text accepted by isTstring is dropped (C39_mbcs_accepted_violated); with _UNICODE a UTF-16 source is not checked (C39_unicode_violated); a null pointer that isTstring accepts is copied (C39_text_mbcs_null_violated). The partial theorems cover the rest. C39_text... are the same statements for the text of interface/string.hxx. C39_mbcs_all_partial: what the pointer overloads with _MBCS return for every string."
  },
  {
   "property": "C40",
   "status": "proved",
   "theorems": [
    "Ansak.Props.C40_text",
    "Ansak.Props.C40_text_injective",
    "Ansak.Props.C40_text_standard",
    "Ansak.Props.C40_encode",
    "Ansak.Props.C40_length",
    "Ansak.Props.C40_injective",
    "Ansak.Props.C40_decode",
    "Ansak.Props.C40_standard"
   ],
   "note": ""
  },
  {
   "property": "C41",
   "status": "partial",
   "theorems": [
    "Ansak.Props.C41_ucs4_to_utf8",
    "Ansak.Props.C41_ucs4_to_utf16",
    "Ansak.Props.C41_ucs4_to_ucs2",
    "Ansak.Props.C41_utf8_to_ucs4",
    "Ansak.Props.C41_utf8_to_utf16",
    "Ansak.Props.C41_utf8_to_ucs2",
    "Ansak.Props.C41_utf16_to_ucs4",
    "Ansak.Props.C41_utf16_to_utf8_partial",
    "Ansak.Props.C41_utf16_to_utf8_violated",
    "Ansak.Props.C41_empty_iff",
    "Ansak.Props.C41_text_from_ucs4",
    "Ansak.Props.C41_text_from_utf8",
    "Ansak.Props.C41_text_from_utf16_partial",
    "Ansak.Props.C41_text_violated"
   ],
   "note": "Seven conversions proved in full; C41_utf16_to_utf8_partial describes the eighth exactly, C41_utf16_to_utf8_violated shows where it encodes a lone low surrogate instead of rejecting the text."
  },
  {
   "property": "C42",
   "status": "proved",
   "theorems": [
    "Ansak.Props.C42_version",
    "Ansak.Props.C42_distinct",
    "Ansak.Props.C42_tables_differ",
    "Ansak.Props.C42_source",
    "Ansak.Props.C42_text"
   ],
   "note": "Proved for the ten versions; C42_source reads the version from the text of the source files."
  },
  {
   "property": "C43",
   "status": "proved",
   "theorems": [
    "Ansak.Props.C43_predicate",
    "Ansak.Props.C43_ucs4",
    "Ansak.Props.C43_utf8",
    "Ansak.Props.C43_utf8_accepted",
    "Ansak.Props.C43_utf16",
    "Ansak.Props.C43_ascii",
    "Ansak.Props.C43_ascii_turkic",
    "Ansak.Props.C43_text",
    "Ansak.Props.C43_text_ascii"
   ],
   "note": "Proved for every version, language, predicate and string; for the ASCII range only without a Turkic language, as C43_ascii_turkic shows necessary."
  },
  {
   "property": "C44",
   "status": "proved",
   "theorems": [
    "Ansak.Props.C44_text",
    "Ansak.Props.C44_text_characters",
    "Ansak.Props.C44_text_utf16",
    "Ansak.Props.C44_accepted",
    "Ansak.Props.C44_characters",
    "Ansak.Props.C44_to_utf16",
    "Ansak.Props.C44_nothing_lost"
   ],
   "note": "Proved for every text and every position."
  },
  {
   "property": "C45",
   "status": "proved",
   "theorems": [
    "Ansak.Props.C45_text",
    "Ansak.Props.C45_text_characters",
    "Ansak.Props.C45_accepted",
    "Ansak.Props.C45_characters",
    "Ansak.Props.C45_ucs"
   ],
   "note": "Proved for every text and every position."
  },
  {
   "property": "C46",
   "status": "partial",
   "theorems": [
    "Ansak.Props.C46_split_utf8_partial",
    "Ansak.Props.C46_split_utf16_partial",
    "Ansak.Props.C46_split_converts_partial",
    "Ansak.Props.C46_join_utf8",
    "Ansak.Props.C46_join_utf16",
    "Ansak.Props.C46_text_split_utf8_partial",
    "Ansak.Props.C46_text_split_utf16_partial",
    "Ansak.Props.C46_text_join",
    "Ansak.Props.C46_text_converts_partial"
   ],
   "note": "Proved for every text of fewer than 2^31 delimiters (see C31_overflow_violated for why the bound is needed); joining without a bound."
  },
  {
   "property": "C47",
   "status": "proved",
   "theorems": [
    "Ansak.Props.C47_trim_utf8",
    "Ansak.Props.C47_trim_utf16",
    "Ansak.Props.C47_trim_ascii",
    "Ansak.Props.C47_exists",
    "Ansak.Props.C47_text_utf8",
    "Ansak.Props.C47_text_utf16"
   ],
   "note": "Proved for every text and character, ASCII for UTF-8 and BMP for UTF-16."
  },
  {
   "property": "C48",
   "status": "partial",
   "theorems": [
    "Ansak.Props.C48_utf8",
    "Ansak.Props.C48_ucs2",
    "Ansak.Props.C48_ucs4",
    "Ansak.Props.C48_utf16_partial",
    "Ansak.Props.C48_no_predicate",
    "Ansak.Props.C48_pointers",
    "Ansak.Props.C48_text",
    "Ansak.Props.C48_text_agree"
   ],
   "note": "UTF-8, UCS-2 and UCS-4 in full. For UTF-16 C48_utf16_partial says exactly what is asked of the predicate: outside the BMP it is asked about the high surrogate instead of the character (C23_isUtf16_violated)."
  },
  {
   "property": "C49",
   "status": "partial",
   "theorems": [
    "Ansak.Props.C49_trimmed_partial",
    "Ansak.Props.C49_difference_partial",
    "Ansak.Props.C49_violated",
    "Ansak.Props.C49_text_partial",
    "Ansak.Props.C49_text_violated"
   ],
   "note": "Everything removed is white space (C49_trimmed_partial); the converse is violated (C49_violated), exactly for the six characters of C49_difference_partial."
  },
  {
   "property": "C50",
   "status": "partial",
   "theorems": [
    "Ansak.Props.C50_table_partial",
    "Ansak.Props.C50_short_violated",
    "Ansak.Props.C50_empty_violated",
    "Ansak.Props.C50_no_newline_violated",
    "Ansak.Props.C50_field_violated",
    "Ansak.Props.C50_text_table_partial",
    "Ansak.Props.C50_text_short_violated",
    "Ansak.Props.C50_text_empty_violated",
    "Ansak.Props.C50_text_no_newline_violated",
    "Ansak.Props.C50_text_field_violated",
    "Ansak.Props.C50_text_cases",
    "Ansak.Props.C50_text_same_file_violated"
   ],
   "note": "Proved for files of at most 2^31-1 lines with two fields and more than ten characters, each ended by a newline, up to the end or the first shorter line (C50_table_partial; C50_text_table_partial for the text of the tool). What comes after a shorter line is lost (C50_text_short_violated), for an empty first line no table is written (C50_text_empty_violated), without the final newline the tool does not terminate (C50_text_no_newline_violated), a line of more than ten characters without semicolon is undefined behaviour (C50_text_field_violated), and if input and output are the same file, it is emptied (C50_text_same_file_violated). C50_text_cases: there are no other files."
  },
  {
   "property": "C51",
   "status": "partial",
   "theorems": [
    "Ansak.Props.C51_utf8",
    "Ansak.Props.C51_from_utf8",
    "Ansak.Props.C51_ucs2",
    "Ansak.Props.C51_utf16_partial",
    "Ansak.Props.C51_utf16_violated",
    "Ansak.Props.C51_pair_violated",
    "Ansak.Props.C51_text_from_ucs4",
    "Ansak.Props.C51_text_from_utf8",
    "Ansak.Props.C51_text_utf16_partial",
    "Ansak.Props.C51_text_utf16_violated"
   ],
   "note": "UTF-8 and UCS-2 in full. UTF-16 only for text that does not mix characters beyond the BMP with U+E000..U+FFFF (C51_utf16_partial); C51_utf16_violated shows why. UTF-8 with surrogate pairs in 3-byte form sorts like UTF-16 (C51_pair_violated)."
  },
  {
   "property": "C52",
   "status": "proved",
   "theorems": [
    "Ansak.Props.C52_utf8",
    "Ansak.Props.C52_utf8_search",
    "Ansak.Props.C52_utf16_search",
    "Ansak.Props.C52_pair_violated",
    "Ansak.Props.C52_text_utf8",
    "Ansak.Props.C52_text_utf16",
    "Ansak.Props.C52_text_pair_violated"
   ],
   "note": "Proved for UTF-8 and UTF-16. UTF-8 in any form is covered by C52_utf8; that the shortest form is needed to find every occurrence is C52_pair_violated."
  },
  {
   "property": "C53",
   "status": "proved",
   "theorems": [
    "Ansak.Props.C53_from_utf8",
    "Ansak.Props.C53_from_utf16",
    "Ansak.Props.C53_from_ucs4",
    "Ansak.Props.C53_accepted",
    "Ansak.Props.C53_only",
    "Ansak.Props.C53_length",
    "Ansak.Props.C53_exact",
    "Ansak.Props.C53_text_exact",
    "Ansak.Props.C53_text",
    "Ansak.Props.C53_text_accepted",
    "Ansak.Props.C53_text_length"
   ],
   "note": "Proved for all strings and ranges. C53_exact and C53_text_exact: with kAscii all four validators accept exactly ASCII."
  },
  {
   "property": "C54",
   "status": "proved",
   "theorems": [
    "Ansak.Props.C54_from_utf8",
    "Ansak.Props.C54_from_utf16",
    "Ansak.Props.C54_from_ucs4",
    "Ansak.Props.C54_unicode",
    "Ansak.Props.C54_at_least",
    "Ansak.Props.C54_reached",
    "Ansak.Props.C54_text"
   ],
   "note": "Proved for all strings; C54_reached has a witness for each bound."
  },
  {
   "property": "C55",
   "status": "proved",
   "theorems": [
    "Ansak.Props.C55_utf8_utf16",
    "Ansak.Props.C55_utf16_utf8",
    "Ansak.Props.C55_length",
    "Ansak.Props.C55_utf16_size",
    "Ansak.Props.C55_utf8_size",
    "Ansak.Props.C55_utf8_grows",
    "Ansak.Props.C55_text",
    "Ansak.Props.C55_text_grows"
   ],
   "note": "Proved for every text, language and version; C55_utf8_grows shows that UTF-8 text can get longer."
  },
  {
   "property": "C56",
   "status": "proved",
   "theorems": [
    "Ansak.Props.C56_ucs4",
    "Ansak.Props.C56_utf16",
    "Ansak.Props.C56_utf8",
    "Ansak.Props.C56_text_from_ucs4",
    "Ansak.Props.C56_text_from_utf16",
    "Ansak.Props.C56_text_from_utf8"
   ],
   "note": "Proved for all eight conversions and all strings."
  },
  {
   "property": "C57",
   "status": "partial",
   "theorems": [
    "Ansak.Props.C57_history_partial",
    "Ansak.Props.C57_any_history",
    "Ansak.Props.C57_frame",
    "Ansak.Props.C57_receiver",
    "Ansak.Props.C57_shared",
    "Ansak.Props.C57_text_runs",
    "Ansak.Props.C57_text_partial",
    "Ansak.Props.C57_text_any",
    "Ansak.Props.C57_text_frame",
    "Ansak.Props.C57_text_receiver"
   ],
   "note": "C57_history_partial needs conditions that do not contradict one another (see C24_contradiction_violated); C57_any_history says exactly what holds without that assumption. C57_shared: two predicates derived from a common one are not independent, because andIf narrows its receiver. C57_text_...: the same for programs whose statements run the text of the library (Spec/TextHistory)."
  },
  {
   "property": "C58",
   "status": "partial",
   "theorems": [
    "Ansak.Props.C58_narrows_partial",
    "Ansak.Props.C58_contradiction_violated",
    "Ansak.Props.C58_text_partial",
    "Ansak.Props.C58_text_violated"
   ],
   "note": "For conditions that do not contradict the predicate (C58_narrows_partial); otherwise another condition can widen (C58_contradiction_violated). C58_text_partial, C58_text_violated: for the text of the library."
  },
  {
   "property": "C59",
   "status": "proved",
   "theorems": [
    "Ansak.Props.C59_same_answer",
    "Ansak.Props.C59_any_utf8",
    "Ansak.Props.C59_ascii",
    "Ansak.Props.C59_text",
    "Ansak.Props.C59_text_ascii"
   ],
   "note": "Proved for all texts, languages and versions; the ASCII part for languages that are not Turkic, as the property says."
  },
  {
   "property": "C60",
   "status": "proved",
   "theorems": [
    "Ansak.Props.C60_length",
    "Ansak.Props.C60_size",
    "Ansak.Props.C60_append",
    "Ansak.Props.C60_ascii",
    "Ansak.Props.C60_latin1",
    "Ansak.Props.C60_text",
    "Ansak.Props.C60_text_append",
    "Ansak.Props.C60_text_ascii",
    "Ansak.Props.C60_text_latin1"
   ],
   "note": "Proved for all strings."
  },
  {
   "property": "C61",
   "status": "proved",
   "theorems": [
    "Ansak.Props.C61_split_utf8",
    "Ansak.Props.C61_split_utf16",
    "Ansak.Props.C61_split_ucs2",
    "Ansak.Props.C61_split_ucs4",
    "Ansak.Props.C61_trim",
    "Ansak.Props.C61_join_utf8",
    "Ansak.Props.C61_join_utf16",
    "Ansak.Props.C61_join_ucs",
    "Ansak.Props.C61_text_split",
    "Ansak.Props.C61_text_trim",
    "Ansak.Props.C61_text_join"
   ],
   "note": "Proved for complete text whenever split returns (for 2^31 delimiters or more see C31_overflow_violated)."
  },
  {
   "property": "C62",
   "status": "proved",
   "theorems": [
    "Ansak.Props.C62_assigned",
    "Ansak.Props.C62_control_white",
    "Ansak.Props.C62_both",
    "Ansak.Props.C62_text_assigned",
    "Ansak.Props.C62_text_control_white",
    "Ansak.Props.C62_text_both"
   ],
   "note": "Proved for every version."
  },
  {
   "property": "C63",
   "status": "partial",
   "theorems": [
    "Ansak.Props.C63_success",
    "Ansak.Props.C63_usage",
    "Ansak.Props.C63_exit_partial",
    "Ansak.Props.C63_open_violated",
    "Ansak.Props.C63_text_limit",
    "Ansak.Props.C63_text_unique",
    "Ansak.Props.C63_text_usage",
    "Ansak.Props.C63_text_missing",
    "Ansak.Props.C63_text_no_name_violated",
    "Ansak.Props.C63_text_exit_partial",
    "Ansak.Props.C63_text_open_violated"
   ],
   "note": "Violated: a file that cannot be opened or created goes unnoticed and the exit code is 0 (C63_open_violated, C63_text_open_violated for the text of the tool); without even a program name the tool reads a null pointer (C63_text_no_name_violated). C63_exit_partial and C63_text_exit_partial say exactly when the exit code is 0, and C63_text_usage and C63_text_missing give the messages."
  },
  {
   "property": "C64",
   "status": "proved",
   "theorems": [
    "Ansak.Props.C64_texts",
    "Ansak.Props.C64_encodings",
    "Ansak.Props.C64_same_texts",
    "Ansak.Props.C64_text_lower",
    "Ansak.Props.C64_text_runs",
    "Ansak.Props.C64_text_only",
    "Ansak.Props.C64_text_encodings",
    "Ansak.Props.C64_text_both"
   ],
   "note": "C64_texts: the library machine follows the text machine, by induction on the run. C64_encodings: two programs that differ only in encodings compute the same texts. C64_same_texts: the texts are determined by the strings. For the text of the library: C64_text_runs (what the program does on lists of fewer than 2^61 characters, it does through the text of the library, and nothing else), C64_text_only (the other direction), C64_text_encodings and C64_text_both (two programs that differ only in encodings), C64_text_lower (a lower-case mapping that agrees with the text exists). The program must fit into memory: its strings have lengths that a string can have."
  },
  {
   "property": "C65",
   "status": "proved",
   "theorems": [
    "Ansak.Props.C65_text",
    "Ansak.Props.C65_text_same",
    "Ansak.Props.C65_text_strict",
    "Ansak.Props.C65_newer",
    "Ansak.Props.C65_same",
    "Ansak.Props.C65_strict"
   ],
   "note": "Proved for every pair of versions and every predicate a program can build (C57); C65_strict shows that the converse fails for each pair."
  },
  {
   "property": "C66",
   "status": "proved",
   "theorems": [
    "Ansak.Props.C66_char32",
    "Ansak.Props.C66_char16",
    "Ansak.Props.C66_char8"
   ],
   "note": "Proved for the text of all twenty files (Verif/Model/Cxx/Source*.lean), read and run by Verif/Model/Cxx. C25_source*, C26_source*, C27_source* say what the functions return."
  },
  {
   "property": "C67",
   "status": "proved",
   "theorems": [
    "Ansak.Props.C67_isUtf8_S1",
    "Ansak.Props.C67_isUtf8_SR",
    "Ansak.Props.C67_isUtf8_S2",
    "Ansak.Props.C67_isUtf8_S3",
    "Ansak.Props.C67_isUtf8_P1",
    "Ansak.Props.C67_isUtf8_PR",
    "Ansak.Props.C67_isUtf8_P2",
    "Ansak.Props.C67_isUtf8_P3",
    "Ansak.Props.C67_isUtf8_L2",
    "Ansak.Props.C67_isUtf8_L3",
    "Ansak.Props.C67_isUtf16_S1",
    "Ansak.Props.C67_isUtf16_SR",
    "Ansak.Props.C67_isUtf16_S2",
    "Ansak.Props.C67_isUtf16_S3",
    "Ansak.Props.C67_isUtf16_P1",
    "Ansak.Props.C67_isUtf16_PR",
    "Ansak.Props.C67_isUtf16_P2",
    "Ansak.Props.C67_isUtf16_P3",
    "Ansak.Props.C67_isUcs2_S1",
    "Ansak.Props.C67_isUcs2_SR",
    "Ansak.Props.C67_isUcs2_S2",
    "Ansak.Props.C67_isUcs2_S3",
    "Ansak.Props.C67_isUcs2_P1",
    "Ansak.Props.C67_isUcs2_PR",
    "Ansak.Props.C67_isUcs2_P2",
    "Ansak.Props.C67_isUcs2_P3",
    "Ansak.Props.C67_isUcs4_S1",
    "Ansak.Props.C67_isUcs4_SR",
    "Ansak.Props.C67_isUcs4_S2",
    "Ansak.Props.C67_isUcs4_S3",
    "Ansak.Props.C67_isUcs4_P1",
    "Ansak.Props.C67_isUcs4_PR",
    "Ansak.Props.C67_isUcs4_P2",
    "Ansak.Props.C67_isUcs4_P3",
    "Ansak.Props.C67_toUtf8_S16",
    "Ansak.Props.C67_toUtf8_P16",
    "Ansak.Props.C67_toUtf8_S32",
    "Ansak.Props.C67_toUtf8_P32",
    "Ansak.Props.C67_toUcs2_S8",
    "Ansak.Props.C67_toUcs2_P8",
    "Ansak.Props.C67_toUcs2_S32",
    "Ansak.Props.C67_toUcs2_P32",
    "Ansak.Props.C67_toUtf16_S8",
    "Ansak.Props.C67_toUtf16_P8",
    "Ansak.Props.C67_toUtf16_S32",
    "Ansak.Props.C67_toUtf16_P32",
    "Ansak.Props.C67_toUcs4_S8",
    "Ansak.Props.C67_toUcs4_P8",
    "Ansak.Props.C67_toUcs4_S16",
    "Ansak.Props.C67_toUcs4_P16",
    "Ansak.Props.C67_toUtf8_page",
    "Ansak.Props.C67_unicodeLength_S8",
    "Ansak.Props.C67_unicodeLength_P8",
    "Ansak.Props.C67_unicodeLength_L8",
    "Ansak.Props.C67_unicodeLength_S16",
    "Ansak.Props.C67_unicodeLength_P16",
    "Ansak.Props.C67_unicodeLength_L16",
    "Ansak.Props.C67_unicodeLength_S32",
    "Ansak.Props.C67_unicodeLength_P32",
    "Ansak.Props.C67_unicodeLength_L32",
    "Ansak.Props.C67_toLower_S8",
    "Ansak.Props.C67_toLower_S8_lang",
    "Ansak.Props.C67_toLower_S16",
    "Ansak.Props.C67_toLower_S16_lang",
    "Ansak.Props.C67_toLower_S32",
    "Ansak.Props.C67_toLower_S32_lang",
    "Ansak.Props.C67_validIf",
    "Ansak.Props.C67_validIfNot",
    "Ansak.Props.C67_checkIf",
    "Ansak.Props.C67_checkIfNot",
    "Ansak.Props.C67_andIf",
    "Ansak.Props.C67_andIfNot",
    "Ansak.Props.C67_equals",
    "Ansak.Props.C67_differs",
    "Ansak.Props.C67_equals_itself",
    "Ansak.Props.C67_differs_itself",
    "Ansak.Props.C67_apply8",
    "Ansak.Props.C67_apply16",
    "Ansak.Props.C67_apply32",
    "Ansak.Props.C67_version",
    "Ansak.Props.C67_defined",
    "Ansak.Props.C67_unique",
    "Ansak.Props.C67_trim_8",
    "Ansak.Props.C67_trimOf_8",
    "Ansak.Props.C67_trim_16",
    "Ansak.Props.C67_trimOf_16",
    "Ansak.Props.C67_trim_32",
    "Ansak.Props.C67_trimOf_32",
    "Ansak.Props.C67_trimAscii7WhiteSpace",
    "Ansak.Props.C67_trimWhiteSpace_8",
    "Ansak.Props.C67_trimWhiteSpace_16",
    "Ansak.Props.C67_trimWhiteSpace_32",
    "Ansak.Props.C67_split_8",
    "Ansak.Props.C67_join_8",
    "Ansak.Props.C67_split_16",
    "Ansak.Props.C67_join_16",
    "Ansak.Props.C67_split_32",
    "Ansak.Props.C67_join_32",
    "Ansak.Props.C67_changes_unique",
    "Ansak.Props.C67_split_8_defined",
    "Ansak.Props.C67_join_8_defined",
    "Ansak.Props.C67_split_16_defined",
    "Ansak.Props.C67_join_16_defined",
    "Ansak.Props.C67_split_32_defined",
    "Ansak.Props.C67_join_32_defined",
    "Ansak.Props.C67_trimWhiteSpace_8_defined",
    "Ansak.Props.C67_member_unique",
    "Ansak.Props.C67_construct",
    "Ansak.Props.C67_construct_unique",
    "Ansak.Props.C67_w16_isUtf8_PW",
    "Ansak.Props.C67_w16_isUtf8_SW",
    "Ansak.Props.C67_w16_isUtf16_PW",
    "Ansak.Props.C67_w16_isUtf16_SW",
    "Ansak.Props.C67_w16_isUcs2_PW",
    "Ansak.Props.C67_w16_isUcs2_SW",
    "Ansak.Props.C67_w16_isUcs4_PW",
    "Ansak.Props.C67_w16_isUcs4_SW",
    "Ansak.Props.C67_w16_isWstring_P8",
    "Ansak.Props.C67_w16_isWstring_S8",
    "Ansak.Props.C67_w16_isWstring_P16",
    "Ansak.Props.C67_w16_isWstring_S16",
    "Ansak.Props.C67_w16_isWstring_P32",
    "Ansak.Props.C67_w16_isWstring_S32",
    "Ansak.Props.C67_w16_toUtf8_PW",
    "Ansak.Props.C67_w16_toUtf8_SW",
    "Ansak.Props.C67_w16_toUtf16_PW",
    "Ansak.Props.C67_w16_toUtf16_SW",
    "Ansak.Props.C67_w16_toUcs2_PW",
    "Ansak.Props.C67_w16_toUcs2_SW",
    "Ansak.Props.C67_w16_toUcs4_PW",
    "Ansak.Props.C67_w16_toUcs4_SW",
    "Ansak.Props.C67_w16_toWstring_P8",
    "Ansak.Props.C67_w16_toWstring_S8",
    "Ansak.Props.C67_w16_toWstring_P16",
    "Ansak.Props.C67_w16_toWstring_S16",
    "Ansak.Props.C67_w16_toWstring_P32",
    "Ansak.Props.C67_w16_toWstring_S32",
    "Ansak.Props.C67_w32_isUtf8_PW",
    "Ansak.Props.C67_w32_isUtf8_SW",
    "Ansak.Props.C67_w32_isUtf16_PW",
    "Ansak.Props.C67_w32_isUtf16_SW",
    "Ansak.Props.C67_w32_isUcs2_PW",
    "Ansak.Props.C67_w32_isUcs2_SW",
    "Ansak.Props.C67_w32_isUcs4_PW",
    "Ansak.Props.C67_w32_isUcs4_SW",
    "Ansak.Props.C67_w32_isWstring_P8",
    "Ansak.Props.C67_w32_isWstring_S8",
    "Ansak.Props.C67_w32_isWstring_P16",
    "Ansak.Props.C67_w32_isWstring_S16",
    "Ansak.Props.C67_w32_isWstring_P32",
    "Ansak.Props.C67_w32_isWstring_S32",
    "Ansak.Props.C67_w32_toUtf8_PW",
    "Ansak.Props.C67_w32_toUtf8_SW",
    "Ansak.Props.C67_w32_toUtf16_PW",
    "Ansak.Props.C67_w32_toUtf16_SW",
    "Ansak.Props.C67_w32_toUcs2_PW",
    "Ansak.Props.C67_w32_toUcs2_SW",
    "Ansak.Props.C67_w32_toUcs4_PW",
    "Ansak.Props.C67_w32_toUcs4_SW",
    "Ansak.Props.C67_w32_toWstring_P8",
    "Ansak.Props.C67_w32_toWstring_S8",
    "Ansak.Props.C67_w32_toWstring_P16",
    "Ansak.Props.C67_w32_toWstring_S16",
    "Ansak.Props.C67_w32_toWstring_P32",
    "Ansak.Props.C67_w32_toWstring_S32",
    "Ansak.Props.C67_wide_defined",
    "Ansak.Props.C67_win_isUtf16_P8",
    "Ansak.Props.C67_win_isUtf16_S8",
    "Ansak.Props.C67_win_isUcs2_P8",
    "Ansak.Props.C67_win_isUcs2_S8",
    "Ansak.Props.C67_win_isUcs4_P8",
    "Ansak.Props.C67_win_isUcs4_S8",
    "Ansak.Props.C67_win_toUtf8_P8",
    "Ansak.Props.C67_win_toUtf8_S8",
    "Ansak.Props.C67_mbcs_isTstring_S8",
    "Ansak.Props.C67_mbcs_isTstring_P8",
    "Ansak.Props.C67_mbcs_isTstring_S16",
    "Ansak.Props.C67_mbcs_isTstring_P16",
    "Ansak.Props.C67_mbcs_isTstring_S32",
    "Ansak.Props.C67_mbcs_isTstring_P32",
    "Ansak.Props.C67_mbcs_toTstring_P8",
    "Ansak.Props.C67_mbcs_toTstring_P16",
    "Ansak.Props.C67_mbcs_toTstring_P32",
    "Ansak.Props.C67_mbcs_toTstring_S8",
    "Ansak.Props.C67_mbcs_toTstring_S16",
    "Ansak.Props.C67_mbcs_toTstring_S32",
    "Ansak.Props.C67_unicode_isTstring_S8",
    "Ansak.Props.C67_unicode_isTstring_P8",
    "Ansak.Props.C67_unicode_isTstring_S16",
    "Ansak.Props.C67_unicode_isTstring_P16",
    "Ansak.Props.C67_unicode_isTstring_S32",
    "Ansak.Props.C67_unicode_isTstring_P32",
    "Ansak.Props.C67_unicode_toTstring_S8",
    "Ansak.Props.C67_unicode_toTstring_P8",
    "Ansak.Props.C67_unicode_toTstring_S16",
    "Ansak.Props.C67_unicode_toTstring_P16",
    "Ansak.Props.C67_unicode_toTstring_S32",
    "Ansak.Props.C67_unicode_toTstring_P32"
   ],
   "note": "Proved for the text of the library (Verif/Model/Cpp/Source.lean), read by the parser and run by the semantics of Verif/Model/Cpp, linked with the text of the tables. C67_<function>_<overload> says that the text has the outcome of the hand-written model, C67_defined that no allowed call has undefined behaviour, C67_unique that the outcome is determined. The theorems Cnn_text... restate the other properties for the text. The wchar_t overloads (C67_w16_..., C67_w32_..., C67_wide_defined), trim, split and join (TextMore) are included; strings of 2^64 - 1 characters or more, which cannot exist, are excluded for trim and split by a hypothesis. C67_construct is the default constructor of EncodingCheckPredicate. C67_win_..., C67_mbcs_... and C67_unicode_... are the functions for Windows."
  },
  {
   "property": "C68",
   "status": "proved",
   "theorems": [
    "Ansak.Props.C68_unchanged",
    "Ansak.Props.C68_runs"
   ],
   "note": "Proved for the text of the library and every call, of functions and members of classes."
  },
  {
   "property": "C69",
   "status": "proved",
   "theorems": [
    "Ansak.Props.C69_equal",
    "Ansak.Props.C69_equal_conditions",
    "Ansak.Props.C69_differ",
    "Ansak.Props.C69_itself",
    "Ansak.Props.C69_equivalence",
    "Ansak.Props.C69_same_answers",
    "Ansak.Props.C69_answers_only"
   ],
   "note": "Proved for the text of the library and all predicates that a program can make."
  },
  {
   "property": "C70",
   "status": "proved",
   "theorems": [
    "Ansak.Props.C70_text_own",
    "Ansak.Props.C70_text_own_windows",
    "Ansak.Props.C70_text_static",
    "Ansak.Props.C70_text_static_windows",
    "Ansak.Props.C70_text_no_race",
    "Ansak.Props.C70_text_stable",
    "Ansak.Props.C70_text_alone",
    "Ansak.Props.C70_text_schedule",
    "Ansak.Props.C70_text_progress",
    "Ansak.Props.C70_text_ends",
    "Ansak.Props.C70_text_finish"
   ],
   "note": "Proved for the text of the library: what a function changes is read off its syntax tree, and the calls of the threads are runs of the text. A call begins and ends at any time; what happens between is not interleaved step by step, since it touches nothing of other threads."
  },
  {
   "property": "C71",
   "status": "partial",
   "theorems": [
    "Ansak.Props.C71_text_room_partial",
    "Ansak.Props.C71_text_end",
    "Ansak.Props.C71_text_enough",
    "Ansak.Props.C71_text_full_violated"
   ],
   "note": "Violated: on a full disk the tool exits with 0 and writes no message (C71_text_full_violated). C71_text_room_partial compares every run with the one without limits: the output file is cut at the limit, and nothing else differs. C71_text_end: limits do not change whether a run ends."
  },
  {
   "property": "C72",
   "status": "partial",
   "theorems": [
    "Ansak.Props.C72_text_calls_partial",
    "Ansak.Props.C72_text_wide_partial",
    "Ansak.Props.C72_text_changes_partial",
    "Ansak.Props.C72_text_members_partial",
    "Ansak.Props.C72_text_objects_partial",
    "Ansak.Props.C72_text_globals",
    "Ansak.Props.C72_text_version_violated",
    "Ansak.Props.C72_text_unchanged_windows",
    "Ansak.Props.C72_text_early_windows",
    "Ansak.Props.C72_text_windows_partial",
    "Ansak.Props.C72_text_never_windows",
    "Ansak.Props.C72_text_globals_windows"
   ],
   "note": "Violated for getUnicodeVersionSupported, which returns a copy of a global that may not have been constructed yet (C72_text_version_violated). All other functions are proved to have the same outcome whatever that global is (C72_text_calls_partial, C72_text_wide_partial, C72_text_changes_partial, C72_text_members_partial, C72_text_objects_partial; on Windows C72_text_windows_partial and C72_text_unchanged_windows); it is the only variable that the text takes from other files (C72_text_globals, C72_text_globals_windows)."
  },
  {
   "property": "C73",
   "status": "proved",
   "theorems": [
    "Ansak.Props.C73_text_types",
    "Ansak.Props.C73_text_types_windows",
    "Ansak.Props.C73_text_declared",
    "Ansak.Props.C73_text_declared_windows",
    "Ansak.Props.C73_text_kept"
   ],
   "note": "Proved for the text of the library: the type of every result holds no pointer and no reference (C73_text_types, and for Windows C73_text_types_windows), no function is declared to return one (C73_text_declared, C73_text_declared_windows: the trees do not distinguish const t& from t, the tokens do), and a result remains what it is whatever calls follow (C73_text_kept)."
  },
  {
   "property": "C74",
   "status": "partial",
   "theorems": [
    "Ansak.Props.C74_text_calls",
    "Ansak.Props.C74_text_wide",
    "Ansak.Props.C74_text_changes",
    "Ansak.Props.C74_text_members",
    "Ansak.Props.C74_text_objects",
    "Ansak.Props.C74_text_version",
    "Ansak.Props.C74_text_runs",
    "Ansak.Props.C74_text_unchanged_windows",
    "Ansak.Props.C74_text_shallow_windows",
    "Ansak.Props.C74_text_windows_partial",
    "Ansak.Props.C74_text_windows_violated"
   ],
   "note": "Proved for the text of the library: every call has its outcome with at most eight calls inside each other, and with loops of at most as many rounds as the arguments have characters, and eight more (C74_text_calls, C74_text_wide, C74_text_changes, C74_text_members, C74_text_objects, C74_text_version); the same calls on Windows (C74_text_unchanged_windows, C74_text_shallow_windows) and the functions for Windows (C74_text_windows_partial). Violated by toTstring of a string with _MBCS, which calls itself without end (C74_text_windows_violated)."
  },
  {
   "property": "C75",
   "status": "proved",
   "theorems": [
    "Ansak.Props.C75_text_order",
    "Ansak.Props.C75_text_order_windows"
   ],
   "note": "Proved for every expression of the text of the library (C75_text_order, C75_text_order_windows), by a check of the parsed text in the kernel. What an expression uses and changes is read off its text, on the safe side. The theorem is about the text: that evaluation in another order has the same outcome follows from it only outside of Lean, since the semantics of the model has one order. The generated tables and the command line tool are not covered."
  }
 ]
}