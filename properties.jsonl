{"id": "C01", "title": "UTF-8 decoding is exact", "statement": "For every NUL-terminated byte string, toUcs4 returns exactly the values encoded by the string when it is a sequence of well-formed (shortest-form, up to 31-bit, or surrogate-pair-as-two-3-byte) UTF-8 sequences, optionally followed by one incomplete sequence which is ignored; for every other byte string it returns the empty string.", "quantifier": "every finite byte string, NUL-terminated", "why_tests_cant": "There are infinitely many byte strings; tests only sample one sequence of each length.", "anchors": ["source/string.cxx: toUcs4(const char*)", "source/string_decode_utf8.cxx: decodeUtf8"]}
{"id": "C02", "title": "UTF-8 validation is exact", "statement": "isUtf8(s, range) returns true exactly when s is a sequence of well-formed UTF-8 sequences whose values all fit the target range, optionally followed by one incomplete sequence that could still have been completed for that range.", "quantifier": "every finite byte string and every target range", "why_tests_cant": "Needs every byte combination including all truncations and overlong forms for all six ranges.", "anchors": ["source/string.cxx: isUtf8", "source/string_decode_utf8.cxx: decodeUtf8", "interface/string.hxx:233-240"]}
{"id": "C03", "title": "UCS-4 to UTF-8 round trip", "statement": "For every UCS-4 string whose characters are non-zero, non-surrogate and below 2^31, toUcs4(toUtf8(s)) == s.", "quantifier": "every UCS-4 string over 1..0x7fffffff without surrogates, any length", "why_tests_cant": "2^31 characters and unbounded string lengths.", "anchors": ["source/string.cxx: toUtf8(const char32_t*)", "source/string.cxx: toUcs4(const char*)"]}
{"id": "C04", "title": "UTF-8 to UCS-4 round trip", "statement": "For every UTF-8 string in canonical form (shortest form, no surrogate pairs written as two 3-byte sequences, nothing truncated) toUtf8(toUcs4(s)) == s; for any accepted string, converting through UCS-4 yields the canonical form and doing it twice changes nothing more.", "quantifier": "every byte string accepted by isUtf8", "why_tests_cant": "Unbounded byte strings; idempotence of normalisation is a statement about all of them.", "anchors": ["source/string.cxx: toUcs4(const char*)", "source/string.cxx: toUtf8(const char32_t*)"]}
{"id": "C05", "title": "UTF-16 round trips", "statement": "For every well-formed UTF-16 string without NULs, converting to UTF-8 and back to UTF-16, or to UCS-4 and back to UTF-16, returns the original string.", "quantifier": "every well-formed UTF-16 string of any length", "why_tests_cant": "All 1,112,063 scalar values in every combination and order.", "anchors": ["source/string.cxx: toUtf8(const char16_t*)", "source/string.cxx: toUtf16(const char*)", "source/string.cxx: toUcs4(const char16_t*)", "source/string.cxx: toUtf16(const char32_t*)"]}
{"id": "C06", "title": "UCS-2 round trips", "statement": "For every UCS-2 string without NULs and surrogates, converting to UTF-8 or UCS-4 and back with toUcs2 returns the original string.", "quantifier": "every UCS-2 string of any length", "why_tests_cant": "63,487 characters in all combinations.", "anchors": ["source/string.cxx: toUcs2", "source/string.cxx: toUtf8(const char16_t*)", "source/string.cxx: toUcs4(const char16_t*)"]}
{"id": "C07", "title": "Conversion paths commute", "statement": "Converting directly between two encodings gives the same result as going through UCS-4: toUtf16(utf8) == toUtf16(toUcs4(utf8)), toUcs2(utf8) == toUcs2(toUcs4(utf8)), toUtf8(utf16) == toUtf8(toUcs4(utf16)) for accepted input.", "quantifier": "every source string", "why_tests_cant": "Agreement of independently written loops on all inputs, including invalid and truncated ones.", "anchors": ["source/string.cxx: toUtf16", "source/string.cxx: toUcs2", "source/string.cxx: toUtf8", "source/string.cxx: toUcs4"]}
{"id": "C08", "title": "Validated strings re-encode", "statement": "A non-empty string that passes isXXX(s, target) without being only an incomplete sequence converts successfully (non-empty, all complete characters present) with the toXXX function of the target encoding.", "quantifier": "every string in every source encoding and every target range", "why_tests_cant": "The header promises a guarantee; a guarantee covers all strings.", "anchors": ["source/string.cxx: isUtf8/isUtf16/isUcs2/isUcs4", "source/string.cxx: toUtf8/toUcs2/toUtf16/toUcs4", "interface/string.hxx:41-45"]}
{"id": "C09", "title": "Conversions only emit valid output", "statement": "Every non-empty result of toUtf8, toUtf16, toUcs2 and toUcs4 is accepted by the validator of its own encoding.", "quantifier": "every source string, valid or not", "why_tests_cant": "Includes every malformed input.", "anchors": ["source/string.cxx: toUtf8/toUcs2/toUtf16/toUcs4"]}
{"id": "C10", "title": "Null-terminated functions stay in bounds", "statement": "On any NUL-terminated buffer, with any content, the null-terminated forms of isXXX, toXXX and unicodeLength terminate and never read past the terminating NUL.", "quantifier": "every buffer containing a NUL, every target range and predicate", "why_tests_cant": "Out-of-bounds reads depend on specific malformed tails and are silent.", "anchors": ["source/string.cxx", "source/string_decode_utf8.cxx"]}
{"id": "C11", "title": "Length-terminated functions stay in bounds", "statement": "isUtf8(p, n) and unicodeLength(p, n) never read outside the n units they were given.", "quantifier": "every buffer of exactly n units, n > 0", "why_tests_cant": "Over-reads are silent in tests because buffers are usually followed by a NUL.", "anchors": ["source/string.cxx: isUtf8(const char*, unsigned int, ...)", "source/string.cxx: unicodeLength"]}
{"id": "C12", "title": "Only the text before the first NUL matters", "statement": "The result of each validation, conversion and length function depends only on the units before the first NUL; in particular for basic_string arguments with embedded NULs it equals the result on the part before the first NUL.", "quantifier": "every string and every content after its first NUL", "why_tests_cant": "Any tail content must be irrelevant.", "anchors": ["source/string.cxx: basic_string overloads using c_str()"]}
{"id": "C13", "title": "Null pointers and empty strings", "statement": "For a null pointer or empty string every validator returns true for every legal target range, every conversion returns the empty string and unicodeLength returns 0.", "quantifier": "every function, range and predicate", "why_tests_cant": "Each overload and build configuration is separate code; several are untested.", "anchors": ["source/string.cxx", "interface/string.hxx: wchar_t and TCHAR overloads"]}
{"id": "C14", "title": "Illegal target ranges are rejected", "statement": "Every validator returns false for a target range outside kAscii..kUnicode, whatever the string (including null).", "quantifier": "every integer value for the range, every string", "why_tests_cant": "The parameter is an int-based enum with 2^32 values.", "anchors": ["source/string.cxx: isUtf8/isUtf16/isUcs2/isUcs4"]}
{"id": "C15", "title": "Target ranges nest", "statement": "A string accepted for kAscii is accepted for kUcs2; for kUcs2 is accepted for kUnicode; for kUnicode is accepted for kUtf16; for kUtf16 is accepted for kUtf8; for kUtf8 is accepted for kUcs4; with the same predicate.", "quantifier": "every string of every source encoding and predicate", "why_tests_cant": "Subset relations quantify over all strings.", "anchors": ["source/string.cxx", "source/string_internal.hxx: RangeTypeFlags"]}
{"id": "C16", "title": "Overlong, malformed and lone-surrogate UTF-8 is rejected", "statement": "A NUL-terminated string that contains an overlong sequence, a stray continuation byte, FE or FF, a broken sequence in its middle or a lone surrogate half is rejected by isUtf8 for every range and converted to the empty string by every conversion.", "quantifier": "every position of every malformed sequence in every string", "why_tests_cant": "Security-relevant rejections must hold in every context, not for a sample.", "anchors": ["source/string_decode_utf8.cxx", "source/string.cxx: isUtf8"]}
{"id": "C17", "title": "UTF-16 validation and decoding is exact", "statement": "isUtf16(s, range) accepts exactly the strings of BMP non-surrogate units and high/low pairs, within range, optionally ending in one unpaired high surrogate; toUcs4 returns exactly their code points and the empty string for everything else.", "quantifier": "every 16-bit string and range", "why_tests_cant": "65535^n strings.", "anchors": ["source/string.cxx: isUtf16", "source/string.cxx: toUcs4(const char16_t*)"]}
{"id": "C18", "title": "UCS-2 and UCS-4 validation is exact", "statement": "isUcs2(s, range) accepts exactly strings without surrogate units that fit the range; isUcs4(s, range) accepts exactly strings of non-surrogate values that fit the range.", "quantifier": "every string and range", "why_tests_cant": "Per-character boundaries over 2^32 values and all lengths.", "anchors": ["source/string.cxx: isUcs2", "source/string.cxx: isUcs4", "source/string_internal.hxx: getCharEncodableRangeFlags"]}
{"id": "C19", "title": "Code point counting is exact and consistent", "statement": "For valid, complete text in UTF-8, UTF-16 or UCS-4 limited to Unicode, unicodeLength returns the number of code points, i.e. the length of the UCS-4 conversion, the same for all three encodings of the same text; it returns 0 for invalid text.", "quantifier": "every string, NUL-terminated", "why_tests_cant": "Counting loops must agree on all inputs.", "anchors": ["source/string.cxx: unicodeLength"]}
{"id": "C20", "title": "Code point counting ignores an incomplete tail", "statement": "If valid text is followed by an incomplete sequence at the end of the string, unicodeLength counts the complete code points before it, for NUL-terminated and for length-terminated input alike.", "quantifier": "every valid text and every incomplete tail", "why_tests_cant": "All combinations of text length and tail shape.", "anchors": ["source/string.cxx: unicodeLength"]}
{"id": "C21", "title": "Length-terminated validation agrees with NUL-terminated validation", "statement": "isUtf8(p, n) on n bytes without NULs returns the same answer as isUtf8 on the NUL-terminated copy of those n bytes, and false if there is a NUL among the n bytes.", "quantifier": "every buffer and length", "why_tests_cant": "Two code paths selected by a flag, all split points of all strings.", "anchors": ["source/string.cxx: isUtf8(const char*, unsigned int, ...)"]}
{"id": "C22", "title": "Length-terminated counting agrees with NUL-terminated counting", "statement": "unicodeLength(p, n) on n units without NULs returns the number of complete code points in the first n units when these are valid, and 0 when they are invalid or contain a NUL.", "quantifier": "every buffer and length for UTF-8, UTF-16 and UCS-4", "why_tests_cant": "All split points of all strings.", "anchors": ["source/string.cxx: unicodeLength"]}
{"id": "C23", "title": "Predicates filter per code point", "statement": "isXXX(s, range, pred) returns true exactly when isXXX(s, range) does and every complete code point of s satisfies pred, whatever the encoding of s.", "quantifier": "every string, range and predicate in every encoding", "why_tests_cant": "Predicate and scanner interplay for all code points, including those outside the BMP.", "anchors": ["source/string.cxx", "source/encoding_check_predicate.cxx"]}
{"id": "C24", "title": "Predicate combination means conjunction", "statement": "A predicate built from validIf/validIfNot followed by any chain of andIf/andIfNot accepts a character exactly when every condition in the chain holds; the order of the chain is irrelevant; the default predicate accepts everything.", "quantifier": "every chain of conditions and every character", "why_tests_cant": "Chains are unbounded and conditions can repeat or conflict.", "anchors": ["source/encoding_check_predicate.cxx", "interface/string.hxx: EncodingCheckPredicate"]}
{"id": "C25", "title": "Assigned characters follow UnicodeData", "statement": "For each supported Unicode version, validIf(kIsAssigned) accepts a code point exactly when that version's UnicodeData.txt lists it (outside surrogates and private use).", "quantifier": "every 32-bit value for each of ten Unicode versions", "why_tests_cant": "The tests cover the selected version only; the property is over every value including those above 0x10FFFF and all versions.", "anchors": ["source/bits*/char_is_unicode.cxx: isUnicodeAssigned", "source/bits*/UnicodeData.txt"]}
{"id": "C26", "title": "Private use, control and white space classification", "statement": "kIsPrivate holds exactly for U+E000..F8FF, U+F0000..FFFFD, U+100000..10FFFD; kIsControl exactly for 0..1F and 7F..9F; kIsWhitespace exactly for the characters with the Unicode White_Space property; the char16_t and char32_t overloads agree.", "quantifier": "every 16-bit and 32-bit value, each Unicode version", "why_tests_cant": "2^32 values in ten configurations.", "anchors": ["source/bits*/char_is_unicode.cxx"]}
{"id": "C27", "title": "Lower-casing follows UnicodeData", "statement": "For each supported version toLower maps each character to its simple lower-case mapping in that version's UnicodeData.txt and every character without one to itself.", "quantifier": "every 32-bit value, each Unicode version", "why_tests_cant": "Hand-written ranges and arithmetic over a large domain.", "anchors": ["source/bits*/char_to_lower.cxx: toLower"]}
{"id": "C28", "title": "Turkic lower-casing differs only on I", "statement": "Under a Turkic language code toLower maps I to dotless i and dotted capital I to i, and every other character as without a language; exactly tr, az, tt, kk, tur, tat, kaz, aze, azb, azj are Turkic codes.", "quantifier": "every character and every language string", "why_tests_cant": "All possible language strings and characters.", "anchors": ["source/bits*/char_to_lower.cxx: turkicToLower", "source/string_tolower.cxx: isTurkicLang"]}
{"id": "C29", "title": "Lower-casing is idempotent", "statement": "toLower(toLower(s, lang), lang) == toLower(s, lang).", "quantifier": "every string, language and Unicode version", "why_tests_cant": "Must hold at every character.", "anchors": ["source/string_tolower.cxx", "source/bits*/char_to_lower.cxx"]}
{"id": "C30", "title": "Lower-casing preserves structure and commutes with encoding", "statement": "toLower keeps the number of code points, acts on each code point independently (toLower(a+b) == toLower(a)+toLower(b)), and lower-casing in UTF-8 or UTF-16 gives the encoding of lower-casing in UCS-4.", "quantifier": "every valid string in every encoding", "why_tests_cant": "All strings; a mapping onto an invalid value would break it silently.", "anchors": ["source/string_tolower.cxx"]}
{"id": "C31", "title": "Split and join are inverse", "statement": "join(split(s, d), d) == s for every string and delimiter; split(join(v, d), d) == v for every non-empty vector v other than one empty string whose elements do not contain d.", "quantifier": "every string, vector of strings and delimiter", "why_tests_cant": "Unbounded strings with delimiters at every combination of positions.", "anchors": ["interface/string_splitjoin.hxx: split", "interface/string_splitjoin.hxx: join"]}
{"id": "C32", "title": "Split pieces are delimiter-free and complete", "statement": "split of a non-empty string gives exactly one more piece than there are delimiters, no piece contains the delimiter; split of the empty string gives no pieces.", "quantifier": "every string and delimiter", "why_tests_cant": "All positions of delimiters.", "anchors": ["interface/string_splitjoin.hxx: split"]}
{"id": "C33", "title": "Trim removes exactly the outer blanks", "statement": "trim(s), trim(s, spaces) and the white-space variants leave s without its maximal prefix and suffix of blanks and change nothing inside; the result neither starts nor ends with a blank, and trimming again changes nothing.", "quantifier": "every string and blank set", "why_tests_cant": "Any arrangement of blanks.", "anchors": ["interface/string_trim.hxx"]}
{"id": "C34", "title": "UTF-8 white space trimming", "statement": "trimWhiteSpace on UTF-8 gives the same text as trimming the decoded text, and never alters text between the outer blanks.", "quantifier": "every valid UTF-8 string", "why_tests_cant": "All code points and lengths.", "anchors": ["interface/string_trim.hxx: trimWhiteSpace(utf8String&)"]}
{"id": "C35", "title": "Code page conversion", "statement": "toUtf8(s, kSrcCP1252/kSrcCP1250) encodes each byte as its code page character, returns the empty string exactly if an undefined byte occurs, always yields valid UTF-8, and is injective; kSrcUnicode copies; other values give the empty string.", "quantifier": "every byte string and source encoding value", "why_tests_cant": "All 256^n byte strings.", "anchors": ["source/string_toutf8.cxx"]}
{"id": "C36", "title": "Conversions distribute over concatenation", "statement": "For a valid and complete a, converting a+b gives the conversion of a followed by the conversion of b (when b is valid), and isXXX(a+b) holds exactly when isXXX(b) does.", "quantifier": "every pair of strings", "why_tests_cant": "All pairs of strings.", "anchors": ["source/string.cxx"]}
{"id": "C37", "title": "Assigned characters and lower-case mappings are stable across versions", "statement": "A code point assigned in one supported Unicode version is assigned in every later supported one, and a character lower-cased in one version is lower-cased the same way in later ones.", "quantifier": "every code point and pair of versions", "why_tests_cant": "Ten separately compiled configurations that never run together.", "anchors": ["source/bits*/char_is_unicode.cxx", "source/bits*/char_to_lower.cxx"]}
{"id": "C38", "title": "wchar_t conversions", "statement": "The wchar_t overloads behave as the char16_t (16-bit wchar_t) or char32_t (32-bit wchar_t) functions: toWstring/from-wstring round trip and reject what those reject.", "quantifier": "every wide string, both wchar_t widths", "why_tests_cant": "One platform's tests exercise only one width.", "anchors": ["interface/string.hxx: wchar_t overloads"]}
{"id": "C39", "title": "TCHAR conversions", "statement": "The TCHAR helpers terminate and return the text in the build's TCHAR encoding.", "quantifier": "every string, _UNICODE and _MBCS builds", "why_tests_cant": "Windows-only code that is not compiled elsewhere; non-termination cannot be shown by a test.", "anchors": ["interface/string.hxx: toTstring etc."]}
{"id": "C40", "title": "Single-character encode/decode is a bijection", "statement": "Each value 1..0x7fffffff outside the surrogates has exactly one UTF-8 encoding produced by toUtf8, of the standard length, distinct values have distinct encodings, and for Unicode scalar values it is the standard encoding.", "quantifier": "every 31-bit value", "why_tests_cant": "2^31 values.", "anchors": ["source/string_internal.hxx: encodeUtf8", "source/string_decode_utf8.cxx"]}
{"id": "C41", "title": "Conversions give all of the text or nothing", "statement": "Each conversion between UTF-8, UTF-16, UCS-2 and UCS-4 returns the encoding of all the characters of its source if every one of them exists in the target encoding (a truncated character at the very end is dropped), and the empty string otherwise; it never returns part of a text or skips characters.", "quantifier": "every source string, each of the eight conversions", "why_tests_cant": "The position and kind of an offending character and the text around it are unbounded.", "anchors": ["source/string.cxx: toUtf8, toUcs2, toUtf16, toUcs4"]}
{"id": "C42", "title": "The reported Unicode version is that of the tables", "statement": "getUnicodeVersionSupported returns N.0.0 where N is the version of the UnicodeData.txt that the classification and lower-casing of the build follow; no two builds with different tables report the same version.", "quantifier": "every supported Unicode version", "why_tests_cant": "A test builds one version; that the report goes with the tables is a statement about all ten builds and every character.", "anchors": ["source/string.cxx: getUnicodeVersionSupported", "source/bits*/char_is_unicode.cxx: supportedUnicodeVersion"]}
{"id": "C43", "title": "Lower-casing keeps text valid", "statement": "Every predicate (assigned, private, control, white space and their combinations) says the same of a character and of its lower case, so a validator gives the same answer for a text and for its lower-cased form, for every range except ASCII; ASCII text stays ASCII unless the language is Turkic.", "quantifier": "every text in UTF-8, UTF-16 and UCS-4, every range, predicate and language, every Unicode version", "why_tests_cant": "Holds for every mapping of ten versions against every class, and for every text and predicate.", "anchors": ["source/string_tolower.cxx: toLower", "source/string.cxx: isUtf8, isUtf16, isUcs4", "source/encoding_check_predicate.cxx"]}
{"id": "C44", "title": "Cutting UTF-8 text anywhere leaves readable text", "statement": "If a UTF-8 string reads as characters (possibly with a truncated sequence at the end), every prefix of it, cut at any byte, is accepted by the validator too, and converts to a prefix of the characters; nothing before the cut is altered and at most the one character that was cut is lost.", "quantifier": "every accepted UTF-8 text and every position to cut it at", "why_tests_cant": "Every text times every position; streaming code relies on it for inputs no test has.", "anchors": ["source/string.cxx: isUtf8", "source/string.cxx: toUtf16, toUcs4"]}
{"id": "C45", "title": "Cutting UTF-16, UCS-2 and UCS-4 text anywhere leaves readable text", "statement": "If a UTF-16 string is accepted, every prefix is accepted and its characters are a prefix of the characters of the whole; the same holds of UCS-2 and UCS-4 with every range and predicate.", "quantifier": "every accepted text and every position to cut it at", "why_tests_cant": "Every text times every position.", "anchors": ["source/string.cxx: isUtf16, isUcs2, isUcs4"]}
{"id": "C46", "title": "Splitting on a character never cuts another", "statement": "Splitting UTF-8 text on an ASCII character, or UTF-16 text on a character of the BMP, gives exactly the encodings of the pieces that splitting the sequence of characters on that character gives; so splitting commutes with conversion. Joining encoded pieces gives the encoding of the joined pieces.", "quantifier": "every text, every such delimiter, every list of pieces", "why_tests_cant": "The delimiter must not be found within the encoding of any of the 1114112 characters, in any context.", "anchors": ["interface/string_splitjoin.hxx: split, join"]}
{"id": "C47", "title": "Trimming removes whole characters", "statement": "Trimming UTF-8 text of an ASCII character, or UTF-16 text of a character of the BMP, gives exactly the encoding of the sequence of characters trimmed of that character.", "quantifier": "every text and every such character", "why_tests_cant": "As C46, for both ends of every text.", "anchors": ["interface/string_trim.hxx: trim"]}
{"id": "C48", "title": "Leaving out the target range asks for the string's own encoding", "statement": "The validators called with a string and a predicate, without a target range, accept a string exactly when it is text in that encoding and every character satisfies the predicate; leaving out the predicate too asks for nothing else. The overloads for pointers agree with those for strings.", "quantifier": "every string, every predicate, all sixteen overloads", "why_tests_cant": "Every string and predicate; a wrong constant in one inline overload shows only on characters that tell the ranges apart.", "anchors": ["interface/string.hxx: isUtf8, isUtf16, isUcs2, isUcs4 (inline overloads and default arguments)"]}
{"id": "C49", "title": "trimWhiteSpace and the white-space predicate mean the same characters", "statement": "A character at the end of a string is removed by trimWhiteSpace exactly when the predicate kIsWhitespace holds of it.", "quantifier": "every character, string and Unicode version", "why_tests_cant": "Two lists of characters, one in a template, one in ten tables, must agree on every character.", "anchors": ["interface/string_trim.hxx: trimWhiteSpace", "source/encoding_check_predicate.cxx", "source/bits*/char_is_unicode.cxx"]}
{"id": "C50", "title": "The table of valid code points used by the tests", "statement": "From UnicodeData.txt the tool mkUnicodeTestData makes the C array of the code points of all its lines, in order and without omissions or repetitions, except lines whose name says Surrogate or Private, followed by the sentinel 0xFFFFFFFF. It does so whether or not the last line ends in a newline, and however long the lines are.", "quantifier": "every file of lines code;name or code;name;rest, and every other file", "why_tests_cant": "A missing or repeated row only shows up as a code point the tests never try.", "anchors": ["mkUnicodeTestData/mkUnicodeTestData.cxx: process"]}
{"id": "C51", "title": "Converting keeps the sort order", "statement": "If one text sorts before another, so do the converted texts, where strings are compared unit by unit as std::basic_string::operator< does for unsigned units.", "quantifier": "every pair of texts in UCS-4, UTF-8, UCS-2, UTF-16", "why_tests_cant": "Relates two arbitrary strings and their images.", "anchors": ["source/string.cxx: toUtf8, toUtf16, toUcs2, toUcs4"]}
{"id": "C52", "title": "Searching converted text finds the same places", "statement": "A converted text occurs in another converted text exactly where the one text occurs in the other: no match begins or ends inside a character.", "quantifier": "every pair of texts and every position in the larger one", "why_tests_cant": "A false match needs two texts whose encodings overlap in the middle of a character.", "anchors": ["source/string.cxx: toUtf8, toUtf16, toUcs4"]}
{"id": "C53", "title": "ASCII is the same in all encodings", "statement": "ASCII text is accepted by all validators for all target ranges, keeps the value of each unit in all conversions, and its length in code points is its number of units; only ASCII text is accepted for the range ASCII.", "quantifier": "every string of units 1 to 127, every encoding and range", "why_tests_cant": "Strings of any length.", "anchors": ["source/string.cxx: toUtf8, toUtf16, toUcs2, toUcs4, isUtf8, isUtf16, isUcs2, isUcs4, unicodeLength"]}
{"id": "C54", "title": "Sizes of converted strings", "statement": "Converting UTF-8 gives at most one unit per byte; UTF-16 at most three bytes of UTF-8 or one UCS-4 unit per unit; UCS-4 at most six bytes of UTF-8 (four for Unicode text), two units of UTF-16 or one of UCS-2 per unit; and convertible text needs at least one unit per character. All bounds are reached.", "quantifier": "every string, valid or not", "why_tests_cant": "A buffer sized by a bound that one string exceeds overflows only on that string.", "anchors": ["source/string.cxx: toUtf8, toUtf16, toUcs2, toUcs4", "interface/internal/string_decode_utf8.hxx"]}
{"id": "C55", "title": "Lower-casing commutes with converting and keeps lengths", "statement": "Converting text between UTF-8 and UTF-16 and lower-casing it can be done in either order; lower-casing keeps the number of code points, and of UTF-16 units, and at most doubles the number of UTF-8 bytes.", "quantifier": "every text, version and language", "why_tests_cant": "Two composed functions over all texts and ten sets of tables.", "anchors": ["source/string_tolower.cxx: toLower", "source/string.cxx: toUtf8, toUtf16, unicodeLength", "source/bits*/char_to_lower.cxx"]}
{"id": "C56", "title": "Different texts never become the same", "statement": "If two strings convert to the same non-empty result they are the same text: the same units up to the first NUL for UCS-4 sources, the same up to a high surrogate at the very end for UTF-16 sources, and the same characters for UTF-8 sources.", "quantifier": "every pair of strings, valid or not, all eight conversions", "why_tests_cant": "A collision needs two particular strings out of all pairs.", "anchors": ["source/string.cxx: toUtf8, toUtf16, toUcs2, toUcs4"]}
{"id": "C57", "title": "A predicate object stands for the conditions given to it", "statement": "After any sequence of default-constructing, making, copying, assigning and narrowing predicate objects, each object holds of exactly the characters that satisfy all conditions collected along its history; andIf and andIfNot narrow the object they are called on and return a copy; no other object changes.", "quantifier": "every program of such statements, every object and character", "why_tests_cant": "Histories of any length with any aliasing.", "anchors": ["source/encoding_check_predicate.cxx: andIf, andIfNot", "interface/string.hxx: EncodingCheckPredicate, validIf, validIfNot"]}
{"id": "C58", "title": "One more condition only narrows", "statement": "A string accepted by a validator with a predicate narrowed by one more condition is also accepted with the predicate as it was.", "quantifier": "every predicate a program can make, every condition, range, string and validator", "why_tests_cant": "All strings and predicates.", "anchors": ["source/encoding_check_predicate.cxx: andIf, andIfNot, operator()", "source/string.cxx: isUtf8, isUtf16, isUcs2, isUcs4"]}
{"id": "C59", "title": "Comparing without regard to case", "statement": "Whether two texts are equal after lower-casing does not depend on the encoding in which they are compared, nor on how the characters are written in UTF-8; for ASCII text and a language that is not Turkic, lower-casing changes A to Z into a to z and nothing else.", "quantifier": "every pair of texts, language, version of Unicode and encoding", "why_tests_cant": "All pairs of texts over all characters.", "anchors": ["source/string_tolower.cxx: toLower", "source/string.cxx: toUtf8, toUcs4"]}
{"id": "C60", "title": "Text converted from a code page", "statement": "Text converted from code page 1252 or 1250 has as many code points and UTF-16 units as it had bytes and at most three bytes of UTF-8 for each; converting concatenated texts gives the concatenated results; ASCII text is unchanged for every source encoding, and text in 1252 without the bytes 80 to 9F is read as Latin-1.", "quantifier": "every NUL-terminated byte string in which all bytes are defined in the code page (the bound on the size: every string)", "why_tests_cant": "All strings of any length.", "anchors": ["source/string_toutf8.cxx: toUtf8(const char*, SourceEncoding)", "source/string.cxx: unicodeLength"]}
{"id": "C61", "title": "Pieces, trimmed and joined texts are accepted like their sources", "statement": "If a validator accepts a text for a range and predicate, it accepts each piece of the text split at a delimiter (ASCII for UTF-8, of the BMP for UTF-16) and the text trimmed of such characters; accepted texts joined by an accepted delimiter are an accepted text.", "quantifier": "every complete text, delimiter, range and predicate, in the four encodings", "why_tests_cant": "All texts and delimiters, any number of pieces.", "anchors": ["interface/string_splitjoin.hxx: split, join", "interface/string_trim.hxx: trim", "source/string.cxx: isUtf8, isUtf16, isUcs2, isUcs4"]}
{"id": "C62", "title": "How the character classes lie to one another", "statement": "What is assigned is a Unicode scalar value that is neither private nor a noncharacter; control characters and white space are assigned and not private; the control characters that are white space are exactly tab to carriage return and next line.", "quantifier": "every code point and every supported version of Unicode", "why_tests_cant": "A fact about all 2^32 values of ten tables.", "anchors": ["source/encoding_check_predicate.cxx: operator()", "source/bits7 to source/bits16: tables"]}
{"id": "C63", "title": "The exit code of mkUnicodeTestData", "statement": "mkUnicodeTestData exits with 0 exactly when it has written the table; with another number of arguments it exits with 1, without an input file or one it cannot read with 2, if the output file cannot be created with 3, and then leaves the output file alone.", "quantifier": "every command line, input file and state of the file system", "why_tests_cant": "The error paths depend on the file system, and no test runs the tool.", "anchors": ["mkUnicodeTestData/mkUnicodeTestData.cxx: main"]}
{"id": "C64", "title": "Programs that handle text do not depend on the encodings", "statement": "A program that converts, lower-cases, trims, splits, joins, concatenates and compares strings through the library, in whatever encodings it keeps them, computes what it would compute on lists of characters: its conditions come out the same, it ends on the same condition, and its variables hold the same texts, each in its encoding.", "quantifier": "every program with branches and loops, every choice of UTF-8, UTF-16 or UCS-4 for each variable and moment, every well-formed content of the variables, every supported version of Unicode and every language argument", "why_tests_cant": "It is a statement about all programs and all their histories.", "anchors": ["interface/string.hxx: toUtf8, toUtf16, toUcs4, toLower, unicodeLength, isUtf8, isUtf16, isUcs4", "interface/string_splitjoin.hxx: split, join", "interface/string_trim.hxx: trim, trimWhiteSpace"]}
{"id": "C65", "title": "Text that is accepted stays accepted under later versions of Unicode", "statement": "Text that a validator accepts with a predicate when the library is built for one version of Unicode it accepts when built for any later version, unless the predicate asks for unassigned characters. If the predicate says nothing about assigned characters the version makes no difference at all. Every later version accepts some text that the earlier one rejects.", "quantifier": "every string, every pair of supported versions, every range and every predicate a program can build", "why_tests_cant": "It compares ten builds of the library on all strings.", "anchors": ["source/string.cxx: isUtf8, isUtf16, isUcs2, isUcs4", "source/encoding_check_predicate.cxx: operator()", "source/bits7 to source/bits16: tables"]}
{"id": "C66", "title": "The character tables have no undefined behaviour and do not depend on the signedness of char", "statement": "Each function of the character tables (assigned, private use, control, white space, lower case, Turkic lower case), called with any argument of its parameter type, returns a value: there is no signed overflow, no shift by too much, no end of a function without return. The value is the same whether the platform's char is signed or unsigned.", "quantifier": "every supported Unicode version, every function and overload of the tables, every argument of its type, both kinds of char", "why_tests_cant": "There are more than four billion arguments for each of the functions and ten versions, tests run on platforms with one kind of char, and undefined behaviour need not show.", "anchors": ["source/bits7 to source/bits16: char_is_unicode.cxx, char_to_lower.cxx", "source/bits16/char_is_unicode.cxx: isUnicodeAssigned, isUnicodePrivate, isControlChar, isWhitespaceChar", "source/bits16/char_to_lower.cxx: toLower, turkicToLower"]}
{"id": "C67", "title": "Every call of the library terminates, without undefined behaviour, with one outcome on all platforms", "statement": "A call of any function of interface/string.hxx (validation, conversion, code pages, counting, lower-casing, predicates, version, and the wchar_t overloads; those for Windows only excepted) with strings, with pointers to texts that end with a NUL, or with null pointers terminates and returns a value; there is no out-of-bounds read, no signed overflow, no use of an uninitialised variable. So does a call of trim, trimAscii7WhiteSpace, trimWhiteSpace and join, and of split with fewer than 2^31 delimiters. Null char16_t and char32_t pointers given to unicodeLength, and null pointers given to the wchar_t overloads that keep the encoding, are the exceptions. The outcome of every call, also of those with a length, is determined: it is the same whether char is signed or unsigned, and it depends on nothing but the arguments, the Unicode version the library was built for and, for the wchar_t overloads, the width of wchar_t. The outcome is the one that the other properties describe.", "quantifier": "every supported Unicode version, every overload, all arguments of any length, both kinds of char, both widths of wchar_t", "why_tests_cant": "There are infinitely many texts, undefined behaviour need not show when a test meets it, and tests run on platforms with one kind of char.", "anchors": ["interface/string.hxx", "source/string.cxx", "source/string_internal.hxx", "source/string_decode_utf8.cxx", "source/encoding_check_predicate.cxx", "source/string_toutf8.cxx", "source/string_tolower.cxx", "source/bits7 to source/bits16", "interface/string_trim.hxx", "interface/string_splitjoin.hxx"]}
{"id": "C68", "title": "The functions for Windows change no other call", "statement": "In a build for Windows, whatever TCHAR is, a call of a function or member that the library also has on other platforms with a 16-bit wchar_t has the same outcome as there: the additional overloads of isUtf16, isUcs2, isUcs4 and toUtf8 for char, and isTstring and toTstring, take no call away from another overload, neither in the program of a user nor inside the library.", "quantifier": "every supported Unicode version, every function and overload, all arguments, both kinds of char, no TCHAR, _MBCS and _UNICODE builds", "why_tests_cant": "Overload resolution depends on the platform, and the tests cannot run all calls on both.", "anchors": ["interface/string.hxx: #if defined(WIN32)"]}
{"id": "C69", "title": "Comparing predicates compares their conditions", "statement": "For predicates made with validIf, validIfNot, andIf, andIfNot or the default constructor, p == q is true exactly when both have conditions on the same classes of characters and ask for the presence of the same ones; for conditions that do not contradict each other: when both have the same conditions, in any order and however often given. p != q is the opposite. A predicate is equal to itself and to its copies, and being equal is symmetric and transitive. Comparing changes neither predicate. Equal predicates give the same answers for all characters and in all functions; predicates that give the same answers for all characters need not be equal.", "quantifier": "every supported Unicode version, all chains of conditions of any length, all pairs of predicate objects, also an object and itself", "why_tests_cant": "There are infinitely many chains, and a test compares only those it names.", "anchors": ["source/encoding_check_predicate.cxx: EncodingCheckPredicate::operator==", "interface/string.hxx: EncodingCheckPredicate::operator!="]}
{"id": "C70", "title": "Calls from several threads do not disturb one another", "statement": "The library has no state that calls share: a call changes nothing but the result it returns and what it was given by a reference that is not const (the string given to a trim function, the predicate for which andIf or andIfNot is called). So threads may call the library at the same time, also with the same strings and predicates as arguments, as long as no thread changes a variable that another one uses: there is no data race, each thread ends with the results it would have had alone, these are the same for every schedule, and no thread waits for another.", "quantifier": "every supported Unicode version, both widths of wchar_t, any number of threads, all programs that consist of calls of the library, all arguments, every order in which calls begin and end", "why_tests_cant": "There are too many schedules to try, and a test cannot choose them; a data race need not show when a test meets it.", "anchors": ["interface/string.hxx", "interface/string_trim.hxx", "interface/string_splitjoin.hxx", "source/string.cxx", "source/string_toutf8.cxx: static const tables", "source/encoding_check_predicate.cxx"]}
{"id": "C71", "title": "mkUnicodeTestData on a disk that fills up", "statement": "If the disk has not enough room for the table, or writing fails from some byte on, the output file holds the beginning of what would have been written otherwise, up to the last byte that could be stored; no other file changes; and the tool says so with an exit code other than 0. With enough room the table is complete.", "quantifier": "every supported Unicode version, all arguments, all contents of the disk, every number of bytes after which the disk is full", "why_tests_cant": "A test can fill a disk at a few points, not at every byte, and only with some input files.", "anchors": ["mkUnicodeTestData/mkUnicodeTestData.cxx: process, main"]}
{"id": "C72", "title": "The library can be used before main", "statement": "A call of a function of the library from the initialiser of a global, before the globals of the library itself have been initialised, has the same outcome as later.", "quantifier": "every supported Unicode version, all functions and overloads, all arguments, both widths of wchar_t, whatever is in the memory of a global that has not been initialised", "why_tests_cant": "The order in which the globals of different files are initialised is up to the linker; a test has one order only.", "anchors": ["source/bits*/char_is_unicode.cxx: supportedUnicodeVersion", "source/string_internal.hxx: supportedUnicodeVersion", "source/string.cxx: getUnicodeVersionSupported", "interface/string.hxx", "interface/string_trim.hxx", "interface/string_splitjoin.hxx"]}
{"id": "C73", "title": "Results stand on their own", "statement": "What a function of the library returns (a string, a list of strings, a number, a truth value, a predicate) is a value of its own: it holds no pointer or reference to an argument, to a part of an argument or to something in the library. So it remains what it is when the arguments are changed or cease to exist, and whatever calls follow.", "quantifier": "all functions and overloads of the library, both widths of wchar_t, Windows with every setting of TCHAR, every supported Unicode version, all arguments, all sequences of calls that follow", "why_tests_cant": "A result that refers to an argument looks right until the argument changes or its memory is used again; a test would have to do this after every call of every overload, and what it sees in freed memory is up to chance.", "anchors": ["interface/string.hxx", "interface/string_trim.hxx", "interface/string_splitjoin.hxx", "interface/string.hxx: EncodingCheckPredicate", "source/encoding_check_predicate.cxx: andIf, andIfNot", "source/string.cxx: getUnicodeVersionSupported"]}
{"id": "C74", "title": "Long texts need no deeper stack", "statement": "However long its arguments are, a call of the library never has more than eight calls of functions of the library inside each other, itself included, and none of its counted loops has more rounds than the arguments have characters, and eight more. So a long text cannot exhaust the stack.", "quantifier": "all functions and overloads of the library, all arguments of any length, both widths of wchar_t, Windows with every setting of TCHAR, every supported Unicode version, char signed or not", "why_tests_cant": "A function that calls itself once per character passes every test with short texts, and how long a text must be to exhaust the stack depends on the platform; a test has only so many lengths.", "anchors": ["interface/string.hxx", "interface/string_trim.hxx", "interface/string_splitjoin.hxx", "source/string.cxx", "source/string_toutf8.cxx", "source/string_tolower.cxx", "source/encoding_check_predicate.cxx", "interface/string.hxx: toTstring (_MBCS)"]}
{"id": "C75", "title": "No operand changes what another operand uses", "statement": "Where C++ leaves open which operand of an operator, or which argument of a call, is evaluated first, no expression of the library has an operand or argument that changes something another one uses. So there is no unsequenced change (undefined behaviour), and no place where two compilers could choose different results.", "quantifier": "all expressions in all functions, constructors, default arguments and initializers of the library's text (without the generated tables), both widths of wchar_t, Windows with every setting of TCHAR", "why_tests_cant": "A test is compiled by one compiler, which picks one order; another compiler, version or optimization level may pick another one.", "anchors": ["interface/string_splitjoin.hxx: split", "interface/string_trim.hxx", "source/encoding_check_predicate.cxx", "source/string.cxx", "source/string_toutf8.cxx", "source/string_tolower.cxx"]}
