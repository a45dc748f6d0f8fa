# Formal model of ANSAKsoftware/ansak-string: design

Source: `/repo` (C++11). Prover: Lean 4.33.0, Lake project in `lean/`.

## How the code is modelled

* Units are bit vectors: `Byte = BitVec 8` (`char`, read as `unsigned char`), `U16 = BitVec 16`
  (`char16_t`), `U32 = BitVec 32` (`char32_t`, `unsigned int`). Arithmetic that C++ does after
  integer promotion is done in `Nat` on `.toNat`; every narrowing cast is an explicit `BitVec.ofNat w`.
* A pointer into a buffer is the list of units from the pointer to the end of the *allocated* buffer.
  `*p` is the head, `++p` the tail, `p[k]` the k-th element, a pointer difference is a difference of
  lengths. Reading where the list is empty is an out-of-bounds read. `nullptr` is `none`.
* Results are `Res α = ok a | ub`. `ub` is undefined behaviour (out-of-bounds read, null
  dereference). Memory-safety theorems say "the result is not `ub`".
* `basic_string s` has `c_str() = s ++ [0]`. The overloads taking `basic_string` call the pointer
  overloads on that buffer, as in the source.
* Every loop is a total recursive function over the suffix list. Termination is checked by Lean.
* The Unicode tables (`source/bits7..bits16`) are in Lean as text (`Verif/Model/Cxx/Source*.lean`).
  `Verif/Model/Cxx` has a lexer, a parser and the meaning of the part of C++ they use, with the signedness of
  `char` as a parameter and undefined behaviour as `none`.
* The same tables are translated by `tools/gen_tables.py` into decision trees (`Verif/Model/CExpr.lean`), which
  the library functions use. The kernel proves for each of the twenty files that the translation is what the text
  means (`Verif/Lemmas/Cxx`): a proved-sound compiler from the parsed text to trees is evaluated on the file
  and its result compared with the translation.
* The library functions are parametric in the Unicode version.
* The files of the library proper are in Lean as text too (`Verif/Model/Cpp/Source.lean`). `Verif/Model/Cpp` has a lexer
  and a parser for the part of C++ they use, and a semantics: classes, templates, overloads, references, pointers,
  loops, integer promotions, the signedness of `char` as a parameter. `Verif/Model/Cpp/Link.lean` links the text of the
  library with the text of the tables of a version. For every overload of every function it is proved that running
  the text has the outcome of the hand-written model: the same value, or undefined behaviour as well (C67). So the
  theorems about the model are theorems about the text, and they are restated in that form (`Cnn_text…`).
* What `interface/string.hxx` has for Windows only is in `Verif/Model/Cpp/SourceWindows.lean`. It comes after the text of
  the library. That this changes no other call (C68) follows from a theorem about the semantics (`Lemmas/Cpp/Order`): a call
  with an outcome keeps it in a program with more functions, if these fit no call that had a meaning. The order of the
  functions does not matter to the semantics; where it does matter in C++, for the recursive `toTstring` of `_MBCS`, the text
  is cut after the function (`Source.untilMbcs`).
* The tool `mkUnicodeTestData` is in Lean as text too (`Verif/Model/Tool/Source.lean`), with a parser and a semantics of its
  own: files, `stat`, streams, messages, the exit code. Its calls of `split` run the text of the library. C50, C63 and C71 are
  stated for the text of the tool (`C50_text…`, `C63_text…`, `C71_text…`).

## How properties are stated and proved

* `Verif/Spec/*.lean` holds a small independent specification: RFC 2279 UTF-8 encoding by
  division/remainder, UTF-16 encoding, well-formed text as concatenation of encodings, incomplete
  tails as proper prefixes of encodings, target ranges as sets of numbers, UnicodeData range tables.
* `Verif/Props/*.lean` holds the property theorems only, each followed by a concrete `example`
  that meets the hypotheses. `Verif/Lemmas/*.lean` holds helper lemmas.
* Loops are characterised by induction on the string. No size bounds anywhere.
* Finite tables (code pages, Unicode tables) are settled by kernel evaluation of a *complete* check
  over the whole domain (interval certificates with a proved-sound checker), then lifted to all values.
* Where the code violates a property, the negation is proved with a concrete witness
  (`..._violated`) and the strongest true part is proved as `..._partial`.

## Plan per property

Common ground for C01-C24, C36, C40: `decodeUtf8` is characterised once. On a NUL-terminated
suffix exactly one of three things happens: it consumes one accepted encoding (`Spec.Utf8Char`), it
reports the terminating NUL inside a truncated sequence, or it fails. Every UTF-8 loop is then
evaluated by induction on the resulting scan of the string. The UTF-16, UCS-2 and UCS-4 loops are
structurally recursive and evaluated the same way.

| id | modelled | how it is proved |
|---|---|---|
| C01 | `decodeUtf8`, `toUcs4(char)` | scan induction; converse by determinism of the scan; what counts as an incomplete tail is spelled out exactly |
| C02 | internal `isUtf8` | scan induction with range flags translated to number ranges |
| C03, C04, C05, C06, C07 | all `toXXX` | each conversion is a function of the code point list; compose |
| C08, C09 | `isXXX` and `toXXX` | compose the exactness theorems; witnesses where the flags are too generous |
| C10 | null-terminated forms | result is `ok` on every buffer containing a NUL, and independent of what follows the first NUL (so nothing behind it is read) |
| C11 | length-terminated forms | result on a buffer of exactly n units is not `ub`; witnesses for the over-reads |
| C12 | all | result on `s ++ 0 :: post` does not depend on `post` |
| C13, C14 | all | evaluation |
| C15 | `isXXX` | inclusion of the range flags, induction over the scan |
| C16 | UTF-8 functions | from C01/C02: such strings have no scan; conversely a string without scan has one of the listed malformations |
| C17, C18 | UTF-16/UCS loops | list induction |
| C19, C20, C22 | `unicodeLength` | scan induction; witnesses for the off-by-one on a truncated tail |
| C21 | length-terminated `isUtf8` | scan induction on `(p, n)`; witnesses for disagreements |
| C23 | `isXXX` with predicate | scan induction; witness for UTF-16 pairs |
| C24 | `EncodingCheckPredicate` | bit-mask algebra; witness for contradictory chains |
| C25, C26, C27, C29, C37 | ten `char_is_unicode.cxx`, `char_to_lower.cxx`, as text and as decision trees | complete kernel check with a verified interval evaluator against tables generated from UnicodeData.txt |
| C28, C30 | `string_tolower.cxx` | case analysis, map algebra |
| C31, C32 | `split`, `join` templates | list induction |
| C33, C34 | `trim*` templates; `Spec/Shared` for `trim(s, s)`, where both arguments are one object | list induction, composition with C05/C07; that no other function can be given one object twice is checked over all functions of the text |
| C35 | `toUtf8(SourceEncoding)` | complete check of both 256-entry tables, list induction |
| C36 | all conversions | append lemma on the scan |
| C38 | `wchar_t` wrappers, both widths | composition |
| C39 | TCHAR wrappers, `_UNICODE` and `_MBCS` | composition; non-termination shown with fuel |
| C40 | `encodeUtf8`, `decodeUtf8` | arithmetic; agreement with Lean's own `String.utf8EncodeChar` for scalar values |
| C41 | all conversions | scan composition |
| C42 | `getUnicodeVersionSupported` | case analysis over the versions; a character of each version that the one before lacks |
| C43 | `toLower` with the validators and predicates | complete kernel check of the classes of every mapping, lifted to strings |
| C44, C45 | validators, conversions | a prefix of a scan is a scan |
| C46, C47 | `split`, `join`, `trim` on encoded text | units that occur only as a whole character: list induction over the encoding |
| C48 | inline overloads and default arguments of `string.hxx` | composition with C02, C17, C18, C23 |
| C49 | `trimWhiteSpace` with `kIsWhitespace` | composition of C33 and C26; witness for the difference |
| C50 | `process` of `mkUnicodeTestData` with `getline` and stream states; the text of the tool, linked with that of the library | induction on the rows; fuel-free statement of non-termination; the text runs like the model, for every number of rounds |
| C51 | conversions, order of strings as lists | first differing character decides; order of the encodings of two characters |
| C52 | conversions, occurrences as `a ++ t ++ b` | encodings are synchronised: a proper suffix of a character never begins one |
| C53 | conversions, validators, `unicodeLength` | composition with C01 to C09, C17 to C19 |
| C54 | conversions | induction on the scans |
| C55 | `toLower` with conversions and `unicodeLength` | composition of C42 with C05 to C07; sizes by the tables as a whole |
| C56 | conversions | encodings are injective: from the order (C51) and the uniqueness of scans |
| C57 | predicate objects as variables, programs as lists of statements | refinement: induction on the program with the conditions of each variable as abstract state |
| C58 | predicates with the validators | from C57 and C23 |
| C59 | `toLower` and comparison of strings | encodings are injective (C56) and lower-casing works on characters (C43, C55); ASCII by evaluating the 128 entries of each table |
| C60 | `toUtf8` from a code page with `unicodeLength` and `toUtf16` | from C34 and C35: each byte becomes one character of the BMP |
| C61 | `split`, `join`, `trim` with the validators | from C46 and C47: acceptance is a condition on each character |
| C62 | predicate and the tables of all versions | range arithmetic on the tables, checked by the kernel over each whole table |
| C63 | `main` of the tool, with the file system as a parameter; the text of the tool on a disk | case analysis, with C50 for the content; an outcome of the text does not depend on the limit of rounds |
| C64 | a small language of programs on top of conversions, `toLower`, `trim`, `split`, `join`, validators and `unicodeLength` | refinement: induction on the run, with lists of characters as abstract state; for the text of the library, runs are a relation (`Verif/Spec/ProgramText.lean`) and each call has the outcome of the text |
| C65 | validators with the predicates of C57, for two versions | the tables of each version include those of the one before (range arithmetic checked by the kernel) |
| C66 | the text of the twenty table files, with lexer, parser and meaning in Lean | compiler from the text to decision trees, proved sound, evaluated by the kernel on each whole file |
| C67 | the text of the library and of the tables, with lexer, parser, semantics and linking in Lean | symbolic execution in the kernel: each function is followed through its syntax tree, loops by induction; then equality with the hand-written model |
| C68 | the text of the library with and without the functions for Windows | induction over the semantics: a call keeps its outcome when functions are added |
| C69 | the text of `operator==` and `operator!=`, also for an object compared with itself, and the ways to make predicates | the bit sets of a chain are determined by its conditions, and determine them |
| C70 | the syntax trees of the library; threads whose steps are the beginning and the end of calls of the text | what each function changes is computed from its tree by the kernel; induction over schedules |
| C71 | the text of the tool on a disk with limited room | a run with and without the limits does the same up to what is stored |
| C72 | the text of the library, linked with any content of `supportedUnicodeVersion` | the symbolic execution of C67 once more, which holds for every content; also for the text for Windows |
| C73 | the types and the tokens of the text of the library, and sequences of calls as in C70 | every type in the trees and every token looked at (`decide +kernel` over the whole text); induction over the calls that follow |
| C74 | the text of the library, with separate limits for calls inside each other and for the rounds of loops | the symbolic execution of C67 once more, with eight calls inside each other and any number of rounds |
| C75 | the text of the library: what each operand and argument uses and changes, read off the text on the safe side | a check of the whole parsed text in the kernel (the text is finite; there are no inputs) |

Where the code departs from a property, theorems named `…exact…` give the result for every input all the same
(`Props/LengthExact`, `Props/LowerExact`, `Props/TextExact`).

## Trusted base

* Lean 4.33.0's kernel. `vcheck` replays every declaration through it.
* Axioms: the theorems named in `MANIFEST.json` depend on at most `propext`, `Classical.choice` and
  `Quot.sound`, Lean's standard three (most on all three, some on fewer, a few on none). No axiom is
  added; there is no `sorry`, `admit`, `native_decide`, `bv_decide`, `implemented_by` or `unsafe`.
  `decide +kernel` is used for whole finite tables; it is evaluation by the kernel itself.
* The specification in `lean/Verif/Spec/*.lean`: it is what the theorems mean. It is short and refers to
  the model only where a type has to be named (`Version`, `Ptr`) and, in `Spec/Chain`, `Spec/History` and
  `Spec/Program`, where the programs of a user are described as sequences of calls to it.
* The model in `lean/Verif/Model/*.lean`: that it says what the C++ says. It was written by hand, function
  by function, with the lines of the source beside each definition, except for the Unicode tables. For the functions
  of the library it need not be trusted where C67 applies, nor for the tool in the theorems about its text.
* `Verif/Model/Cpp/{Lex,Parse,Sem,Values,Link}.lean` and `Verif/Spec/Library.lean`: that they read and run the C++ of the
  library as a compiler would. The comment at the head of `Sem.lean` lists the simplifications. What the semantics does
  not know has the outcome `stuck`, and a call that needs more steps than it was given has the outcome `timeout`;
  C67 shows that neither happens. `tools/gen_cpp.py` copies the files into `Verif/Model/Cpp/Source.lean` unchanged, as
  string literals. The syntax trees in `Verif/Model/Cpp/Ast.lean` are not trusted: the kernel checks that parsing the text
  gives them.
* `Verif/Model/Tool/{Parse,Sem,Link}.lean` and `Verif/Spec/Tool.lean`: that they read and run the C++ of the tool as a compiler
  would, with the lexer of the library. Assumed of the standard library and the system: `stat` fails exactly if there is nothing
  in the place a path leads to; `open` of a `filebuf` for writing creates or empties the file, or fails; nothing throws, so
  that the handlers are never entered; what is written to a file that could be opened is there when the tool ends, as far as
  there is room for it (`Disk.room`), and an error while reading is like the end of the file; nobody else uses the disk. `tools/gen_tool.py` copies the file.
* `Verif/Model/Cxx/{Lex,Parse,Sem}.lean`: that they read and run the C++ of the table files as a compiler would. They
  cover what the files use: comments, preprocessor lines and `using` skipped, functions of one parameter, `if`,
  `switch` with fall-through, local variables, integer operators with promotion and conversion, overloads.
  Anything else makes the parser fail, and then no theorem about the file could be proved.
* `tools/gen_source.py` copies the twenty files into `Verif/Model/Cxx/Source*.lean` unchanged, as string literals.
  The macro `cxx%` turns a literal into numbers, eight characters each.
* `tools/gen_tables.py` with `tools/cxx_tables.py`: the translation of the ten `UnicodeData.txt` files to
  `Verif/Spec/UnicodeData/V*.lean`. What the scripts say about the C++ files (`Verif/Model/Unicode/Bits*.lean`,
  `Verif/Lemmas/Unicode/Cert*.lean`, `Verif/Lemmas/Cxx/Check*.lean`) is not trusted: the kernel checks it.

## What is modelled

| source | model | remarks |
|---|---|---|
| `interface/internal/string_decode_utf8.hxx`, `source/string_decode_utf8.cxx` | `Model/Cpp/*`; `Model/DecodeUtf8` | complete |
| `source/string_internal.hxx` | `Model/Cpp/*`; `Model/Internal`, `Model/StringIs`, `Model/Predicate` | the templates are instantiated at the three character types; `CharacterAdder` is appending to a list |
| `source/encoding_check_predicate.cxx` | `Model/Cpp/*`; `Model/Predicate`, `Model/PredicateObjects` | complete; as values, and as objects that `andIf`/`andIfNot` change |
| `source/string.cxx` | `Model/Cpp/*`; `Model/StringIs`, `Model/StringTo`, `Model/UnicodeLength` | complete, including the length-terminated forms |
| `source/string_toutf8.cxx` | `Model/Cpp/*`; `Model/CodePage` | complete, both tables |
| `source/string_tolower.cxx` | `Model/Cpp/*`; `Model/ToLower` | complete |
| `source/bits7..16/char_is_unicode.cxx`, `char_to_lower.cxx` | `Model/Cxx/*`; `Model/CExpr`, `Model/Unicode/Bits*`, `Model/Unicode` | complete: the text itself, and a translation of it that is proved to be right; the version is a parameter |
| `interface/string_splitjoin.hxx` | `Model/Cpp/*`; `Model/SplitJoin` | for each character type; `int` overflow is undefined behaviour |
| `interface/string_trim.hxx` | `Model/Cpp/*`; `Model/Trim` | complete |
| `interface/string.hxx` | `Model/Cpp/*`; `Model/Predicate`, `Model/StringIs`, `Model/Wide`, `Model/Defaults` | enums, inline overloads, both `wchar_t` widths, `_MBCS` and `_UNICODE` |
| `mkUnicodeTestData/mkUnicodeTestData.cxx` | `Model/Tool/*`; `Model/MkTestData`, `Model/MkTestDataMain` | complete; the file system is a parameter; the messages only in `Model/Tool` |

## What is not modelled

* Memory allocation: strings never fail to grow; `bad_alloc`, `length_error` and sizes beyond `max_size`
  do not occur.
* Time and space, apart from the number of calls inside each other and of the rounds of a loop (C74). Termination is proved by Lean's acceptance of the loops, except for the `_MBCS` overloads,
  whose non-termination is the subject of C39.
* Undefined behaviour without an observable effect in practice: forming the pointer one before the start of
  a buffer (`test - 1`, `src - 1` in `source/string.cxx`), aliasing through `reinterpret_cast` between
  `wchar_t` and `char16_t`/`char32_t`.
* Evaluation with `char` signed or unsigned, in the hand-written model: there all arithmetic goes through
  `unsigned char`. In the semantics of the text it is a parameter, and C67 is for both.
* In the semantics of the text: the order of declarations (a function can call every other one; the only functions of the
  library for which this makes a difference are those of `Source.untilMbcs`; this was found by listing, for every function,
  the overloads declared later that a call in it could mean, and reading those calls, and is not proved); the order of evaluation of operands (left to
  right is assumed; that no operand or argument changes what another one uses is proved of the text, C75; that another order
  therefore has the same outcome is not proved); object lifetimes;
  aliasing: a reference is copied in and out, except that `trim(s, s)`, the only call of the library in which it could make a
  difference (`C33_text_only_shared`), is also run with one object for both arguments. An argument of a member function can be the very object for which it is called
  (`p == p`), so that `this == &other` has both outcomes.
* Concurrency inside a call. That calls share no state that changes is proved from the text (C70); a call that begins and ends
  is what threads are made of. In `Verif/Model/Cpp` an assignment to a name that is not a variable of the function would do
  nothing, and `static` is dropped: C70 shows that there is no such assignment and that everything `static` is constant.
* The build system, the packaging and the unit tests. Of the tool `mkUnicodeTestData`: what is on the disk before
  the tool ends. A write error is a limit of the room in that place (C71), so what has been stored then is a beginning of what
  would have been stored without the error.
* That the tables, which are arrays of constants, are initialised before anything runs; C72 uses this. A global that is not yet
  constructed is taken to have any content; reading it is undefined behaviour in C++.
* `EncodingCheckPredicate` values made by casting integers outside the enumeration are covered (the type
  is `Int`); objects of the class made by other means than its constructors and methods are not.

## Checks of the semantics and of the theorems

These are tests, not proofs; no theorem depends on them.

* `tools/run_tests.py` interprets the unit tests of `/repo/test/unit` (in Python) and runs the calls they make of the library in
  the semantics of the text (the server is `tools/server.txt`), for `char` signed and unsigned, both widths of `wchar_t` and
  the versions of Unicode that a test is for (the longest loops for one of these settings only). All expectations of the
  tests are met: 35397110 in char_is_unicode_test, 38440 in encode_predicate_test, 4880 in string_decode_utf8_test, 1480 in
  string_splitjoin_test, 2280 in string_trim_test, 960 in string_with_predicate_test, 1220 in string_wchar_tchar, 10156 in
  the ten files string_tolower_test7 to …test16, 4828928 in string_test. Not run: `IsUnicodeTest.testIsUnicode`, which
  needs the output of the tool for UnicodeData.txt, and the tests for Windows.
* `seeded/LOG.jsonl`: edits of the model and of the text of the library in the way of a realistic bug, with the theorems that
  fail, one line per attempt. The attempts M, N, P and T were made on copies of the model as it was then, so names of theorems
  may have changed since; where `theorems_failed` is empty and `built` is given, only the refutation was tried. In some
  attempts proofs fail but no statement is refuted: this shows that the proofs notice the edit, not that the statements do. For
  each of these edits a later attempt refutes a statement, or the edit changes nothing. The entries A… were found by reading.
  `seeded/TEXT.jsonl`: 1996 edits of the text made by a script (an operator, a constant, a name, a statement); 1721
  are refuted by running the edited text on inputs for which the theorems say the outcome, 135 cannot be parsed or linked, so
  that no theorem about them could be proved, and 140 have the same outcomes (unreachable or equivalent code). Another 463 edits
  of the tool: 320 are refuted, 5 cannot be parsed, 36 change the layout of the output, 82 a handler that is never entered, and
  20 have the same outcomes. Another 394 edits of what the header has for Windows (`W…`): 382 are refuted and 12 have the same
  outcomes.

## Where the code and the properties disagree

Each entry is proved: the theorem is in brackets.

1. `isUtf8` and `isUcs4` with `kUtf16` accept values above U+10FFFF (up to U+13FFFF in UTF-8, U+1FFFFF in
   UCS-4); `toUtf16` then returns an empty string. [`C02_utf16_violated`, `C08_utf8_to_utf16_violated`,
   `C08_ucs4_to_utf16_violated`, `C18_isUcs4_violated`, `C38_accepted_violated`,
   `C38_isWstring_violated`]
2. `isUtf16` asks the predicate about the high surrogate instead of the character.
   [`C23_isUtf16_violated`, for all ten versions `C23_isUtf16_violated_all`]
3. `toUtf8(const char16_t*)` encodes a lone low surrogate, and so emits invalid UTF-8.
   [`C07_unvalidated_violated`, `C09_utf16_to_utf8_violated`, `C41_utf16_to_utf8_violated`]
4. `unicodeLength` of text that ends in a truncated sequence is one less than the number of complete
   characters, 4294967295 if there is none. The unit tests expect this. [`C20_nul_terminated_violated`]
5. `unicodeLength(const char16_t*, n)` reads the unit after the end; the length-terminated `isUtf8` and
   `unicodeLength` read past the end of a truncated sequence; a length of 0 means "null-terminated".
   [`C11_violated`, `C11_unicodeLength16_violated`, `C11_zero`]
6. `unicodeLength` of a null `char16_t` or `char32_t` pointer dereferences it. [`C13_unicodeLength_violated`]
7. The length-terminated `unicodeLength` does not return 0 for an invalid first byte. [`C22_utf8_violated`]
8. The length-terminated `isUtf8` accepts some malformed strings the null-terminated one rejects, and anything
   whose first byte is NUL. Contrary to the header it targets `kUtf8`, not `kUnicode`.
   [`C21_agrees_violated`, `C21_nul_violated`, `C21_unicode_only_violated`]
9. The null-terminated `isUtf8` accepts truncated tails that no continuation could complete
   (`C0`, `E0 80`, `ED B0`). [`C01_strict_violated`, `C02_tail_violated`]
10. `validIf(X).andIfNot(X)` means "is X", not "nothing". [`C24_contradiction_violated`]
11. `join` with the delimiter 0 joins without delimiter; `split` overflows an `int` at 2^31 pieces.
    [`C31_nul_violated`, `C31_overflow_violated`]
12. `trimWhiteSpace` on UTF-8 empties strings that cannot be converted. [`C34_violated`]
13. `toLower` maps U+00D7 to U+00F7 and four lower-case letters (U+1E96, 98, 9A, 9C) to other letters; version 7
    maps code points it does not know; versions 11 to 16 miss capitals that were new in them; version 16 maps
    three unassigned code points. The list is exact.
    [`C27_toLower_violated`, `C27_multiplication_sign_violated`, `C27_ucs4_violated`]
14. Five wide-character overloads copy from a null pointer they have accepted.
    [`C38_w16_null_violated`, `C38_w32_null_violated`]
15. `_MBCS`: `toTstring` of a string never returns; `isTstring` accepts text that `toTstring` drops.
    `_UNICODE`: `toTstring` of UTF-16 is unchecked. Both accept a null pointer and copy from it.
    [`C39_mbcs_diverges_violated`, `C39_mbcs_accepted_violated`, `C39_unicode_violated`, `C39_text_mbcs_null_violated`,
    `C39_text_unicode_violated`, `C74_text_windows_violated`]
16. `unicodeLength(const char32_t*)` counts values above U+10FFFF. [`C19_ucs4_violated`]
17. `trimWhiteSpace` leaves six characters that `kIsWhitespace` calls white space: VT, FF, U+0085, U+1680,
    U+2028 and U+2029. The header lists what is trimmed, so this is a difference between two parts of the
    interface, not a slip in the code. [`C49_violated`, exact list `C49_difference_partial`]
18. `mkUnicodeTestData` does not terminate if the last line of its input has no newline; a line of more than ten characters
    without a semicolon is undefined behaviour; a line of at most ten characters ends the table, whatever comes after it; if
    the first line is empty, no table is written. If both names lead to the same file, it is emptied. The exit code is 0.
    [`C50_text_no_newline_violated`, `C50_text_field_violated`, `C50_text_short_violated`, `C50_text_empty_violated`,
    `C50_text_same_file_violated`; these and the files for which it works are all files, `C50_text_cases`]
19. UTF-16 units do not sort like the code points (U+E000 before U+10000), nor does UTF-8 with surrogate pairs in
    3-byte form, which the library accepts and which also defeats searching for the same character in its
    4-byte form. [`C51_utf16_violated`, `C51_pair_violated`, `C52_pair_violated`]
20. `andIf` and `andIfNot` narrow the object they are called on ("narrow the functor" in the header), so two
    predicates derived from a common one are not independent; and `validIfNot(X).andIf(X)` accepts what
    `validIfNot(X)` rejects. [`C57_shared`, `C58_contradiction_violated`]
21. `mkUnicodeTestData` expects `filebuf::open` to throw; it returns a null pointer instead, so the tool exits with 0
    after doing nothing. Called without even a name (`argc == 0`) it prints a null pointer.
    [`C63_text_open_violated`, `C63_text_no_name_violated`] Nor does it ask whether what it wrote could be stored: on a full disk
    it exits with 0 and leaves the beginning of the table. [`C71_text_full_violated`]
22. `getUnicodeVersionSupported` copies the global `supportedUnicodeVersion`, a `std::string` that a constructor initialises; called
    from the initialiser of another global it may find it not yet constructed. [`C72_text_version_violated`]
