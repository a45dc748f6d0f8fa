import Verif.Model.Cxx.Lex

/-!
# The source text of the library

The files as they are, in pieces (`tools/gen_cpp.py`). What `interface/string.hxx` has for `wchar_t` depends on the
platform (`#if WCHAR_MAX < 0x10000`); what it has for Windows only (`#if defined(WIN32)`) is in
`Verif.Model.Cpp.SourceWindows`.
-/

namespace Ansak.Cpp.Source

open Cxx (Text)

/-- `interface/string.hxx:1-84`. -/
def interface0 : Text := cxx% r#"///////////////////////////////////////////////////////////////////////////
//
// Copyright (c) 2015-2021, Arthur N. Klassen
// All rights reserved.
//
// Redistribution and use in source and binary forms, with or without
// modification, are permitted provided that the following conditions are met:
// 
// 1. Redistributions of source code must retain the above copyright notice,
//    this list of conditions and the following disclaimer.
//
// 2. Redistributions in binary form must reproduce the above copyright notice,
//    this list of conditions and the following disclaimer in the documentation
//    and/or other materials provided with the distribution.
//
// THIS SOFTWARE IS PROVIDED BY THE COPYRIGHT HOLDERS AND CONTRIBUTORS "AS IS"
// AND ANY EXPRESS OR IMPLIED WARRANTIES, INCLUDING, BUT NOT LIMITED TO, THE
// IMPLIED WARRANTIES OF MERCHANTABILITY AND FITNESS FOR A PARTICULAR PURPOSE
// ARE DISCLAIMED. IN NO EVENT SHALL THE COPYRIGHT HOLDER OR CONTRIBUTORS BE
// LIABLE FOR ANY DIRECT, INDIRECT, INCIDENTAL, SPECIAL, EXEMPLARY, OR
// CONSEQUENTIAL DAMAGES (INCLUDING, BUT NOT LIMITED TO, PROCUREMENT OF
// SUBSTITUTE GOODS OR SERVICES; LOSS OF USE, DATA, OR PROFITS; OR BUSINESS
// INTERRUPTION) HOWEVER CAUSED AND ON ANY THEORY OF LIABILITY, WHETHER IN
// CONTRACT, STRICT LIABILITY, OR TORT (INCLUDING NEGLIGENCE OR OTHERWISE)
// ARISING IN ANY WAY OUT OF THE USE OF THIS SOFTWARE, EVEN IF ADVISED OF THE
// POSSIBILITY OF SUCH DAMAGE.
//
///////////////////////////////////////////////////////////////////////////
//
// 2014.10.08 - First version
//
//    May you do good and not evil.
//    May you find forgiveness for yourself and forgive others.
//    May you share freely, never taking more than you give.
//
///////////////////////////////////////////////////////////////////////////
//
// string.hxx -- manage any incoming string claiming to be of any unicode
//               compatible encoding and re-encode it to the known state of
//               your choice.
//               strings (either null-terminated or basic_string<C>) that
//               pass the isXXX tests are guaranteed to re-encode in the
//               target encoding.
//               partial escapes in a string are failures, partial escapes
//               at the end of a string are ignored.
//
///////////////////////////////////////////////////////////////////////////

#pragma once

#include <string>
#include <stdint.h>

namespace ansak {

///////////////////////////////////////////////////////////////////////////
// String Types

using utf8String = std::string;
using utf16String = std::u16string;
using ucs2String = std::u16string;
using ucs4String = std::u32string;

///////////////////////////////////////////////////////////////////////////
// Enumerations

///////////////////////////////////////////////////////////////////////////
// enum RangeType
//
// Enumeration values to communicate what kind of a string one wants to
// validate to.
//
///////////////////////////////////////////////////////////////////////////

enum RangeType : int {
    kAscii,                 // 0x00..0x7f
    kUtf8,                  // 8-bit encoding of 0x00000000 .. 0x7fffffff
    kUcs2,                  // 0x0000..0xd7ff; 0xe000..0xffff
    kUtf16,                 // 16-bit encoding of 0x0000..0xd7ff; 0xe000..0x10ffff
    kUcs4,                  // 0x00000000..0xffffffff
    kUnicode,               // 0x000000-0x00d7ff; 0x00e000..0x10ffff

    kFirstInvalidRange
};
"#

/-- `interface/string.hxx:85-163`. -/
def interface1 : Text := cxx% r#"
///////////////////////////////////////////////////////////////////////////
// enum EncodingType
//
// Enumeration values to communicate what validation, beyond ranges of
// values one wants to validate to.
//
///////////////////////////////////////////////////////////////////////////

enum EncodingType : int {
    kIsNone,
    kIsAssigned,
    kIsPrivate,
    kIsControl,
    kIsWhitespace,

    kFirstInvalidEncoding
};

///////////////////////////////////////////////////////////////////////////
// class EncodingCheckPredicate
//
// A functor to validate individual characters based on EncodingType.
//
///////////////////////////////////////////////////////////////////////////

class EncodingCheckPredicate {

    // private constructor (called by factory method "checkIf" and "checkIfNot"
    EncodingCheckPredicate
    (
        EncodingType    t,                  // I - what range to check for
        bool            checkForIt = true   // I - for presence? or absence
    );

public:

    // default constructor gives a no-check-predicate
    EncodingCheckPredicate() : m_mask(0), m_value(0) {}

    // Creates a functor to check if a character IS of a certain type
    static EncodingCheckPredicate checkIf(EncodingType toCheckFor)
    {
        return EncodingCheckPredicate(toCheckFor);
    }
    // Creates a functor to check if a character IS NOT of a certain type
    static EncodingCheckPredicate checkIfNot(EncodingType toCheckFor)
    {
        return EncodingCheckPredicate(toCheckFor, false);
    }

    // Appendors to narrow the functor to check if a character IS (or IS NOT)
    // ALSO of a certain type
    EncodingCheckPredicate andIf
    (
        EncodingType    toCheckFor      // I - an additional range to check for
    );
    EncodingCheckPredicate andIfNot
    (
        EncodingType    toCheckFor      // I - an additional range to check for
    );

    // EncodingCheckPredicate orIf(EncodingCheckPredicate other);

    // Comparision, mostly to short-circuit checking for a null predicate once
    // outside a tight loop (!= also provided by convention)
    bool operator==(const EncodingCheckPredicate& other) const;
    bool operator!=(const EncodingCheckPredicate& other) const { return !operator==(other); }

    // Invoke the functor (not a template to keep the implementation private)
    bool operator()(char c) const;
    bool operator()(char16_t c) const;
    bool operator()(char32_t c) const;

private:

    uint32_t                m_mask;         // one predicate's mask value
    uint32_t                m_value;        // masked result to check for
};
"#

/-- `interface/string.hxx:164-213`. -/
def interface2 : Text := cxx% r#"
///////////////////////////////////////////////////////////////////////////
// EncodingCheckPredicate out-of-class factories (syntactic sugar)
//
// Delegates to the class factories (so they don't have to be friends) so that
// users don't have to type the class name which would cloud their meaning at
// point of use.
//
// When constructing predicates for isUtf8, isUcs2, isUtf16 and isUcs4, use
// validIf or validIfNot and append additional simultaneous conditions as '.' +
// andIf() or andIfNot as needed.
//
// So, to check if an incoming UCS-4 string is valid and could be re-encoded
// as UCS-2 (Basic Multilingual Plane only), you could write:
//
// if (isUcs4(inputString, kUcs2, validIf(kIsAssigned)
//                                  .andIfNot(kIsControl)
//                                  .andIfNot(kIsWhitespace))
// {
//      return toUcs4(inputString);
// }
//
// see the Unit Test file, string_with_predicate_test.cxx and the
// testCombinedFlagsPredicate method in encode_predicate_test.cxx for more
// examples.
//
///////////////////////////////////////////////////////////////////////////

inline EncodingCheckPredicate validIf(EncodingType toCheckFor)
{
    return EncodingCheckPredicate::checkIf(toCheckFor);
}

inline EncodingCheckPredicate validIfNot(EncodingType toCheckFor)
{
    return EncodingCheckPredicate::checkIfNot(toCheckFor);
}

///////////////////////////////////////////////////////////////////////////
// enum SourceEncoding
//
// Enumeration describing what single-byte encoding a string comes from.
//
///////////////////////////////////////////////////////////////////////////

enum SourceEncoding : int {
    kSrcUnicode,
    kSrcCP1252,
    kSrcCP1250
};
"#

/-- `interface/string.hxx:214-251`. -/
def interface3 : Text := cxx% r#"
///////////////////////////////////////////////////////////////////////////
// Public Methods

///////////////////////////////////////////////////////////////////////////
// getUnicodeVersion function
//
// Report what Unicode version is supported.
///////////////////////////////////////////////////////////////////////////

utf8String getUnicodeVersionSupported();

///////////////////////////////////////////////////////////////////////////
// is<RangeType> functions
//
// Each of these scans the incoming data-type, basic_string<C> and const C*
// type, and determines if the data is valid for the RangeType, further
// checking to see if the result is compatible with a target encodoing type.
//
// Using the defaulted parameter, the result is a bare check of the correct-
// ness of the encoding.
//
// They return true for empty strings and for strings that are encoded
// entirely correctly when the resulting target values are entirely
// compatible with the target encoding type parameter. Incomplete encoding
// sequences at the end-of-string are ignored if they could have been
// completed for the intended targetRange. They return false otherwise.
//
// Added syntactic-sugar so that string + encoding check predicate is all
// that is required, if the target stays the same.

bool isUtf8
(
    const utf8String&   test,                   // I - the source
    RangeType           targetRange = kUtf8,    // I - optional target range
    const EncodingCheckPredicate&               // I - optional validity check
                        pred = EncodingCheckPredicate()
);
"#

/-- `interface/string.hxx:252-350`. -/
def interface4 : Text := cxx% r#"
inline bool isUtf8
(
    const utf8String&               test,       // I - the source
    const EncodingCheckPredicate&   pred        // I - validity check
) { return isUtf8(test, kUtf8, pred); }

bool isUtf8
(
    const char*     test,                   // I - the 0-terminated source
    RangeType       targetRange = kUtf8,    // I - optional target range
    const EncodingCheckPredicate&           // I - optional validity check
                    pred = EncodingCheckPredicate()
);

inline bool isUtf8
(
    const char*                     test,       // I - the source
    const EncodingCheckPredicate&   pred        // I - validity check
) { return isUtf8(test, kUtf8, pred); }

bool isUtf8
(
    const char*     test,                   // I - the length terminated source
    unsigned int    testLength,             // I - the length
//  RangeType       encoding = kUnicode,    // I - always targets kUnicode
    const EncodingCheckPredicate&           // I - optional validity check
                    pred = EncodingCheckPredicate()
);

////////////////////////////////////////////////////////////////////////////////
// isUtf16

bool isUtf16(const utf16String& test,
             RangeType targetRange = kUtf16,
             const EncodingCheckPredicate& pred = EncodingCheckPredicate());
bool isUtf16(const char16_t* test,
             RangeType targetRange = kUtf16,
             const EncodingCheckPredicate& pred = EncodingCheckPredicate());

inline bool isUtf16(const utf16String& test,
            const EncodingCheckPredicate&  pred) { return isUtf16(test, kUtf16, pred); }
inline bool isUtf16(const char16_t* test,
                    const EncodingCheckPredicate& pred) { return isUtf16(test, kUtf16, pred); }

////////////////////////////////////////////////////////////////////////////////
// isUcs2

bool isUcs2(const ucs2String& test,
            RangeType targetRange = kUcs2,
            const EncodingCheckPredicate& pred = EncodingCheckPredicate());
bool isUcs2(const char16_t* test,
            RangeType targetRange = kUcs2,
            const EncodingCheckPredicate& pred = EncodingCheckPredicate());

inline bool isUcs2(const utf16String& test,
                   const EncodingCheckPredicate& pred) { return isUcs2(test, kUcs2, pred); }
inline bool isUcs2(const char16_t* test,
                   const EncodingCheckPredicate& pred) { return isUcs2(test, kUcs2, pred); }

////////////////////////////////////////////////////////////////////////////////
// isUcs4

bool isUcs4(const ucs4String& test,
            RangeType targetRange = kUcs4,
            const EncodingCheckPredicate& pred = EncodingCheckPredicate());
bool isUcs4(const char32_t* test,
            RangeType targetRange = kUcs4,
            const EncodingCheckPredicate& pred = EncodingCheckPredicate());

inline bool isUcs4(const ucs4String& test,
                   const EncodingCheckPredicate& pred) { return isUcs4(test, kUcs4, pred); }
inline bool isUcs4(const char32_t* test,
                   const EncodingCheckPredicate& pred) { return isUcs4(test, kUcs4, pred); }

///////////////////////////////////////////////////////////////////////////
// to<RangeType> functions
//
// Each of these scans the incoming data-type, basic_string<C> and const C*
// type, re-encoding it as it goes along into RangeType.
//
// The return type is always a value of the appropriate basic_string<D> type.
//
// 8-bit source strings will be  handled correctly as ASCII and/or UTF-8
// 16-bit source strings will be  handled correctly as UCS-2 and/or UTF-16
//
// They return an empty string if any incorrectness in encoding or any
// incompatibility between the resulting bytes and the target encoding type
// emerges. Otherwise, they return the re-encoded string in the appropriate
// basic_string<C> type. Incomplete but potentially valid encoding sequences
// at end-of-string are ignored. 

////////////////////////////////////////////////////////////////////////////////
// toUtf8

utf8String toUtf8
(
    const utf16String&      src         // I - A source basic_string
);
"#

/-- `interface/string.hxx:351-401`. -/
def interface5 : Text := cxx% r#"
utf8String toUtf8
(
    const char16_t*         src         // I - A null-term'd source
);

utf8String toUtf8(const ucs4String& src);
utf8String toUtf8(const char32_t* src);

////////////////////////////////////////////////////////////////////////////////
// toUcs2

ucs2String toUcs2(const utf8String& src);
ucs2String toUcs2(const char* src);
ucs2String toUcs2(const ucs4String& src);
ucs2String toUcs2(const char32_t* src);

////////////////////////////////////////////////////////////////////////////////
// toUtf16

utf16String toUtf16(const utf8String& src);
utf16String toUtf16(const char* src);
utf16String toUtf16(const ucs4String& src);
utf16String toUtf16(const char32_t* src);

////////////////////////////////////////////////////////////////////////////////
// toUcs4

ucs4String toUcs4(const utf8String& src);
ucs4String toUcs4(const char* src);
ucs4String toUcs4(const utf16String& src);
ucs4String toUcs4(const char16_t* src);

///////////////////////////////////////////////////////////////////////////
// unicodeLength
//
// Finds the number of Unicode code points in a UTF-8 or UTF-16 string.
// Returns 0 when it encounters invalid encoding sequences

////////////////////////////////////////////////////////////////////////////////
// for utf8

unsigned int unicodeLength
(
    const utf8String&       src         // I - A source basic_string
);
unsigned int unicodeLength
(
    const char*         src,            // I - A null- or length-term'd source
    unsigned int        textLength = 0  // I - length of source, 0 if null-term'd
);
"#

/-- `interface/string.hxx:402-439`. -/
def interface6 : Text := cxx% r#"
////////////////////////////////////////////////////////////////////////////////
// for utf16

unsigned int unicodeLength(const utf16String& src);
unsigned int unicodeLength(const char16_t* src, unsigned int testLength = 0);

////////////////////////////////////////////////////////////////////////////////
// for ucs4

unsigned int unicodeLength(const ucs4String& src);
unsigned int unicodeLength(const char32_t* src, unsigned int testLength = 0);

///////////////////////////////////////////////////////////////////////////
// toLower function
//
// Lower-cases a string, with sensitivity to an incoming language ID. Only
// Azerbaizhani, Turkish, Tatar and Kazakh are tracked in order to support
// dotted/dotless-I behaviour; all other languages seem to peacefully
// co-exist. This is "officially correct" for Azeri and Turkish and Crimean
// Tatar. Tatar-in-Russia officially uses Cyrillic but adopted Turkish
// behaviour in Latin alphabets in the past. Kazakh officially uses
// Cyrillic but official documents that use a Latin alphabet also follow
// Turkish behaviour.
//
// Turkish behaviour is selected by passing in a pointer to "az", "aze",
// "azj", "azb", "kk", "kaz", "tt", "tat", "tr" or "tur". Any other value
// selects non-Turkish behaviour.
///////////////////////////////////////////////////////////////////////////

////////////////////////////////////////////////////////////////////////////////
// for utf8

utf8String toLower
(
    const utf8String&       src,            // I - the source
    const char*             lang = nullptr  // I - the optional language code
);
"#

/-- `interface/string.hxx:440-472`. -/
def interface7 : Text := cxx% r#"
////////////////////////////////////////////////////////////////////////////////
// for utf16

utf16String toLower
(
    const utf16String&      src,            // I - the source
    const char*             lang = nullptr  // I - the optional language code
);

////////////////////////////////////////////////////////////////////////////////
// for ucs4

ucs4String toLower
(
    const ucs4String&       src,            // I - the source
    const char*             lang = nullptr  // I - the optional language code
);

////////////////////////////////////////////////////////////////////////////////
// isXxxxx and toXxxxx for wchar_t -- Doing as well as we can with a bad deal
//
// wchar_t is a bad data type because it used to be 16-bits everywhere and now
// it's 32-bits everywhere. except Windows.
// In practice, on macOS, NSstrings are really UTF-16 strings, too, yet clang
// and gcc there use 32-bit wchar_t's, but I digress.
//
// What is presented here is an adaptation of the rest of the API, suited to
// dealing with wchar_t (and std::wstring) in a compiler independent way.
//
// The isXxxxx APIs cover all four data-types, but under the hood they call
// isUcs4 or isUtf16 with an appropriate RangeType, so as to help the user
// decide when a string can be convertible to one of the four canonical types.
"#

/-- `interface/string.hxx:1016-1028`. -/
def interfaceEnd0 : Text := cxx% r#"
///////////////////////////////////////////////////////////////////////////
// toUtf8 function
//
// Converts a single-byte-encoded string to UTF-8, returns as STL string.

utf8String toUtf8
(
    const char*         src,            // I - A source single-byte, null-terminated string
    SourceEncoding      srcType         // I - The source encoding type
);

}
"#

/-- `interface/internal/string_decode_utf8.hxx:1-79`. -/
def decodeHeader0 : Text := cxx% r#"///////////////////////////////////////////////////////////////////////////
//
// Copyright (c) 2016, Arthur N. Klassen
// All rights reserved.
//
// Redistribution and use in source and binary forms, with or without
// modification, are permitted provided that the following conditions are met:
// 
// 1. Redistributions of source code must retain the above copyright notice,
//    this list of conditions and the following disclaimer.
//
// 2. Redistributions in binary form must reproduce the above copyright notice,
//    this list of conditions and the following disclaimer in the documentation
//    and/or other materials provided with the distribution.
//
// THIS SOFTWARE IS PROVIDED BY THE COPYRIGHT HOLDERS AND CONTRIBUTORS "AS IS"
// AND ANY EXPRESS OR IMPLIED WARRANTIES, INCLUDING, BUT NOT LIMITED TO, THE
// IMPLIED WARRANTIES OF MERCHANTABILITY AND FITNESS FOR A PARTICULAR PURPOSE
// ARE DISCLAIMED. IN NO EVENT SHALL THE COPYRIGHT HOLDER OR CONTRIBUTORS BE
// LIABLE FOR ANY DIRECT, INDIRECT, INCIDENTAL, SPECIAL, EXEMPLARY, OR
// CONSEQUENTIAL DAMAGES (INCLUDING, BUT NOT LIMITED TO, PROCUREMENT OF
// SUBSTITUTE GOODS OR SERVICES; LOSS OF USE, DATA, OR PROFITS; OR BUSINESS
// INTERRUPTION) HOWEVER CAUSED AND ON ANY THEORY OF LIABILITY, WHETHER IN
// CONTRACT, STRICT LIABILITY, OR TORT (INCLUDING NEGLIGENCE OR OTHERWISE)
// ARISING IN ANY WAY OUT OF THE USE OF THIS SOFTWARE, EVEN IF ADVISED OF THE
// POSSIBILITY OF SUCH DAMAGE.
//
///////////////////////////////////////////////////////////////////////////
//
// 2016.06.03 - First version
//
//    May you do good and not evil.
//    May you find forgiveness for yourself and forgive others.
//    May you share freely, never taking more than you give.
//
///////////////////////////////////////////////////////////////////////////
//
// string_decode_utf8.hxx -- extracted utf-8 single-point decode routine for
//        internal use in other ANSAK modules, primarily.
//        Pulling ANSAK-string out on its own for consumption by file-of-lines
//        necessitated it. Maybe this API will become public in future.
//
///////////////////////////////////////////////////////////////////////////

#include "string.hxx"

namespace ansak {

namespace internal {

///////////////////////////////////////////////////////////////////////////
// Local Functions

//=========================================================================
// Utility function to decode a single UCS-4 character from "the next
// character" in a 0-terminated string, assumed to be UTF-8.
//
// Returns 0 if no UCS-4 character could be decoded, returns that character
//     otherwise.
// If the null-terminated string ran out of characters, returns 0 and leaves
//     p pointing at the last read character, the null.
// If the UTF-8 character is invalid, i.e. broken in any way, returns 0 and
//     modifies p to equal 0.
// If the UTF-8 character (or characters) are valid, returns that character and
//     p is advanced to point to the last character consumed in decoding.
//
// UTF-8 characters can be broken by:
// 1. not a sequence character -- 0xfe, 0xff
// 2. inappropriate sequences -- starting with 0xa0..0xbf (subsequent byte)
// 3. inappropriate sequences -- not enough subsequent bytes after an initial byte
//                               (0x80..0xdf : 1 byte; 0xe0..0xef : 2 bytes ...)
// 4. UTF-8 sequence leading to broken UTF-16 sequence -- starting with 0xdc00..0xdfff
// 5. UTF-8 sequence leading to broken UTF-16 sequence -- starting with 0xd800..0xdbff
//                               but not continued with 0xdc00..0xdfff

char32_t decodeUtf8
(
    const char*&        p       // I/O - points to current non-null character
);
"#

/-- `interface/internal/string_decode_utf8.hxx:80-83`. -/
def decodeHeader1 : Text := cxx% r#"
}

}
"#

/-- `source/string_internal.hxx:1-76`. -/
def internal0 : Text := cxx% r#"///////////////////////////////////////////////////////////////////////////
//
// Copyright (c) 2015, 2021, Arthur N. Klassen
// All rights reserved.
//
// Redistribution and use in source and binary forms, with or without
// modification, are permitted provided that the following conditions are met:
// 
// 1. Redistributions of source code must retain the above copyright notice,
//    this list of conditions and the following disclaimer.
//
// 2. Redistributions in binary form must reproduce the above copyright notice,
//    this list of conditions and the following disclaimer in the documentation
//    and/or other materials provided with the distribution.
//
// THIS SOFTWARE IS PROVIDED BY THE COPYRIGHT HOLDERS AND CONTRIBUTORS "AS IS"
// AND ANY EXPRESS OR IMPLIED WARRANTIES, INCLUDING, BUT NOT LIMITED TO, THE
// IMPLIED WARRANTIES OF MERCHANTABILITY AND FITNESS FOR A PARTICULAR PURPOSE
// ARE DISCLAIMED. IN NO EVENT SHALL THE COPYRIGHT HOLDER OR CONTRIBUTORS BE
// LIABLE FOR ANY DIRECT, INDIRECT, INCIDENTAL, SPECIAL, EXEMPLARY, OR
// CONSEQUENTIAL DAMAGES (INCLUDING, BUT NOT LIMITED TO, PROCUREMENT OF
// SUBSTITUTE GOODS OR SERVICES; LOSS OF USE, DATA, OR PROFITS; OR BUSINESS
// INTERRUPTION) HOWEVER CAUSED AND ON ANY THEORY OF LIABILITY, WHETHER IN
// CONTRACT, STRICT LIABILITY, OR TORT (INCLUDING NEGLIGENCE OR OTHERWISE)
// ARISING IN ANY WAY OUT OF THE USE OF THIS SOFTWARE, EVEN IF ADVISED OF THE
// POSSIBILITY OF SUCH DAMAGE.
//
///////////////////////////////////////////////////////////////////////////
//
// 2014.10.08 - First version
//
//    May you do good and not evil.
//    May you find forgiveness for yourself and forgive others.
//    May you share freely, never taking more than you give.
//
///////////////////////////////////////////////////////////////////////////
//
// string_internal.hxx -- some enums, templates and inlines to make string.cxx
//                        implementation cleaner
//
///////////////////////////////////////////////////////////////////////////

#pragma once

#include "string.hxx"
#include <functional>

namespace ansak {

namespace internal {

///////////////////////////////////////////////////////////////////////////
// Local Types

//=========================================================================
// flags that show what classifications a particular character can fit into
// (by range)

enum RangeTypeFlags : int {
    kNoFlag =              0x0000,
    kAsciiFlag =           0x0001,
    kUtf8Flag  =           0x0002,
    kUcs2Flag  =           0x0004,
    kUtf16Flag =           0x0008,
    kUcs4Flag  =           0x0010,
    kUnicodeFlag =         0x0020,
    kInvalidRangeFlag =    0x8000,

    k7BitFlags  = kAsciiFlag | kUtf8Flag | kUcs2Flag | kUtf16Flag | kUcs4Flag | kUnicodeFlag,   // 0x3f
    k16BitFlags =              kUtf8Flag | kUcs2Flag | kUtf16Flag | kUcs4Flag | kUnicodeFlag,   // 0x3e
    k21BitFlags =              kUtf8Flag |             kUtf16Flag | kUcs4Flag,                  // 0x1a

    k21BitUnicodeFlags = k21BitFlags | kUnicodeFlag,                             // 0x3a,
    k31BitFlags =              kUtf8Flag |                          kUcs4Flag,   // 0x12
    k32BitFlags =                                                   kUcs4Flag    // 0x10
};
"#

/-- `source/string_internal.hxx:77-147`. -/
def internal1 : Text := cxx% r#"
//=========================================================================
// flags that show what classifications a particular character can fit into
// (by value type)

enum EncodingTypeFlags : int {
    kNoneFlag =             0x0000,
    kIsAssignedFlag =       0x0001,
    kIsPrivateFlag =        0x0002,
    kIsControlFlag =        0x0004,
    kIsWhiteSpaceFlag =     0x0008
};

//=========================================================================
// A utility functor for appending encoded characters to a growing string

template <typename C>
class CharacterAdder
{
    static_assert(std::is_integral<C>::value, "CharacterAdder needs an integral type.");

public:
    CharacterAdder(std::basic_string<C>& result) : m_destination(result) {}
    void operator()(C c) { m_destination.push_back(c); }
private:
    std::basic_string<C>& m_destination;
};

///////////////////////////////////////////////////////////////////////////
// Local Functions

//=========================================================================
// Get current implementation's supported Unicode version string.

extern const utf8String supportedUnicodeVersion;

//=========================================================================
// Returns true if the character is in the selected Unicode 8 standard, false
// otherwise. Note, all 8-bit values are in the standard. Gaps first begin
// after U+0377

inline bool isUnicodeAssigned(char ) { return true; }
bool isUnicodeAssigned(char16_t c);
bool isUnicodeAssigned(char32_t c);

inline bool isUnicodePrivate(char ) { return false; }
bool isUnicodePrivate(char16_t c);
bool isUnicodePrivate(char32_t c);

bool isControlChar(char c);
bool isControlChar(char16_t c);
bool isControlChar(char32_t c);

bool isWhitespaceChar(char c);
bool isWhitespaceChar(char16_t c);
bool isWhitespaceChar(char32_t c);

//=========================================================================
// A utility function to check if a character is allowed within Unicode

template <typename C>
RangeTypeFlags getUnicodeEncodableRangeFlag(C c)
{
    static_assert(std::is_integral<C>::value, "getUnicodeEncodableRangeFlag needs an integral type.");

    if (sizeof(C) == 1 || (c != 0 && (c < 0xd800 || c > 0xdfff) && c < 0x110000))
    {
        return kUnicodeFlag;
    }
    return kNoFlag;
}
"#

/-- `source/string_internal.hxx:148-217`. -/
def internal2 : Text := cxx% r#"
//=========================================================================
// A utility function to check what families of values a character belongs
// to

template <typename C>
RangeTypeFlags getCharEncodableRangeFlags(C c)
{
    static_assert(std::is_integral<C>::value, "getCharEncodableRangeFlags needs an integral type.");

    if (sizeof(C) == 1)
    {
        return ((c & 0x80) == 0) ? k7BitFlags : k16BitFlags;
    }
    else if (c <= 0x7f)
    {
        return k7BitFlags;
    }
    else if (c >= 0xd800 && c <= 0xdfff)
    {
        return kInvalidRangeFlag;
    }
    else if (c < 0x10000)
    {
        return k16BitFlags;
    }
    else if (c < 0x200000)
    {
        return static_cast<RangeTypeFlags>(k21BitFlags | getUnicodeEncodableRangeFlag(c));
    }
    else
    {
        return ((c & 0x80000000) == 0) ? k31BitFlags : k32BitFlags;
    }
}

//=========================================================================
// A utility function to check what families of values a character once
// decoded will belong to

inline RangeTypeFlags getRangeFlag(char firstChar)
{
    auto f = static_cast<unsigned char>(firstChar);
    // start of 2-byte escapes -- anything but ASCII
    if (f <= 0x7f)
    {
        return k7BitFlags;
    }
    else if (f <= 0xbf)
    {
        return kInvalidRangeFlag;
    }
    // 2, 3-byte escapes -- it's a 16-bit value
    else if (f <= 0xef)
    {
        return k16BitFlags;
    }
    // 4-byte escapes, up to 21 bits, could still be unicode
    else if (f >= 0xf0 && f <= 0xf4)
    {
        return k21BitUnicodeFlags;
    }
    // start of 5,6-byte escapes -- anything but ASCII, 2-byte, Unicode
    else if (f >= 0xf5 && f <= 0xfd)
    {
        return k31BitFlags;
    }
    // let the other bits catch the rest
    return kInvalidRangeFlag;
}
"#

/-- `source/string_internal.hxx:218-271`. -/
def internal3 : Text := cxx% r#"
//=========================================================================
// A utility function to check what families of values a character once
// decoded will belong to

inline RangeTypeFlags getRangeFlag(char16_t firstChar)
{
    // start of 21-bit escapes: only work for 21-bit and Unicode
    if (firstChar >= 0xd800 && firstChar <= 0xdbff)
    {
        return k21BitUnicodeFlags;
    }
    else if (firstChar >= 0xdc00 && firstChar <= 0xdfff)
    {
        return kInvalidRangeFlag;
    }
    else if (firstChar <= 0x7f)
    {
        return k7BitFlags;
    }
    return k16BitFlags;
}

//=========================================================================
// A template to generate an encoding mask (isAssigned? isPrivate? isControl?
// isWhitespace?) for any character

template<typename C>
uint32_t charToEncodingTypeMask(C c)
{
    static_assert(std::is_integral<C>::value, "charToEncodingTypeMask needs an integral type.");

    return (isUnicodeAssigned(c) ? kIsAssignedFlag : 0) |
           (isUnicodePrivate(c) ? kIsPrivateFlag : 0) |
           (isControlChar(c) ? kIsControlFlag : 0) |
           (isWhitespaceChar(c) ? kIsWhiteSpaceFlag : 0);
}

//=========================================================================
// Is character (of whatever type) first half of non-BMP UTF-16 pair
// (in range D800..DBFF)
//
// Returns true if in range, false otherwise.

template<typename C>
bool isFirstHalfUtf16
(
    C                   c       // I - character to test
)
{
    static_assert(std::is_integral<C>::value, "isFirstHalfUtf16 needs an integral type.");

    return c >= 0xd800 && c <= 0xdbff;
}
"#

/-- `source/string_internal.hxx:272-318`. -/
def internal4 : Text := cxx% r#"
//=========================================================================
// Is character (of whatever type) second half of non-BMP UTF-16 pair
// (in range DC00..DFFF)
//
// Returns true if in range, false otherwise.

template<typename C>
bool isSecondHalfUtf16
(
    C                   c       // I - character to test
)
{
    static_assert(std::is_integral<C>::value, "isSecondHalfUtf16 needs an integral type.");

    return c >= 0xdc00 && c <= 0xdfff;
}

//=========================================================================
// Utility overloaded functions to convert 2-byte UTF-8 sequences to a single value

inline char16_t rawDecodeUtf8(char c0, char c1)
{
    unsigned char uc0 = c0, uc1 = c1;
    return ((uc0 & 0x1f) << 6) + (uc1 & 0x3f);
}

//=========================================================================
// Utility overloaded functions to convert 3-byte UTF-8 sequences to a single value.
// (Doesn't understand/handle d800-dbff/dc00-dfff pairs in UTF-16)

inline char16_t rawDecodeUtf8(char c0, char c1, char c2)
{
    unsigned char uc0 = c0, uc1 = c1, uc2 = c2;
    return ((uc0 & 0x0f) << 12) + ((uc1 & 0x3f) << 6) + (uc2 & 0x3f);
}

//=========================================================================
// Utility overloaded functions to convert 4-byte UTF-8 sequences to a single value.
// (Doesn't understand 11000 and up are not Unicode)

inline char32_t rawDecodeUtf8(char c0, char c1, char c2, char c3)
{
    unsigned char uc0 = c0, uc1 = c1, uc2 = c2, uc3 = c3;
    return ((uc0 & 0x07) << 18) + ((uc1 & 0x3f) << 12) + ((uc2 & 0x3f) << 6) +
            (uc3 & 0x3f);
}
"#

/-- `source/string_internal.hxx:319-402`. -/
def internal5 : Text := cxx% r#"
//=========================================================================
// Utility overloaded functions to convert 5-byte UTF-8 sequences to a single value.
// (Doesn't understand that these chars are not Unicode)

inline char32_t rawDecodeUtf8(char c0, char c1, char c2, char c3, char c4)
{
    unsigned char uc0 = c0, uc1 = c1, uc2 = c2, uc3 = c3, uc4 = c4;
    char32_t wc0 = uc0, wc1 = uc1, wc2 = uc2, wc3 = uc3, wc4 = uc4;
    return ((wc0 & 0x03) << 24) + ((wc1 & 0x3f) << 18) + ((wc2 & 0x3f) << 12) +
           ((wc3 & 0x3f) << 6) + (wc4 & 0x3f);
}

//=========================================================================
// Utility overloaded functions to convert 6-byte UTF-8 sequences to a single value.
// (Doesn't understand that these chars are not Unicode)

inline char32_t rawDecodeUtf8(char c0, char c1, char c2, char c3, char c4, char c5)
{
    unsigned char uc0 = c0, uc1 = c1, uc2 = c2, uc3 = c3, uc4 = c4, uc5 = c5;
    char32_t wc0 = uc0, wc1 = uc1, wc2 = uc2, wc3 = uc3, wc4 = uc4, wc5 = uc5;
    return ((wc0 & 0x01) << 30) + ((wc1 & 0x3f) << 24) + ((wc2 & 0x3f) << 18) +
           ((wc3 & 0x3f) << 12) + ((wc4 & 0x3f) << 6) + (wc5 & 0x3f);
}

#if defined(_MSC_VER)
// MSVC can't figure out that some code never gets run when the associated
// shift would be too wide and warns needlessly.
#pragma warning( disable : 4333 )
#endif

//=========================================================================
// Utility template function to encode a single UCS-4 character into UTF-8,
// regardless of its value

template <typename C>
void encodeUtf8
(
    C                       c,          // I - A UCS-4 character to encode
    CharacterAdder<char>&   adder       // I/O - A character collecter to add it to
)
{
    static_assert(std::is_integral<C>::value, "encodeUtf8 needs an integral type.");

    if ((c & 0xffffff80) == 0)
    {
        adder(static_cast<char>(c));
    }
    else if (c <= 0x7ff)
    {
        adder(static_cast<char>(((c >> 6) & 0x1f) | 0xc0));
        adder(static_cast<char>((c & 0x3f) | 0x80));
    }
    else if (c <= 0xffff)
    {
        adder(static_cast<char>(((c >> 12) & 0x0f) | 0xe0));
        adder(static_cast<char>(((c >>  6) & 0x3f) | 0x80));
        adder(static_cast<char>((c & 0x3f) | 0x80));
    }
    else if (c <= 0x1fffff)
    {
        adder(static_cast<char>(((c >> 18) & 0x07) | 0xf0));
        adder(static_cast<char>(((c >> 12) & 0x3f) | 0x80));
        adder(static_cast<char>(((c >>  6) & 0x3f) | 0x80));
        adder(static_cast<char>((c & 0x3f) | 0x80));
    }
    else if (c <= 0x3ffffff)
    {
        adder(static_cast<char>(((c >> 24) & 0x03) | 0xf8));
        adder(static_cast<char>(((c >> 18) & 0x3f) | 0x80));
        adder(static_cast<char>(((c >> 12) & 0x3f) | 0x80));
        adder(static_cast<char>(((c >>  6) & 0x3f) | 0x80));
        adder(static_cast<char>((c & 0x3f) | 0x80));
    }
    else if (c <= 0x7fffffff)
    {
        adder(static_cast<char>(((c >> 30) & 0x01) | 0xfc));
        adder(static_cast<char>(((c >> 24) & 0x3f) | 0x80));
        adder(static_cast<char>(((c >> 18) & 0x3f) | 0x80));
        adder(static_cast<char>(((c >> 12) & 0x3f) | 0x80));
        adder(static_cast<char>(((c >>  6) & 0x3f) | 0x80));
        adder(static_cast<char>((c & 0x3f) | 0x80));
    }
}
"#

/-- `source/string_internal.hxx:403-456`. -/
def internal6 : Text := cxx% r#"
#if defined(_MSC_VER)
#pragma warning( default : 4333 )
#endif

//=========================================================================
// Utility function to decode a single UCS-4 character from known UTF-16
// elements.

inline char32_t rawDecodeUtf16
(
    char16_t        c0,         // I - known 0xd800..0xdbff value
    char16_t        c1          // I - known 0xdc00..0xdfff value
)
{
    char32_t wc0 = c0, wc1 = c1;
    return 0x10000 + ((wc0 & 0x3FF) << 10) + (wc1 & 0x3ff);
}

//=========================================================================
// Template Utility function to encode a single UCS-4 character, known to be
// valid for UTF-16 into one or two UTF-16 elements.

template <typename C>
void rawEncodeUtf16
(
    C                           c,          // I - A UCS-4 character to encode
    CharacterAdder<char16_t>    adder       // I/O - A character collecter to add it to
)
{
    static_assert(std::is_integral<C>::value, "rawEncodeUtf16 needs an integral type.");

    if (c < 0x10000)
    {
        adder(static_cast<char16_t>(c));
    }
    else
    {
        c -= 0x10000;
        adder(static_cast<char16_t>(0xd800 + ((c >> 10) & 0x3ff)));
        adder(static_cast<char16_t>(0xdc00 + (c & 0x3ff)));
    }
}

//=========================================================================
// toLower of one character, from a Turkic and non-Turkic point of view.
//
// Returns the value of the lower case form, if any, of the input parameter;
// returns the same character otherwise.

char32_t turkicToLower(char32_t c);
char32_t toLower(char32_t c);

}
"#

/-- `source/string_internal.hxx:457-458`. -/
def internal7 : Text := cxx% r#"
}
"#

/-- `source/string_decode_utf8.cxx:1-201`. -/
def decodeUtf80 : Text := cxx% r#"///////////////////////////////////////////////////////////////////////////
//
// Copyright (c) 2016, Arthur N. Klassen
// All rights reserved.
//
// Redistribution and use in source and binary forms, with or without
// modification, are permitted provided that the following conditions are met:
// 
// 1. Redistributions of source code must retain the above copyright notice,
//    this list of conditions and the following disclaimer.
//
// 2. Redistributions in binary form must reproduce the above copyright notice,
//    this list of conditions and the following disclaimer in the documentation
//    and/or other materials provided with the distribution.
//
// THIS SOFTWARE IS PROVIDED BY THE COPYRIGHT HOLDERS AND CONTRIBUTORS "AS IS"
// AND ANY EXPRESS OR IMPLIED WARRANTIES, INCLUDING, BUT NOT LIMITED TO, THE
// IMPLIED WARRANTIES OF MERCHANTABILITY AND FITNESS FOR A PARTICULAR PURPOSE
// ARE DISCLAIMED. IN NO EVENT SHALL THE COPYRIGHT HOLDER OR CONTRIBUTORS BE
// LIABLE FOR ANY DIRECT, INDIRECT, INCIDENTAL, SPECIAL, EXEMPLARY, OR
// CONSEQUENTIAL DAMAGES (INCLUDING, BUT NOT LIMITED TO, PROCUREMENT OF
// SUBSTITUTE GOODS OR SERVICES; LOSS OF USE, DATA, OR PROFITS; OR BUSINESS
// INTERRUPTION) HOWEVER CAUSED AND ON ANY THEORY OF LIABILITY, WHETHER IN
// CONTRACT, STRICT LIABILITY, OR TORT (INCLUDING NEGLIGENCE OR OTHERWISE)
// ARISING IN ANY WAY OUT OF THE USE OF THIS SOFTWARE, EVEN IF ADVISED OF THE
// POSSIBILITY OF SUCH DAMAGE.
//
///////////////////////////////////////////////////////////////////////////
//
// 2016.06.03 - First version
//
//    May you do good and not evil.
//    May you find forgiveness for yourself and forgive others.
//    May you share freely, never taking more than you give.
//
///////////////////////////////////////////////////////////////////////////
//
// string_decode_utf8.cxx -- extracted utf-8 single-point decode routine for
//        internal use in other ANSAK modules, primarily.
//        Pulling ANSAK-string out on its own for consumption by file-of-lines
//        necessitated it. Maybe this API will become public in future.
//
///////////////////////////////////////////////////////////////////////////

#include "internal/string_decode_utf8.hxx"

#include "string.hxx"
#include "string_internal.hxx"

using namespace std;

namespace ansak {

namespace internal {

//=========================================================================
// Utility function to decode a single UCS-4 character from "the next
// character" in a 0-terminated string, assumed to be UTF-8.
//
// Returns 0 if no UCS-4 character could be decoded, returns that character
//     otherwise.
// If the null-terminated string ran out of characters, returns 0 and leaves
//     p pointing at the last read character, the null.
// If the UTF-8 character is invalid, i.e. broken in any way, returns 0 and
//     modifies p to equal 0.
// If the UTF-8 character (or characters) are valid, returns that character and
//     p is advanced to point to the last character consumed in decoding.
//
// UTF-8 characters can be broken by:
// 1. not a sequence character -- 0xfe, 0xff
// 2. inappropriate sequences -- starting with 0xa0..0xbf (subsequent byte)
// 3. inappropriate sequences -- not enough subsequent bytes after an initial byte
//                               (0x80..0xdf : 1 byte; 0xe0..0xef : 2 bytes ...)
// 4. UTF-8 sequence leading to broken UTF-16 sequence -- starting with 0xdc00..0xdfff
// 5. UTF-8 sequence leading to broken UTF-16 sequence -- starting with 0xd800..0xdbff
//                               but not continued with 0xdc00..0xdfff

char32_t decodeUtf8
(
    const char*&        p       // I/O - points to current non-null character
)
{
    auto uc = static_cast<unsigned char>(*p);
    if (uc <= 0x7f)
    {
        // 7-bit
        return uc;
    }
    else if (uc <= 0xbf)
    {
        // 80..BF are non-first bytes
        p = nullptr; return 0;
    }
    else if (uc <= 0xdf)
    {
        // 2-byte, next 1 must be A0..BF range
        auto uc1 = static_cast<unsigned char>(*++p); if (uc1 == 0) { return 0; }
        if (uc1 < 0x80 || uc1 > 0xbf) { p = nullptr; return 0; }
        auto r = rawDecodeUtf8(uc, uc1);
        if (r < 0x80)
        {
            p = nullptr; return 0;
        }
        return r;
    }
    else if (uc <= 0xef)
    {
        // 3-byte, next 2 must be A0..BF range
        auto uc1 = static_cast<unsigned char>(*++p); if (uc1 == 0) { return 0; }
        if (uc1 < 0x80 || uc1 > 0xbf) { p = nullptr; return 0; }
        auto uc2 = static_cast<unsigned char>(*++p); if (uc2 == 0) { return 0; }
        if (uc2 < 0x80 || uc2 > 0xbf) { p = nullptr; return 0; }
        char32_t w = rawDecodeUtf8(uc, uc1, uc2);
        if (isFirstHalfUtf16(w))
        {
            // must have 2nd-half of escape from UTF-16 -- must be 3-byte UTF-8 range
            auto uc3 = static_cast<unsigned char>(*++p); if (uc3 == 0) { return 0; }
            if (uc3 < 0xe0 || uc3 > 0xef) { p = nullptr; return 0; }
            auto uc4 = static_cast<unsigned char>(*++p); if (uc4 == 0) { return 0; }
            if (uc4 < 0x80 || uc4 > 0xbf) { p = nullptr; return 0; }
            auto uc5 = static_cast<unsigned char>(*++p); if (uc5 == 0) { return 0; }
            if (uc5 < 0x80 || uc5 > 0xbf) { p = nullptr; return 0; }
            // turn to UCS-4
            char32_t w2 = rawDecodeUtf8(uc3, uc4, uc5);
            if (isSecondHalfUtf16(w2))
            {
                return 0x10000 + ((w & 0x3ff) << 10) + (w2 & 0x3ff);
            }
            else
            {
                p = nullptr; return 0;
            }
        }
        else if ((w < 0x800) || isSecondHalfUtf16(w))
        {
            p = nullptr; return 0;
        }
        else
        {
            return w;
        }
    }
    else if (uc <= 0xf7)
    {
        // 4-byte, next 3 must be A0..BF range
        auto uc1 = static_cast<unsigned char>(*++p); if (uc1 == 0) { return 0; }
        if (uc1 < 0x80 || uc1 > 0xbf) { p = nullptr; return 0; }
        auto uc2 = static_cast<unsigned char>(*++p); if (uc2 == 0) { return 0; }
        if (uc2 < 0x80 || uc2 > 0xbf) { p = nullptr; return 0; }
        auto uc3 = static_cast<unsigned char>(*++p); if (uc3 == 0) { return 0; }
        if (uc3 < 0x80 || uc3 > 0xbf) { p = nullptr; return 0; }
        auto r = rawDecodeUtf8(uc, uc1, uc2, uc3);
        if (r < 0x10000)
        {
            p = nullptr; return 0;
        }
        return r;
    }
    else if (uc <= 0xfb)
    {
        // 5-byte, next 4 must be A0..BF range (speculative! 10FFFF is covered in 4 bytes)
        auto uc1 = static_cast<unsigned char>(*++p); if (uc1 == 0) { return 0; }
        if (uc1 < 0x80 || uc1 > 0xbf) { p = nullptr; return 0; }
        auto uc2 = static_cast<unsigned char>(*++p); if (uc2 == 0) { return 0; }
        if (uc2 < 0x80 || uc2 > 0xbf) { p = nullptr; return 0; }
        auto uc3 = static_cast<unsigned char>(*++p); if (uc3 == 0) { return 0; }
        if (uc3 < 0x80 || uc3 > 0xbf) { p = nullptr; return 0; }
        auto uc4 = static_cast<unsigned char>(*++p); if (uc4 == 0) { return 0; }
        if (uc4 < 0x80 || uc4 > 0xbf) { p = nullptr; return 0; }
        auto r = rawDecodeUtf8(uc, uc1, uc2, uc3, uc4);
        if (r < 0x200000)
        {
            p = nullptr; return 0;
        }
        return r;
    }
    else if (uc <= 0xfd)
    {
        // 6-byte, next 5 must be A0..BF range (speculative! 10FFFF is covered in 4 bytes)
        auto uc1 = static_cast<unsigned char>(*++p); if (uc1 == 0) { return 0; }
        if (uc1 < 0x80 || uc1 > 0xbf) { p = nullptr; return 0; }
        auto uc2 = static_cast<unsigned char>(*++p); if (uc2 == 0) { return 0; }
        if (uc2 < 0x80 || uc2 > 0xbf) { p = nullptr; return 0; }
        auto uc3 = static_cast<unsigned char>(*++p); if (uc3 == 0) { return 0; }
        if (uc3 < 0x80 || uc3 > 0xbf) { p = nullptr; return 0; }
        auto uc4 = static_cast<unsigned char>(*++p); if (uc4 == 0) { return 0; }
        if (uc4 < 0x80 || uc4 > 0xbf) { p = nullptr; return 0; }
        auto uc5 = static_cast<unsigned char>(*++p); if (uc5 == 0) { return 0; }
        if (uc5 < 0x80 || uc5 > 0xbf) { p = nullptr; return 0; }
        auto r = rawDecodeUtf8(uc, uc1, uc2, uc3, uc4, uc5);
        if (r < 0x4000000)
        {
            p = nullptr; return 0;
        }
        return r;
    }
    else
    {
        p = nullptr; return 0;
    }
}
"#

/-- `source/string_decode_utf8.cxx:202-205`. -/
def decodeUtf81 : Text := cxx% r#"
}

}
"#

/-- `source/encoding_check_predicate.cxx:1-58`. -/
def predicate0 : Text := cxx% r#"///////////////////////////////////////////////////////////////////////////
//
// Copyright (c) 2015, Arthur N. Klassen
// All rights reserved.
//
// Redistribution and use in source and binary forms, with or without
// modification, are permitted provided that the following conditions are met:
// 
// 1. Redistributions of source code must retain the above copyright notice,
//    this list of conditions and the following disclaimer.
//
// 2. Redistributions in binary form must reproduce the above copyright notice,
//    this list of conditions and the following disclaimer in the documentation
//    and/or other materials provided with the distribution.
//
// THIS SOFTWARE IS PROVIDED BY THE COPYRIGHT HOLDERS AND CONTRIBUTORS "AS IS"
// AND ANY EXPRESS OR IMPLIED WARRANTIES, INCLUDING, BUT NOT LIMITED TO, THE
// IMPLIED WARRANTIES OF MERCHANTABILITY AND FITNESS FOR A PARTICULAR PURPOSE
// ARE DISCLAIMED. IN NO EVENT SHALL THE COPYRIGHT HOLDER OR CONTRIBUTORS BE
// LIABLE FOR ANY DIRECT, INDIRECT, INCIDENTAL, SPECIAL, EXEMPLARY, OR
// CONSEQUENTIAL DAMAGES (INCLUDING, BUT NOT LIMITED TO, PROCUREMENT OF
// SUBSTITUTE GOODS OR SERVICES; LOSS OF USE, DATA, OR PROFITS; OR BUSINESS
// INTERRUPTION) HOWEVER CAUSED AND ON ANY THEORY OF LIABILITY, WHETHER IN
// CONTRACT, STRICT LIABILITY, OR TORT (INCLUDING NEGLIGENCE OR OTHERWISE)
// ARISING IN ANY WAY OUT OF THE USE OF THIS SOFTWARE, EVEN IF ADVISED OF THE
// POSSIBILITY OF SUCH DAMAGE.
//
///////////////////////////////////////////////////////////////////////////
//
// 2015.11.23 - First version
//
//    May you do good and not evil.
//    May you find forgiveness for yourself and forgive others.
//    May you share freely, never taking more than you give.
//
///////////////////////////////////////////////////////////////////////////
//
// encoding_check_predicate.cxx -- efficient mechanism to add encoding
//      validity checks to range validity checks, when required
//
///////////////////////////////////////////////////////////////////////////

#include "string.hxx"
#include "string_internal.hxx"

namespace ansak {

using namespace internal;

namespace {

///////////////////////////////////////////////////////////////////////////
// Local Data

EncodingTypeFlags encodingTypeToEncodingFlag[kFirstInvalidEncoding] =
    { kNoneFlag, kIsAssignedFlag, kIsPrivateFlag, kIsControlFlag, kIsWhiteSpaceFlag };

}
"#

/-- `source/encoding_check_predicate.cxx:59-122`. -/
def predicate1 : Text := cxx% r#"
///////////////////////////////////////////////////////////////////////////
// Class methods

///////////////////////////////////////////////////////////////////////////
// private, constructor

EncodingCheckPredicate::EncodingCheckPredicate
(
    EncodingType    t,          // I - what range to check for
    bool            checkForIt  // I - for presence? or absence, def. presence
) : m_mask(0),
    m_value(0)
{
    if (t > kIsNone && t < kFirstInvalidEncoding)
    {
        m_value = m_mask = encodingTypeToEncodingFlag[t];
        if (!checkForIt)
        {
            m_value &= ~m_value;
        }
    }
}

///////////////////////////////////////////////////////////////////////////
// public

EncodingCheckPredicate EncodingCheckPredicate::andIf
(
    EncodingType    toCheckFor      // I - an additional range to check for
)
{
    EncodingCheckPredicate other(toCheckFor);
    m_value |= other.m_value;
    m_mask |= other.m_mask;
    return *this;
}

///////////////////////////////////////////////////////////////////////////
// public

EncodingCheckPredicate EncodingCheckPredicate::andIfNot
(
    EncodingType    toCheckFor      // I - an additional range to check for
)
{
    EncodingCheckPredicate other(toCheckFor, false);
    m_value |= other.m_value;
    m_mask |= other.m_mask;
    return *this;
}

///////////////////////////////////////////////////////////////////////////
// public, comparator

bool EncodingCheckPredicate::operator==(const EncodingCheckPredicate& other) const
{
    if (this == &other)
    {
        return true;
    }
    return m_mask == other.m_mask &&
           m_value == other.m_value;
}
"#

/-- `source/encoding_check_predicate.cxx:123-163`. -/
def predicate2 : Text := cxx% r#"
///////////////////////////////////////////////////////////////////////////
// public, invoker

bool EncodingCheckPredicate::operator()(char c) const
{
    if (m_mask == 0)
    {
        return true;
    }
    auto cEncodingMask = charToEncodingTypeMask(c);
    return (cEncodingMask & m_mask) == m_value;
}

///////////////////////////////////////////////////////////////////////////
// public, invoker

bool EncodingCheckPredicate::operator()(char16_t c) const
{
    if (m_mask == 0)
    {
        return true;
    }
    auto cEncodingMask = charToEncodingTypeMask(c);
    return (cEncodingMask & m_mask) == m_value;
}

///////////////////////////////////////////////////////////////////////////
// public, invoker

bool EncodingCheckPredicate::operator()(char32_t c) const
{
    if (m_mask == 0)
    {
        return true;
    }
    auto cEncodingMask = charToEncodingTypeMask(c);
    return (cEncodingMask & m_mask) == m_value;
}

}
"#

/-- `source/string.cxx:1-85`. -/
def string0 : Text := cxx% r#"///////////////////////////////////////////////////////////////////////////
//
// Copyright (c) 2015, Arthur N. Klassen
// All rights reserved.
//
// Redistribution and use in source and binary forms, with or without
// modification, are permitted provided that the following conditions are met:
// 
// 1. Redistributions of source code must retain the above copyright notice,
//    this list of conditions and the following disclaimer.
//
// 2. Redistributions in binary form must reproduce the above copyright notice,
//    this list of conditions and the following disclaimer in the documentation
//    and/or other materials provided with the distribution.
//
// THIS SOFTWARE IS PROVIDED BY THE COPYRIGHT HOLDERS AND CONTRIBUTORS "AS IS"
// AND ANY EXPRESS OR IMPLIED WARRANTIES, INCLUDING, BUT NOT LIMITED TO, THE
// IMPLIED WARRANTIES OF MERCHANTABILITY AND FITNESS FOR A PARTICULAR PURPOSE
// ARE DISCLAIMED. IN NO EVENT SHALL THE COPYRIGHT HOLDER OR CONTRIBUTORS BE
// LIABLE FOR ANY DIRECT, INDIRECT, INCIDENTAL, SPECIAL, EXEMPLARY, OR
// CONSEQUENTIAL DAMAGES (INCLUDING, BUT NOT LIMITED TO, PROCUREMENT OF
// SUBSTITUTE GOODS OR SERVICES; LOSS OF USE, DATA, OR PROFITS; OR BUSINESS
// INTERRUPTION) HOWEVER CAUSED AND ON ANY THEORY OF LIABILITY, WHETHER IN
// CONTRACT, STRICT LIABILITY, OR TORT (INCLUDING NEGLIGENCE OR OTHERWISE)
// ARISING IN ANY WAY OUT OF THE USE OF THIS SOFTWARE, EVEN IF ADVISED OF THE
// POSSIBILITY OF SUCH DAMAGE.
//
///////////////////////////////////////////////////////////////////////////
//
// 2014.10.08 - First version
//
//    May you do good and not evil.
//    May you find forgiveness for yourself and forgive others.
//    May you share freely, never taking more than you give.
//
///////////////////////////////////////////////////////////////////////////
//
// string.cxx -- manage any incoming string claiming to be of any unicode
//               compatible encoding and re-encode it to the known state of
//               your choice.
//               strings (either null-terminated or basic_string<C>) that
//               pass the isXXX tests are guaranteed to re-encode in the
//               target encoding.
//               partial escapes in a string are failures, partial escapes
//               at the end of a string are ignored.
//
///////////////////////////////////////////////////////////////////////////

#include "string.hxx"
#include "string_internal.hxx"
#include "internal/string_decode_utf8.hxx"

using namespace std;
using namespace ansak::internal;

namespace ansak {

namespace {

///////////////////////////////////////////////////////////////////////////
// Local Data

RangeTypeFlags rangeTypeToRangeFlag[RangeType::kFirstInvalidRange] =
    { kAsciiFlag, kUtf8Flag, kUcs2Flag, kUtf16Flag, kUcs4Flag, kUnicodeFlag };

///////////////////////////////////////////////////////////////////////////
// Local Functions

//=========================================================================
// Is character (of whatever type) encodable as UTF-16? (in range 0..10FFFF)
//
// Returns true if in range, false otherwise.

template<typename C>
bool isUtf16Encodable
(
    C                   c       // I - character to test
)
{
    static_assert(std::is_integral<C>::value, "isUtf16Encodable needs an integral type.");

    // don't depend on signed-ness -- first half covers unsigned case,
    // second half covers negative numbers without calling them so.
    return c <= 0x10ffff && (c & ~0x1fffff) == 0;
}
"#

/-- `source/string.cxx:86-158`. -/
def string1 : Text := cxx% r#"
//=========================================================================
// Is character (of whatever type) second half of non-BMP UTF-16 pair
// (in range DC00..DFFF)
//
// Returns true if in range, false otherwise.

inline bool isUtf16EscapedRange
(
    char32_t            c
)
{
    return isFirstHalfUtf16(c) || isSecondHalfUtf16(c);
}

//=========================================================================
// Utility function to decide how many bytes a UTF-8 sequence will use
//
// Given a pointer, if it's nullptr, Returns -1. Otherwise, given the character
// it points to,
// if it's 0, Returns 0;
// if it's not a valid first-character-in-UTF-8 sequence, Returns -1;
// otherwise, Returns the length in bytes of the UTF-8 sequence.
//
// Note: This routine does NOT notice d800..dfff values

int sequenceSizeCharStarts
(
    const char*         p       // I/O - points to current non-null character
)
{
    if (p == nullptr)
    {
        return -1;      // should never get here, trimmed out at higher levels
    }
    auto uc = static_cast<unsigned char>(*p);
    if (uc == 0)
    {
        return 0;       // should never get here, trimmed out at higher levels
    }
    if (uc <= 0x7f)
    {
        return 1;
    }
    else if (uc <= 0xbf)
    {
        return -1;      // should never get here, trimmed out at higher levels
    }
    else if (uc <= 0xdf)
    {
        return 2;
    }
    else if (uc <= 0xef)
    {
        return 3;
    }
    else if (uc <= 0xf7)
    {
        return 4;
    }
    else if (uc <= 0xfb)
    {
        return 5;
    }
    else if (uc <= 0xfd)
    {
        return 6;
    }
    else
    {
        return -1;      // should never get here, trimmed out at higher levels
    }
}
"#

/-- `source/string.cxx:159-318`. -/
def string2 : Text := cxx% r#"
//=========================================================================
// Utility function to decide if a character is the first half of a UTF-16
// character in two UTF-8 values.
//
// Note: Call only if p points to 3-character sequence start AND there are
//       at least two more bytes available in the character stream
//
// Returns true if byte starts a 3-byte UTF-8 character and isFirstHalfUtf16

inline bool isFirstHalfUtf16AsUtf8
(
    const char*         p       // I - points to current non-null character
)
{
    return isFirstHalfUtf16(rawDecodeUtf8(
                static_cast<unsigned char>(p[0]),
                static_cast<unsigned char>(p[1]),
                static_cast<unsigned char>(p[2])));
}

//=========================================================================
// Utility function to decide if a to-be-decoded character must be teh second
// half of a UTF-16 character in two UTF-8 values.
//
// Note: Call only if p points to 3-character sequence start AND there are
//       at least two more bytes available in the character stream
//
// Returns true if byte starts a 3-byte UTF-8 character and isSecondHalfUtf16

inline bool isSecondHalfUtf16AsUtf8
(
    const char*         p       // I/O - points to current non-null character
)
{
    return isSecondHalfUtf16(rawDecodeUtf8(
                static_cast<unsigned char>(p[0]),
                static_cast<unsigned char>(p[1]),
                static_cast<unsigned char>(p[2])));
}

//=========================================================================
// Utility function to check the UTF-8 encoding of a length- or null-
// terminated string of bytes.
//
// Called by all public variations of isUtf8-of-single-byte-run
//
// Returns true for valid UTF-8 stream (length terminated when appropriate)
// that can be encoded a certain way; false otherwise (invalid, can't fit in
// destination)

bool isUtf8
(
    const char*     test,               // I - pointer to bytes to be scanned
    unsigned int    testLength,         // I - length (if not 0-terminated) to scan
    RangeType       targetRange,        // I - a target encoding
    const EncodingCheckPredicate&       // I - optional validity check (def. no-check)
                    pred
)
{
    // some behaviour is changed if the scan is length terminated
    bool lengthTerminated = testLength != 0;

    // validate encoding and length parameters
    if (targetRange < kAscii || targetRange > kUnicode)
    {
        return false;
    }
    if (!test || !*test)
    {
        return true;
    }

    RangeTypeFlags restrictToThis = rangeTypeToRangeFlag[targetRange];
    bool isNullPred = pred == EncodingCheckPredicate();

    auto lengthLeft = testLength;
    auto pLast = test - 1;
    unsigned int usedThisTime = 0;
    for (auto p = test; *p; ++p)
    {
        RangeTypeFlags rangeFlag = getRangeFlag(*p);
        if ((rangeFlag & restrictToThis) == 0)
        {
            return false;
        }
        // if we won't have enough length-terminted buffer left to satisfy this
        // sequence, quit, now
        // result will always be positive, p is never nullptr
        unsigned int seqStarts = sequenceSizeCharStarts(p);
        if (lengthTerminated)
        {
            // "3" long sequences might be UTF-16 parts
            if (seqStarts == 3)
            {
                // is this out-of-order?
                if (lengthLeft > 1 && isSecondHalfUtf16AsUtf8(p))
                {
                    return false;
                }
                // will we be out of space?
                if (lengthLeft >= 3 && isFirstHalfUtf16AsUtf8(p))
                {
                    seqStarts = 6;
                }
            }
            // if out of space, and not otherwise invalid, leave with success
            if (seqStarts > lengthLeft)
            {
                return true;
            }
        }

        auto c = decodeUtf8(p);

        // how did decoding go?
        if (p == nullptr)
        {
            return false;
        }

        if (c == 0)
        {
            // decoding to 0 when *p != 0 is invalid UTF-8
            return *p == 0;
        }

        // decoded -- how much was used?
        if (lengthTerminated)
        {
            usedThisTime = static_cast<unsigned int>(p - pLast);
            if (seqStarts != usedThisTime)
            {
                return false;   // should never get here
            }
            pLast = p;
        }
        RangeTypeFlags charFlag = getCharEncodableRangeFlags(c);

        // target encoding cannot be satisfied
        if ((charFlag & restrictToThis) == 0 || (!isNullPred && !pred(c)))
        {
            return false;
        }

        // exit condition for length-terminated scans
        if (lengthTerminated)
        {
            // this should only be true if lengthLeft == usedThisTime but...
            if (lengthLeft <= usedThisTime)
            {
                return true;
            }
            lengthLeft -= usedThisTime;
        }
    }

    // falling out due to nulls is good -- except for length-terminated
    return !lengthTerminated;
}
"#

/-- `source/string.cxx:319-410`. -/
def string3 : Text := cxx% r#"
}

///////////////////////////////////////////////////////////////////////////
// Public Functions

///////////////////////////////////////////////////////////////////////////
// getUnicodeVersion function
//
// Report what Unicode version is supported.
///////////////////////////////////////////////////////////////////////////

utf8String getUnicodeVersionSupported()
{
    return supportedUnicodeVersion;
}

//////////// Is it (valid) UTF-8, compatible with this encoding?

bool isUtf8(const std::string& test, RangeType targetRange, const EncodingCheckPredicate& pred)
{
    return isUtf8(test.c_str(), 0, targetRange, pred);
}

bool isUtf8(const char* test, RangeType targetRange, const EncodingCheckPredicate& pred)
{
    return isUtf8(test, 0, targetRange, pred);
}

bool isUtf8(const char* test, unsigned int testLength, const EncodingCheckPredicate& pred)
{
    return isUtf8(test, testLength, kUtf8, pred);
}

//////////////////// Is it (valid) UTF-16, compatible with this encoding?

bool isUtf16(const utf16String& test, RangeType targetRange, const EncodingCheckPredicate& pred)
{
    return isUtf16(test.c_str(), targetRange, pred);
}

bool isUtf16(const char16_t* test, RangeType targetRange, const EncodingCheckPredicate& pred)
{
    if (targetRange < kAscii || targetRange > kUnicode)
    {
        return false;
    }
    if (!test || !*test)
    {
        return true;
    }

    RangeTypeFlags restrictToThis = rangeTypeToRangeFlag[targetRange];
    bool isNullPred = pred == EncodingCheckPredicate();
    
    for (auto p = test; *p; ++p)
    {
        RangeTypeFlags rangeFlag = getRangeFlag(*p);
        if ((rangeFlag & restrictToThis) == 0)
        {
            return false;
        }
        auto c = *p;
        RangeTypeFlags charFlag;
        /* Never hit, 2nd half UTF16 is invalid range
        if (isSecondHalfUtf16(c))
        {
            return false;
        } */
        if (isFirstHalfUtf16(c))
        {
            char16_t c1 = *++p; if (c1 == 0) { break; }
            if (!isSecondHalfUtf16(c1))
            {
                return false;
            }
            // Could make this function call but it is unnecessary
            // charFlag = getCharEncodableRangeFlags(rawDecodeUtf16(c, c1));
            charFlag = k21BitUnicodeFlags;
        }
        else
        {
            charFlag = getCharEncodableRangeFlags(c);
        }
        if ((charFlag & restrictToThis) == 0 || (!isNullPred && !pred(c)))
        {
            return false;
        }
    }

    return true;
}
"#

/-- `source/string.cxx:411-481`. -/
def string4 : Text := cxx% r#"
//////////////////// Is it (valid) UCS-2, compatible with this encoding?

bool isUcs2(const ucs2String& test, RangeType targetRange, const EncodingCheckPredicate& pred)
{
    return isUcs2(test.c_str(), targetRange, pred);
}

bool isUcs2(const char16_t* test, RangeType targetRange, const EncodingCheckPredicate& pred)
{
    if (targetRange < kAscii || targetRange > kUnicode)
    {
        return false;
    }
    if (!test || !*test)
    {
        return true;
    }

    RangeTypeFlags restrictToThis = rangeTypeToRangeFlag[targetRange];
    bool isNullPred = pred == EncodingCheckPredicate();
    
    for (auto p = test; *p; ++p)
    {
        auto c = *p;
        RangeTypeFlags charFlag = getCharEncodableRangeFlags(c);
        if (isUtf16EscapedRange(c))
        {
            return false;
        }
        if ((charFlag & restrictToThis) == 0 || (!isNullPred && !pred(c)))
        {
            return false;
        }
    }

    return true;
}

//////////////////// Is it (valid) UCS-4, compatible with this encoding?

bool isUcs4(const ucs4String& test, RangeType targetRange, const EncodingCheckPredicate& pred)
{
    return isUcs4(test.c_str(), targetRange, pred);
}

bool isUcs4(const char32_t* test, RangeType targetRange, const EncodingCheckPredicate& pred)
{
    if (targetRange < kAscii || targetRange > kUnicode)
    {
        return false;
    }
    if (!test || !*test)
    {
        return true;
    }

    RangeTypeFlags restrictToThis = rangeTypeToRangeFlag[targetRange];
    bool isNullPred = pred == EncodingCheckPredicate();
    
    for (auto p = test; *p; ++p)
    {
        auto c = *p;
        if ((getCharEncodableRangeFlags(c) & restrictToThis) == 0 || (!isNullPred && !pred(c)))
        {
            return false;
        }
    }

    return true;
}
"#

/-- `source/string.cxx:482-576`. -/
def string5 : Text := cxx% r#"
//////////////////// Convert to UTF-8

// From UCS-2 or UTF-16 //////////////////////////////////

string toUtf8(const char16_t* src)
{
    string result;
    if (src && *src)
    {
        CharacterAdder<char> adder(result);
        for (auto p = src; *p; ++p)
        {
            auto c = *p;
            if (isFirstHalfUtf16(c))
            {
                char16_t c1 = *++p; if (c1 == 0) { break; }
                if (!isSecondHalfUtf16(c1))
                {
                    return string();
                }
                char32_t c32 = rawDecodeUtf16(c, c1);
                encodeUtf8(c32, adder);
            }
            else
            {
                encodeUtf8(c, adder);
            }
        }
    }

    return result;
}

string toUtf8(const utf16String& src)
{
    return toUtf8(src.c_str());
}

// From UCS-4 ////////////////////////////////////////////

string toUtf8(const char32_t* src)
{
    string result;
    if (src && *src)
    {
        CharacterAdder<char> adder(result);
        for (auto p = src; *p; ++p)
        {
            auto c = *p;
            if ((c & 0x80000000) == 0 && !isFirstHalfUtf16(c) && !isSecondHalfUtf16(c))
            {
                encodeUtf8(c, adder);
            }
            else
            {
                return string();
            }
        }
    }

    return result;
}

string toUtf8(const ucs4String& src)
{
    return toUtf8(src.c_str());
}

//////////////////// Convert to UCS-2

// From char or UTF-8 ////////////////////////////////////

ucs2String toUcs2(const char* src)
{
    ucs2String result;
    if (src && *src)
    {
        for (auto p = src; *p; ++p)
        {
            auto c = decodeUtf8(p);
            if (p == nullptr || c > 0xffff)
            {
                return ucs2String();
            }
            else if (c == 0)
            {
                break;
            }
            result.push_back(static_cast<char16_t>(c));
        }
    }

    return result;
}
"#

/-- `source/string.cxx:577-662`. -/
def string6 : Text := cxx% r#"
ucs2String toUcs2(const string& src)
{
    return toUcs2(src.c_str());
}

// From UCS-4 ////////////////////////////////////////////

ucs2String toUcs2(const char32_t* src)
{
    ucs2String result;
    if (src && *src)
    {
        for (auto p = src; *p; ++p)
        {
            if (isFirstHalfUtf16(*p) || isSecondHalfUtf16(*p) || *p >= 0x10000)
            {
                return ucs2String();
            }
            result.push_back(static_cast<char16_t>(*p));
        }
    }

    return result;
}

ucs2String toUcs2(const ucs4String& src)
{
    return toUcs2(src.c_str());
}

//////////////////// Convert to UTF-16

// From char or UTF-8 ////////////////////////////////////

utf16String toUtf16(const char* src)
{
    utf16String result;
    if (src && *src)
    {
        CharacterAdder<char16_t> adder(result);
        for (auto p = src; *p; ++p)
        {
            auto c = decodeUtf8(p);
            if (p == nullptr || !isUtf16Encodable(c))
            {
                return utf16String();
            }
            else if (c == 0)
            {
                break;
            }
            rawEncodeUtf16(c, adder);
        }
    }

    return result;
}

utf16String toUtf16(const string& src)
{
    return toUtf16(src.c_str());
}

// From UCS-4 ////////////////////////////////////////////

utf16String toUtf16(const char32_t* src)
{
    utf16String result;
    if (src && *src)
    {
        CharacterAdder<char16_t> adder(result);
        for (auto p = src; *p; ++p)
        {
            auto c = *p;
            if (p == nullptr || !isUtf16Encodable(c) ||
                isFirstHalfUtf16(c) || isSecondHalfUtf16(c))
            {
                return utf16String();
            }
            rawEncodeUtf16(c, adder);
        }
    }

    return result;
}
"#

/-- `source/string.cxx:663-738`. -/
def string7 : Text := cxx% r#"
utf16String toUtf16(const ucs4String& src)
{
    return toUtf16(src.c_str());
}

//////////////////// Convert to UCS-4

// From char or UTF-8 ////////////////////////////////////

ucs4String toUcs4(const char* src)
{
    ucs4String result;
    if (src && *src)
    {
        for (auto p = src; *p; ++p)
        {
            auto c = decodeUtf8(p);
            if (p == nullptr)
            {
                return ucs4String();
            }
            else if (c == 0)
            {
                break;
            }
            result.push_back(c);
        }
    }

    return result;
}

ucs4String toUcs4(const string& src)
{
    return toUcs4(src.c_str());
}

// From UCS-2 or UTF-16 //////////////////////////////////

ucs4String toUcs4(const char16_t* src)
{
    ucs4String result;
    if (src && *src)
    {
        for (auto p = src; *p; ++p)
        {
            auto c = *p;
            if (isFirstHalfUtf16(c))
            {
                char16_t c1 = *++p; if (c1 == 0) { break; }
                if (!isSecondHalfUtf16(c1))
                {
                    return ucs4String();
                }
                char32_t c32 = rawDecodeUtf16(c, c1);
                result.push_back(c32);
            }
            else if (isSecondHalfUtf16(c))
            {
                return ucs4String();
            }
            else
            {
                result.push_back(c);
            }
        }
    }

    return result;
}

ucs4String toUcs4(const utf16String& src)
{
    return toUcs4(src.c_str());
}
"#

/-- `source/string.cxx:739-836`. -/
def string8 : Text := cxx% r#"
//////////////////// Test Unicode Length

// From char/UTF-8 ///////////////////////////////////////

unsigned int unicodeLength(const std::string& src)
{
    return unicodeLength(src.c_str());
}

unsigned int unicodeLength(const char* src, unsigned int testLength)
{
    if (!src || !*src)
    {
        return 0;
    }

    // some behaviour is changed if the scan is length terminated
    bool lengthTerminated = testLength != 0;

    auto lengthLeft = testLength;
    auto pLast = src - 1;
    unsigned int usedThisTime = 0;
    unsigned int r = 0;
    RangeTypeFlags restrictToUnicode = rangeTypeToRangeFlag[kUnicode];

    for (auto p = src; *p; ++p, ++r)
    {
        // if we won't have enough length-terminted buffer left to satisfy this
        // sequence, quit, now
        if (lengthTerminated)
        {
            // result will always be positive, p is never nullptr
            unsigned int seqStarts = sequenceSizeCharStarts(p);
            // "3" long sequences might be UTF-16 parts
            if (seqStarts == 3)
            {
                // is this out-of-order?
                if (lengthLeft > 1 && isSecondHalfUtf16AsUtf8(p))
                {
                    return 0;
                }
                // will we be out of space?
                if (lengthLeft >= 3 && isFirstHalfUtf16AsUtf8(p))
                {
                    seqStarts = 6;
                }
            }
            // if out of space, and not otherwise invalid, leave with success
            if (seqStarts > lengthLeft)
            {
                return r;
            }
        }
        // GUARANTEE: if lengthTerminated, lengthLeft >= to-be-usedThisTime

        // decode a character
        auto c = decodeUtf8(p);

        // how did decoding go?
        if (p == nullptr || (restrictToUnicode & getCharEncodableRangeFlags(c)) == 0 )
        {
            return 0;
        }

        if (c == 0)
        {
            // decoding to 0 when *p != 0 is invalid UTF-8
            return (*p == 0) ? (r - 1) : 0;
        }

        // decoded -- how much was used?
        if (lengthTerminated)
        {
            usedThisTime = static_cast<unsigned int>(p - pLast);
            pLast = p;
        }

        // exit condition for length-terminated scans
        if (lengthTerminated)
        {
            // lengthLeft < usedThisTime -- see GUARANTEE above
            /* if (lengthLeft < usedThisTime)
            {
                return r;
            }
            else */ if (lengthLeft == usedThisTime)
            {
                return r + 1;
            }
            lengthLeft -= usedThisTime;
        }
    }

    // if lengthTerminated, falling out due to nulls is bad, otherwise,
    // return collected length.
    return lengthTerminated ? 0 : r;
}
"#

/-- `source/string.cxx:837-915`. -/
def string9 : Text := cxx% r#"
//////////////////// Test Unicode Length

// From UCS-2/UTF-16 /////////////////////////////////////

unsigned int unicodeLength(const utf16String& src)
{
    return unicodeLength(src.c_str());
}

unsigned int unicodeLength(const char16_t* src, unsigned int testLength)
{
    // some behaviour is changed if the scan is length terminated
    bool lengthTerminated = testLength != 0;

    auto lengthLeft = testLength;
    auto pLast = src - 1;
    unsigned int usedThisTime = 0;
    unsigned int r = 0;

    for (auto p = src; *p; ++p, ++r)
    {
        // fetch the current character -- is it invalid UTF-16
        auto c = *p;
        if (isSecondHalfUtf16(c))
        {
            return 0;
        }

        // is this the first of two parts?
        bool isFirstHalf = isFirstHalfUtf16(c);
        unsigned int wordsNeeded = isFirstHalf ? 2 : 1;

        // have we got another half to deal with it?
        if (lengthTerminated && wordsNeeded > lengthLeft)
        {
            return r;
        }

        // or if null terminated, is there another piece?
        auto c1 = p[1];
        if (isFirstHalf && c1 == 0)
        {
            return r - 1;
        }

        // and if in two pieces, is it valid?
        bool isTwoHalves = isFirstHalf && isSecondHalfUtf16(c1);

        if (isTwoHalves)
        {
            // ah, okay -- advance the pointer an extra bit
            ++p;
        }
        else if (isFirstHalf)
        {
            // not so good! encoding error...
            return 0;
        }

        // decoded -- how much was used?
        if (lengthTerminated)
        {
            usedThisTime = static_cast<unsigned int>(p - pLast);
            pLast = p;
        }

        if (lengthTerminated)
        {
            if (lengthLeft == usedThisTime)
            {
                return r + 1;
            }
            lengthLeft -= usedThisTime;
        }
    }

    return lengthTerminated ? 0 : r;
}
"#

/-- `source/string.cxx:916-949`. -/
def string10 : Text := cxx% r#"
//////////////////// Test Unicode Length

// From UCS-4 ////////////////////////////////////////////

unsigned int unicodeLength(const ucs4String& src)
{
    return unicodeLength(src.c_str());
}

unsigned int unicodeLength(const char32_t* src, unsigned int testLength)
{
    // some behaviour is changed if the scan is length terminated
    bool lengthTerminated = testLength != 0;

    unsigned int r = 0;
    for (auto p = src; *p; ++p, ++r)
    {
        // In UCS-4, UTF-16 escape pairs are not allowed
        if (isFirstHalfUtf16(*p) || isSecondHalfUtf16(*p))
        {
            return 0;
        }
        if (lengthTerminated && p + 1 == src + testLength)
        {
            return r + 1;
        }
    }

    return lengthTerminated ? 0 : r;
}

}

"#

/-- `source/string_toutf8.cxx:1-146`. -/
def toUtf80 : Text := cxx% r#"///////////////////////////////////////////////////////////////////////////
//
// Copyright (c) 2015, Arthur N. Klassen
// All rights reserved.
//
// Redistribution and use in source and binary forms, with or without
// modification, are permitted provided that the following conditions are met:
// 
// 1. Redistributions of source code must retain the above copyright notice,
//    this list of conditions and the following disclaimer.
//
// 2. Redistributions in binary form must reproduce the above copyright notice,
//    this list of conditions and the following disclaimer in the documentation
//    and/or other materials provided with the distribution.
//
// THIS SOFTWARE IS PROVIDED BY THE COPYRIGHT HOLDERS AND CONTRIBUTORS "AS IS"
// AND ANY EXPRESS OR IMPLIED WARRANTIES, INCLUDING, BUT NOT LIMITED TO, THE
// IMPLIED WARRANTIES OF MERCHANTABILITY AND FITNESS FOR A PARTICULAR PURPOSE
// ARE DISCLAIMED. IN NO EVENT SHALL THE COPYRIGHT HOLDER OR CONTRIBUTORS BE
// LIABLE FOR ANY DIRECT, INDIRECT, INCIDENTAL, SPECIAL, EXEMPLARY, OR
// CONSEQUENTIAL DAMAGES (INCLUDING, BUT NOT LIMITED TO, PROCUREMENT OF
// SUBSTITUTE GOODS OR SERVICES; LOSS OF USE, DATA, OR PROFITS; OR BUSINESS
// INTERRUPTION) HOWEVER CAUSED AND ON ANY THEORY OF LIABILITY, WHETHER IN
// CONTRACT, STRICT LIABILITY, OR TORT (INCLUDING NEGLIGENCE OR OTHERWISE)
// ARISING IN ANY WAY OUT OF THE USE OF THIS SOFTWARE, EVEN IF ADVISED OF THE
// POSSIBILITY OF SUCH DAMAGE.
//
///////////////////////////////////////////////////////////////////////////
//
// 2015.10.15 - First version
//
//    May you do good and not evil.
//    May you find forgiveness for yourself and forgive others.
//    May you share freely, never taking more than you give.
//
///////////////////////////////////////////////////////////////////////////
//
// string_toUtf8.cxx -- a growing collection of routines to convert from
//                      CPxxxx and ISO-8859-x encodings toUtf8
//
///////////////////////////////////////////////////////////////////////////

#include "string.hxx"
#include "string_internal.hxx"

using namespace std;
using namespace ansak::internal;

namespace ansak {

utf8String toUtf8(const char* src, SourceEncoding srcType)
{
    if (src == nullptr || *src == '\0')
    {
        return string();
    }
    else if (srcType == kSrcUnicode)
    {
        return string(src);
    }
    else if (srcType == kSrcCP1252)
    {
        string result;
        CharacterAdder<char> adder(result);

        for (auto p = src; *p; ++p)
        {
            unsigned char uc = static_cast<unsigned char>(*p);
            if (uc <= 0x7f)
            {
                adder(uc);
            }
            else if (uc <= 0x9f)
            {
                static const char16_t cp125280_9F[] = {
                    0x20ac, 0, 0x201a, 0x0192, 0x201e, 0x2026, 0x2020, 0x2021,
                    0x02c6, 0x2030, 0x0160, 0x2039, 0x0152, 0, 0x017d, 0,
                    0, 0x2018, 0x2019, 0x201c, 0x201d, 0x2022, 0x2013, 0x2014,
                    0x02dc, 0x2122, 0x0161, 0x203a, 0x0153, 0, 0x017e, 0x0178 };
                auto uniP = cp125280_9F[uc - 0x80];
                if (uniP == 0)
                {
                    return string();
                }
                else
                {
                    encodeUtf8(uniP, adder);
                }
            }
            else
            {
                encodeUtf8(uc, adder);
            }
        }
        return result;
    }
    else if (srcType == kSrcCP1250)
    {
        string result;
        CharacterAdder<char> adder(result);

        for (auto p = src; *p; ++p)
        {
            unsigned char uc = static_cast<unsigned char>(*p);
            if (uc <= 0x7f)
            {
                adder(uc);
            }
            else
            {
                static const char16_t cp125080_FF[] = {
                    0x20ac, 0, 0x201a, 0, 0x201e, 0x2026, 0x2020, 0x2021,       // 0x80
                    0, 0x2030, 0x0160, 0x2039, 0x015a, 0x0164, 0x017d, 0x0179,
                    0, 0x2018, 0x2019, 0x201c, 0x201d, 0x2022, 0x2013, 0x2014,  // 0x90
                    0, 0x2122, 0x0161, 0x203a, 0x015b, 0x0165, 0x017e, 0x017a,
                    0xa0, 0x02c7, 0x02d8, 0x0141, 0xa4, 0x0104, 0xa6, 0xa7,     // 0xa0
                    0xa8, 0xa9, 0x015e, 0xab, 0xac, 0xad, 0xae, 0x017b,
                    0xb0, 0xb1, 0x02db, 0x0142, 0xb4, 0xb5, 0xb6, 0xb7,         // 0xb0
                    0xb8, 0x0105, 0x015f, 0xbb, 0x013d, 0x02dd, 0x013e, 0x017c,
                    0x0154, 0xc1, 0xc2, 0x0102, 0xc4, 0x0139, 0x0106, 0xc7,     // 0xc0
                    0x010c, 0xc9, 0x0118, 0xcb, 0x011a, 0xcd, 0xce, 0x010e,
                    0x0110, 0x0143, 0x0147, 0xd3, 0xd4, 0x0150, 0xd6, 0xd7,     // 0xd0
                    0x0158, 0x016e, 0xda, 0x0170, 0xdc, 0xdd, 0x0162, 0xdf,
                    0x0155, 0xe1, 0xe2, 0x0103, 0xe4, 0x013a, 0x0107, 0xe7,     // 0xe0
                    0x010d, 0xe9, 0x0119, 0xeb, 0x011b, 0xed, 0xee, 0x010f,
                    0x0111, 0x0144, 0x0148, 0xf3, 0xf4, 0x0151, 0xf6, 0xf7,     // 0xf0
                    0x0159, 0x016f, 0xfa, 0x0171, 0xfc, 0xfd, 0x0163, 0x02d9
                    };
                auto uniP = cp125080_FF[uc - 0x80];
                if (uniP == 0)
                {
                    return string();
                }
                else
                {
                    encodeUtf8(uniP, adder);
                }
            }
        }
        return result;
    }
    else
    {
        return string();
    }
}
"#

/-- `source/string_toutf8.cxx:147-148`. -/
def toUtf81 : Text := cxx% r#"
}
"#

/-- `source/string_tolower.cxx:1-85`. -/
def toLower0 : Text := cxx% r#"///////////////////////////////////////////////////////////////////////////
//
// Copyright (c) 2015, Arthur N. Klassen
// All rights reserved.
//
// Redistribution and use in source and binary forms, with or without
// modification, are permitted provided that the following conditions are met:
// 
// 1. Redistributions of source code must retain the above copyright notice,
//    this list of conditions and the following disclaimer.
//
// 2. Redistributions in binary form must reproduce the above copyright notice,
//    this list of conditions and the following disclaimer in the documentation
//    and/or other materials provided with the distribution.
//
// THIS SOFTWARE IS PROVIDED BY THE COPYRIGHT HOLDERS AND CONTRIBUTORS "AS IS"
// AND ANY EXPRESS OR IMPLIED WARRANTIES, INCLUDING, BUT NOT LIMITED TO, THE
// IMPLIED WARRANTIES OF MERCHANTABILITY AND FITNESS FOR A PARTICULAR PURPOSE
// ARE DISCLAIMED. IN NO EVENT SHALL THE COPYRIGHT HOLDER OR CONTRIBUTORS BE
// LIABLE FOR ANY DIRECT, INDIRECT, INCIDENTAL, SPECIAL, EXEMPLARY, OR
// CONSEQUENTIAL DAMAGES (INCLUDING, BUT NOT LIMITED TO, PROCUREMENT OF
// SUBSTITUTE GOODS OR SERVICES; LOSS OF USE, DATA, OR PROFITS; OR BUSINESS
// INTERRUPTION) HOWEVER CAUSED AND ON ANY THEORY OF LIABILITY, WHETHER IN
// CONTRACT, STRICT LIABILITY, OR TORT (INCLUDING NEGLIGENCE OR OTHERWISE)
// ARISING IN ANY WAY OUT OF THE USE OF THIS SOFTWARE, EVEN IF ADVISED OF THE
// POSSIBILITY OF SUCH DAMAGE.
//
///////////////////////////////////////////////////////////////////////////
//
// 2015.10.15 - First version
//
//    May you do good and not evil.
//    May you find forgiveness for yourself and forgive others.
//    May you share freely, never taking more than you give.
//
///////////////////////////////////////////////////////////////////////////
//
// string_tolower.cxx -- a universal "strlwr" function
//
///////////////////////////////////////////////////////////////////////////

#include "string.hxx"
#include "string_internal.hxx"

using namespace std;
using namespace ansak::internal;

namespace ansak {

///////////////////////////////////////////////////////////////////////////
// Local Functions

namespace
{

//=========================================================================
// Is a language identifier for a Turkic language? "tr", "az", "tt", "kk",
// "tur", "aze", "azb", "azj", "tat", or "kaz"
//
// Returns true if lang is not nullptr, and one of the 10 strings above;
// false otherwise (optimized for string length less equal to 2 or 3)

bool isTurkicLang(const char* lang)
{
    if (lang == nullptr || lang[0] == '\0' || lang[1] == '\0')
    {
        return false;
    }
    if (lang[2] == '\0')
    {
        return (lang[0] == 't' && lang[1] == 'r') ||    // Turkish
               (lang[0] == 'a' && lang[1] == 'z') ||    // Azerbaizhani
               (lang[0] == 't' && lang[1] == 't') ||    // Tatar
               (lang[0] == 'k' && lang[1] == 'k');      // Kazakh
    }
    if (lang[3] == '\0')
    {
        return (lang[0] == 't' && lang[1] == 'u' && lang[2] == 'r') ||    // Turkish
               (lang[0] == 't' && lang[1] == 'a' && lang[2] == 't') ||    // Tatar
               (lang[0] == 'k' && lang[1] == 'a' && lang[2] == 'z') ||    // Kazakh
               (lang[0] == 'a' && lang[1] == 'z' && (
                 lang[2] == 'e' || lang[2] == 'b' || lang[2] == 'j'));    // Azerbaizhani
    }
    return false;
}
"#

/-- `source/string_tolower.cxx:86-147`. -/
def toLower1 : Text := cxx% r#"
}

///////////////////////////////////////////////////////////////////////////
// Public Functions

//////////////////// To Lower

// From char/UTF-8 ///////////////////////////////////////

utf8String toLower
(
    const utf8String&       src,        // I - the source
    const char*             lang        // I - the optional language code, def nullptr
)
{
    ucs4String src4(toUcs4(src));
    if (src4.empty())
    {
        return utf8String();
    }
    return toUtf8(toLower(src4, lang));
}

// From UCS-2/UTF-16 /////////////////////////////////////

utf16String toLower
(
    const utf16String&      src,        // I - the source
    const char*             lang        // I - the optional language code, def nullptr
)
{
    ucs4String src4(toUcs4(src));
    if (src4.empty())
    {
        return utf16String();
    }
    return toUtf16(toLower(src4, lang));
}

// From UCS-4 ////////////////////////////////////////////

ucs4String toLower
(
    const ucs4String&       src,        // I - the source
    const char*             lang        // I - the optional language code, def nullptr
)
{
    auto toLowerFunc = isTurkicLang(lang) ? internal::turkicToLower :
                                            internal::toLower;
    ucs4String result;
    CharacterAdder<char32_t> adder(result);

    for (auto c : src)
    {
        adder(toLowerFunc(c));
    }

    return result;
}

}
"#

/-- `interface/string_trim.hxx:1-64`. -/
def trim0 : Text := cxx% r#"///////////////////////////////////////////////////////////////////////////
//
// Copyright (c) 2016, 2021, Arthur N. Klassen
// All rights reserved.
//
// Redistribution and use in source and binary forms, with or without
// modification, are permitted provided that the following conditions are met:
//
// 1. Redistributions of source code must retain the above copyright notice,
//    this list of conditions and the following disclaimer.
//
// 2. Redistributions in binary form must reproduce the above copyright notice,
//    this list of conditions and the following disclaimer in the documentation
//    and/or other materials provided with the distribution.
//
// THIS SOFTWARE IS PROVIDED BY THE COPYRIGHT HOLDERS AND CONTRIBUTORS "AS IS"
// AND ANY EXPRESS OR IMPLIED WARRANTIES, INCLUDING, BUT NOT LIMITED TO, THE
// IMPLIED WARRANTIES OF MERCHANTABILITY AND FITNESS FOR A PARTICULAR PURPOSE
// ARE DISCLAIMED. IN NO EVENT SHALL THE COPYRIGHT HOLDER OR CONTRIBUTORS BE
// LIABLE FOR ANY DIRECT, INDIRECT, INCIDENTAL, SPECIAL, EXEMPLARY, OR
// CONSEQUENTIAL DAMAGES (INCLUDING, BUT NOT LIMITED TO, PROCUREMENT OF
// SUBSTITUTE GOODS OR SERVICES; LOSS OF USE, DATA, OR PROFITS; OR BUSINESS
// INTERRUPTION) HOWEVER CAUSED AND ON ANY THEORY OF LIABILITY, WHETHER IN
// CONTRACT, STRICT LIABILITY, OR TORT (INCLUDING NEGLIGENCE OR OTHERWISE)
// ARISING IN ANY WAY OUT OF THE USE OF THIS SOFTWARE, EVEN IF ADVISED OF THE
// POSSIBILITY OF SUCH DAMAGE.
//
///////////////////////////////////////////////////////////////////////////
//
// 2016.11.18 - First version
//
//    May you do good and not evil.
//    May you find forgiveness for yourself and forgive others.
//    May you share freely, never taking more than you give.
//
///////////////////////////////////////////////////////////////////////////
//
// string_trim.hxx -- defines templates to trim strings
//
///////////////////////////////////////////////////////////////////////////

#pragma once

#include "string.hxx"

#include <string>
#include <type_traits>

namespace ansak {

template<typename C>
void trim(std::basic_string<C>& victim)
{
    static_assert(std::is_integral<C>::value, "trim needs an integral type.");

    while (!victim.empty() && victim[victim.size() - 1] == static_cast<C>(' '))
    {
        victim.erase(victim.size() - 1);
    }
    while (!victim.empty() && victim[0] == static_cast<C>(' '))
    {
        victim.erase(0, 1);
    }
}
"#

/-- `interface/string_trim.hxx:65-109`. -/
def trim1 : Text := cxx% r#"
template<typename C>
void trim(std::basic_string<C>& victim, const std::basic_string<C>& spaces)
{
    static_assert(std::is_integral<C>::value, "trim needs an integral type.");

    while (!victim.empty() &&
           spaces.find_first_of(victim[victim.size() - 1]) != std::basic_string<C>::npos)
    {
        victim.erase(victim.size() - 1);
    }
    while (!victim.empty() && spaces.find_first_of(victim[0]) != std::basic_string<C>::npos)
    {
        victim.erase(0, 1);
    }
}

inline void trimAscii7WhiteSpace(std::string& victim)
{
    trim(victim, std::string("\x09\x0a\x0d "));
}

inline void trimWhiteSpace(ucs4String& victim)
{
    trim(victim, std::u32string(
            U"\U00000009\U0000000a\U0000000d \U000000a0\U00002000\U00002001\U00002002\U00002003"
            U"\U00002004\U00002005\U00002006\U00002007\U00002008\U00002009\U0000200a\U0000202f"
            U"\U0000205f\U00003000"));
}

inline void trimWhiteSpace(utf16String& victim)
{
    trim(victim, std::u16string(
            u"\u0009\u000a\u000d \u00a0\u2000\u2001\u2002\u2003\u2004\u2005\u2006\u2007\u2008"
            u"\u2009\u200a\u202f\u205f\u3000"));
}

inline void trimWhiteSpace(utf8String& victim)
{
    auto v16 = toUtf16(victim);
    trimWhiteSpace(v16);
    victim = toUtf8(v16);
}

}
"#

/-- `interface/string_splitjoin.hxx:1-109`. -/
def splitJoin0 : Text := cxx% r#"///////////////////////////////////////////////////////////////////////////
//
// Copyright (c) 2015, 2016, Arthur N. Klassen
// All rights reserved.
//
// Redistribution and use in source and binary forms, with or without
// modification, are permitted provided that the following conditions are met:
// 
// 1. Redistributions of source code must retain the above copyright notice,
//    this list of conditions and the following disclaimer.
//
// 2. Redistributions in binary form must reproduce the above copyright notice,
//    this list of conditions and the following disclaimer in the documentation
//    and/or other materials provided with the distribution.
//
// THIS SOFTWARE IS PROVIDED BY THE COPYRIGHT HOLDERS AND CONTRIBUTORS "AS IS"
// AND ANY EXPRESS OR IMPLIED WARRANTIES, INCLUDING, BUT NOT LIMITED TO, THE
// IMPLIED WARRANTIES OF MERCHANTABILITY AND FITNESS FOR A PARTICULAR PURPOSE
// ARE DISCLAIMED. IN NO EVENT SHALL THE COPYRIGHT HOLDER OR CONTRIBUTORS BE
// LIABLE FOR ANY DIRECT, INDIRECT, INCIDENTAL, SPECIAL, EXEMPLARY, OR
// CONSEQUENTIAL DAMAGES (INCLUDING, BUT NOT LIMITED TO, PROCUREMENT OF
// SUBSTITUTE GOODS OR SERVICES; LOSS OF USE, DATA, OR PROFITS; OR BUSINESS
// INTERRUPTION) HOWEVER CAUSED AND ON ANY THEORY OF LIABILITY, WHETHER IN
// CONTRACT, STRICT LIABILITY, OR TORT (INCLUDING NEGLIGENCE OR OTHERWISE)
// ARISING IN ANY WAY OUT OF THE USE OF THIS SOFTWARE, EVEN IF ADVISED OF THE
// POSSIBILITY OF SUCH DAMAGE.
//
///////////////////////////////////////////////////////////////////////////
//
// 2014.10.31 - First version
//
//    May you do good and not evil.
//    May you find forgiveness for yourself and forgive others.
//    May you share freely, never taking more than you give.
//
///////////////////////////////////////////////////////////////////////////
//
// string_splitjoin.hxx -- templates for performing split and join (as in
//                         python) against any kind of basic_string.
//
///////////////////////////////////////////////////////////////////////////

#pragma once

#include <string>
#include <list>
#include <algorithm>
#include <functional>
#include <vector>

namespace ansak
{

//=========================================================================
// Template function split()
//
// Splits a basic_string-of-C by some delimiter, also C.

template <typename C>
std::vector< std::basic_string<C> > split(const std::basic_string<C>& src, C delim)
{
    static_assert(std::is_integral<C>::value, "split needs an integral type.");

    typedef std::basic_string<C> elem_type;
    typedef typename elem_type::size_type size_type;
    typedef std::vector< elem_type > return_type;

    if (src.empty())
    {
        return return_type();
    }

    const auto npos = elem_type::npos;

    size_type n = src.find(delim);
    if (n == npos)
    {
        return_type result;
        result.push_back(src);
        return result;
    }
    else
    {
        std::list<size_type> breaks;
        do
        {
            breaks.push_back(n);
            n = src.find(delim, n + 1);
        } while (n != npos);

        return_type result(breaks.size() + 1);
        int iResX = 0;
        result[iResX++] = src.substr(0, *breaks.begin());
        for (auto iBreak = breaks.begin(); iBreak != breaks.end(); ++iBreak)
        {
            auto nStart = *iBreak + 1;
            auto nextBreak = iBreak; ++nextBreak;
            if (nextBreak == breaks.end())
            {
                result[iResX] = src.substr(nStart);
            }
            else
            {
                result[iResX++] = src.substr(nStart, *nextBreak - nStart);
            }
        }
        return result;
    }
}
"#

/-- `interface/string_splitjoin.hxx:110-148`. -/
def splitJoin1 : Text := cxx% r#"
//=========================================================================
// Template function join()
//
// Joins a basic_string-of-C with some delimiter, also C.

template <typename C>
std::basic_string<C> join(const std::vector< std::basic_string<C> >& src, C delim)
{
    static_assert(std::is_integral<C>::value, "join needs an integral type.");

    typedef std::basic_string<C> return_type;

    if (src.empty())
    {
        return return_type();
    }
    else
    {
        C delimStr[2] = {0};
        delimStr[0] = delim;
        return_type r;
        bool first = true;
        for (auto s : src)
        {
            if (!first)
            {
                r.append(delimStr);
            }
            first = false;
            r.append(s);
        }

        return r;
    }
}

}

"#

/-- `interface/string.hxx:479-543`. -/
def wide16Is0 : Text := cxx% r#"#if WCHAR_MAX < 0x10000

////////////////////////////////////////////////////////////////////////////////
// isXxxxx for 16-bit wchar_t

inline bool isUtf8(const wchar_t* test)
{
   return isUtf16(reinterpret_cast<const char16_t*>(test), kUtf8);
}
inline bool isUtf8(const std::wstring& test) { return isUtf8(test.c_str()); }

inline bool isUtf16(const wchar_t* test)
{
   return isUtf16(reinterpret_cast<const char16_t*>(test), kUtf8);
}
inline bool isUtf16(const std::wstring& test) { return isUtf16(test.c_str()); }

inline bool isUcs2(const wchar_t* test)
{
   return isUtf16(reinterpret_cast<const char16_t*>(test), kUcs2);
}
inline bool isUcs2(const std::wstring& test) { return isUcs2(test.c_str()); }

inline bool isUcs4(const wchar_t* test)
{
   return isUtf16(reinterpret_cast<const char16_t*>(test), kUcs4);
}
inline bool isUcs4(const std::wstring& test) { return isUcs4(test.c_str()); }

inline bool isWstring(const utf8String& test)
{
    return isUtf8(test, kUtf16);
}

inline bool isWstring(const char* test)
{
    return isUtf8(test, kUtf16);
}

inline bool isWstring(const utf16String& test)
{
    return isUtf16(test);
}

/* ucs2String and utf16String are the same type under the hood
inline bool isWstring(const ucs2String& test)
{
    return isUcs2(test, kUtf16);
}
*/

inline bool isWstring(const char16_t* test)
{
    return isUtf16(test);
}

inline bool isWstring(const ucs4String& test)
{
    return isUcs4(test, kUtf16);
}

inline bool isWstring(const char32_t* test)
{
    return isUcs4(test, kUtf16);
}
"#

/-- `interface/string.hxx:544-544`. -/
def wide16Is1 : Text := cxx% r#"
"#

/-- `interface/string.hxx:655-722`. -/
def wide16To0 : Text := cxx% r#"
////////////////////////////////////////////////////////////////////////////////
// toXxxxx for 16-bit wchar_t

inline utf8String toUtf8(const wchar_t* src)
{ return toUtf8(reinterpret_cast<const char16_t*>(src)); }

inline utf8String toUtf8(const std::wstring& src)
{ return toUtf8(src.c_str()); }

inline utf16String toUtf16(const wchar_t* src)
{
    const char16_t* redirect = reinterpret_cast<const char16_t*>(src);
    if (isUtf16(redirect))
    {
        return utf16String(redirect);
    }
    else
    {
        return utf16String();
    }
}

inline utf16String toUtf16(const std::wstring& src)
{ return toUtf16(src.c_str()); }

inline ucs2String toUcs2(const wchar_t* src)
{
    const char16_t* redirect = reinterpret_cast<const char16_t*>(src);
    if (isUcs2(redirect))
    {
        return ucs2String(redirect);
    }
    else
    {
        return ucs2String();
    }
}

inline ucs2String toUcs2(const std::wstring& src)
{ return toUcs2(src.c_str()); }

inline ucs4String toUcs4(const wchar_t* src)
{ return toUcs4(reinterpret_cast<const char16_t*>(src)); }

inline ucs4String toUcs4(const std::wstring& src)
{ return toUcs4(src.c_str()); }

inline std::wstring toWstring(const char* src)
{
    return std::wstring(reinterpret_cast<const wchar_t*>(toUtf16(src).c_str()));
}
inline std::wstring toWstring(const utf8String& src)
{
    return toWstring(src.c_str());
}

inline std::wstring toWstring(const char16_t* src)
{
    if (isUtf16(src))
    {
        return std::wstring(reinterpret_cast<const wchar_t*>(src));
    }
    else
    {
        return std::wstring();
    }
}
"#

/-- `interface/string.hxx:723-742`. -/
def wide16To1 : Text := cxx% r#"inline std::wstring toWstring(const utf16String& src)
{
    return toWstring(src.c_str());
}
/* ucs2String and utf16String are the same type under the hood
inline std::wstring toWstring(const ucs2String& src)
{
    return toWstring(src.c_str());
}
*/

inline std::wstring toWstring(const char32_t* src)
{
    return std::wstring(reinterpret_cast<const wchar_t*>(toUtf16(src).c_str()));
}
inline std::wstring toWstring(const ucs4String& src)
{
    return toWstring(src.c_str());
}

"#

/-- `interface/string.hxx:866-914`. -/
def wide320 : Text := cxx% r#"#if WCHAR_MAX > 0x10000

////////////////////////////////////////////////////////////////////////////////
// isXxxxx for 32-bit wchar_t

inline bool isUtf8(const wchar_t* test)
{
   // return isUcs4(reinterpret_cast<const char32_t*>(test), kUtf8);
   // anything that's ucs-4 will go to utf8
   // but systems that use narrow wchar_t often trade in utf-16 there...
   return isUcs4(reinterpret_cast<const char32_t*>(test), kUtf16);
}
inline bool isUtf8(const std::wstring& test) { return isUtf8(test.c_str()); }

inline bool isUtf16(const wchar_t* test)
{
   return isUcs4(reinterpret_cast<const char32_t*>(test), kUtf16);
}
inline bool isUtf16(const std::wstring& test) { return isUtf16(test.c_str()); }

inline bool isUcs2(const wchar_t* test)
{
   return isUcs4(reinterpret_cast<const char32_t*>(test), kUcs2);
}
inline bool isUcs2(const std::wstring& test) { return isUcs2(test.c_str()); }

inline bool isUcs4(const wchar_t* test)
{
   // return isUcs4(reinterpret_cast<const char32_t*>(test), kUcs4);
   // anything that's ucs-4 will go to ucs-4
   // but systems that use narrow wchar_t often trade in utf-16 there...
   return isUcs4(reinterpret_cast<const char32_t*>(test), kUtf16);
}
inline bool isUcs4(const std::wstring& test) { return isUcs4(test.c_str()); }

inline bool isWstring(const utf8String& test)
{
    return isUtf8(test, kUtf16);
}

inline bool isWstring(const char* test)
{
    return isUtf8(test, kUtf16);
}

inline bool isWstring(const utf16String& test)
{
    return isUtf16(test, kUcs4);
}
"#

/-- `interface/string.hxx:915-977`. -/
def wide321 : Text := cxx% r#"
/* ucs2String and utf16String are the same type under the hood
inline bool isWstring(const ucs2String& test)
{
    return isUcs2(test, kUtf16);
}
*/

inline bool isWstring(const char16_t* test)
{
    return isUtf16(test, kUcs4);
}

inline bool isWstring(const ucs4String& test)
{
    return isUcs4(test, kUtf16);
}

inline bool isWstring(const char32_t* test)
{
    return isUcs4(test, kUtf16);
}

////////////////////////////////////////////////////////////////////////////////
// toXxxxx for 32-bit wchar_t

inline utf8String toUtf8(const wchar_t* src)
{ return toUtf8(reinterpret_cast<const char32_t*>(src)); }

inline utf8String toUtf8(const std::wstring& src)
{ return toUtf8(src.c_str()); }

inline utf16String toUtf16(const wchar_t* src)
{ return toUtf16(reinterpret_cast<const char32_t*>(src)); }

inline utf16String toUtf16(const std::wstring& src)
{ return toUtf16(src.c_str()); }

inline ucs2String toUcs2(const wchar_t* src)
{ return toUcs2(reinterpret_cast<const char32_t*>(src)); }

inline ucs2String toUcs2(const std::wstring& src)
{ return toUcs2(src.c_str()); }

inline ucs4String toUcs4(const wchar_t* src)
{
    if (isUcs4(reinterpret_cast<const char32_t*>(src), kUtf16))
    {
        return ucs4String(reinterpret_cast<const char32_t*>(src));
    }
    else
    {
        return ucs4String();
    }
}

inline ucs4String toUcs4(const std::wstring& src)
{ return toUcs4(src.c_str()); }

inline std::wstring toWstring(const char* src)
{
    return std::wstring(reinterpret_cast<const wchar_t*>(toUcs4(src).c_str()));
}
"#

/-- `interface/string.hxx:978-1015`. -/
def wide322 : Text := cxx% r#"inline std::wstring toWstring(const utf8String& src)
{
    return toWstring(src.c_str());
}

inline std::wstring toWstring(const char16_t* src)
{
    return std::wstring(reinterpret_cast<const wchar_t*>(toUcs4(src).c_str()));
}
inline std::wstring toWstring(const utf16String& src)
{
    return toWstring(src.c_str());
}
/* ucs2String and utf16String are the same type under the hood
inline std::wstring toWstring(const ucs2String& src)
{
    return toWstring(src.c_str());
}
*/

inline std::wstring toWstring(const char32_t* src)
{
    if (isUcs4(src, kUtf16))
    {
        return std::wstring(reinterpret_cast<const wchar_t*>(src));
    }
    else
    {
        return std::wstring();
    }
}

inline std::wstring toWstring(const ucs4String& src)
{
    return toWstring(src.c_str());
}

#endif
"#

/-- The pieces that all platforms have. -/
def common : List Text :=
  [interface0, interface1, interface2, interface3, interface4, interface5,
   interface6, interface7, interfaceEnd0, decodeHeader0, decodeHeader1, internal0,
   internal1, internal2, internal3, internal4, internal5, internal6,
   internal7, decodeUtf80, decodeUtf81, predicate0, predicate1, predicate2,
   string0, string1, string2, string3, string4, string5,
   string6, string7, string8, string9, string10, toUtf80,
   toUtf81, toLower0, toLower1, trim0, trim1, splitJoin0,
   splitJoin1]

/-- The pieces for a `wchar_t` of 16 bits. -/
def wide16 : List Text :=
  [wide16Is0, wide16Is1, wide16To0, wide16To1]

/-- The pieces for a `wchar_t` of 32 bits. -/
def wide32 : List Text :=
  [wide320, wide321, wide322]

/-- The whole library: has `wchar_t` 32 bits, or 16? (The order in which a function comes before another one does not matter to
the semantics.) -/
def pieces (w32 : Bool) : List Text := common ++ (bif w32 then wide32 else wide16)

end Ansak.Cpp.Source
