import Verif.Model.Cxx.Lex

/-!
# The source text of `source/bits13`

The files `char_is_unicode.cxx` and `char_to_lower.cxx` as they are, in pieces (`tools/gen_source.py`).
-/

namespace Ansak.Cxx.Source13

/-- `source/bits13/char_is_unicode.cxx:1-72`. -/
def isUnicode0 : Text := cxx% r#"///////////////////////////////////////////////////////////////////////////
//
// Copyright (c) 2021, Arthur N. Klassen
// All rights reserved.
//
// Redistribution and use in source and binary forms, with or without
// modification, are permitted provided that the following conditions are met:
//
// 1. Redistributions of source code must retain the above copyright notice,
//    this list of conditions and the following disclaimer.
//
// 2. Redistributions in binary form must reproduce the above copyright notice,
//    this list of conditions and the following disclaimer in the documentation
//    and/or other materials provided with the distribution.
//
// THIS SOFTWARE IS PROVIDED BY THE COPYRIGHT HOLDERS AND CONTRIBUTORS "AS IS"
// AND ANY EXPRESS OR IMPLIED WARRANTIES, INCLUDING, BUT NOT LIMITED TO, THE
// IMPLIED WARRANTIES OF MERCHANTABILITY AND FITNESS FOR A PARTICULAR PURPOSE
// ARE DISCLAIMED. IN NO EVENT SHALL THE COPYRIGHT HOLDER OR CONTRIBUTORS BE
// LIABLE FOR ANY DIRECT, INDIRECT, INCIDENTAL, SPECIAL, EXEMPLARY, OR
// CONSEQUENTIAL DAMAGES (INCLUDING, BUT NOT LIMITED TO, PROCUREMENT OF
// SUBSTITUTE GOODS OR SERVICES; LOSS OF USE, DATA, OR PROFITS; OR BUSINESS
// INTERRUPTION) HOWEVER CAUSED AND ON ANY THEORY OF LIABILITY, WHETHER IN
// CONTRACT, STRICT LIABILITY, OR TORT (INCLUDING NEGLIGENCE OR OTHERWISE)
// ARISING IN ANY WAY OUT OF THE USE OF THIS SOFTWARE, EVEN IF ADVISED OF THE
// POSSIBILITY OF SUCH DAMAGE.
//
///////////////////////////////////////////////////////////////////////////
//
// 2019.10.12 - First version
//
//    May you do good and not evil.
//    May you find forgiveness for yourself and forgive others.
//    May you share freely, never taking more than you give.
//
///////////////////////////////////////////////////////////////////////////
//
// char_is_unicode.cxx -- Code to check if a code-point value is inside
//                        Unicode, locally Unicode 13.0
//
///////////////////////////////////////////////////////////////////////////

#include <string.hxx>
#include "string_internal.hxx"

using namespace std;

namespace ansak {

namespace internal {

const utf8String supportedUnicodeVersion = "13.0.0";

namespace
{

// "isInTheGap" routines for sub-ranges of Unicode domain values. Numbers after isInTheGap
// gives most significant digits of the 21-bit Unicode values. Values less than U+0300 are
// all in the Unicode 13.0 standard

bool isInTheGap0003(char16_t c)
{
    auto column = (c >> 4) & 0xF;
    auto row = c & 0xF;
    switch (column)
    {
    default:    return false;
    case 7:     return row == 8 || row == 9;
    case 8:     return (row < 4) || row == 11 || row == 13;
    case 10:    return row == 2;
    }
}
"#

/-- `source/bits13/char_is_unicode.cxx:73-177`. -/
def isUnicode1 : Text := cxx% r#"
bool isInTheGap0005(char16_t c)
{
    auto column = (c >> 4) & 0xF;
    auto row = c & 0xF;
    switch (column)
    {
    default:    return false;

    case 3:
    case 9:     return row == 0;

    case 5:     return row == 7 || row == 8;
    case 8:     return row == 11 || row == 12;
    case 12:    return row >= 8;
    case 14:    return row >= 11 && row <= 14;
    case 15:    return row >= 5;
    }
}

bool isInTheGap0006(char16_t c)
{
    return c == 0x61D;
}

bool isInTheGap0007(char16_t c)
{
    auto column = (c >> 4) & 0xF;
    auto row = c & 0xF;
    switch (column)
    {
    default:    return false;
    case 0:     return row == 14;
    case 4:
    case 15:    return row == 11 || row == 12;
    case 11:    return row >= 2;
    }
}

bool isInTheGap0008(char16_t c)
{
    auto column = (c >> 4) & 0xF;
    auto row = c & 0xF;
    switch (column)
    {
    default:    return false;
    case 2:     return row >= 14;
    case 3:     return row == 15;
    case 5:     return row >= 12 && row != 14;
    case 6:     return row >= 11;

    case 7:
    case 8:
    case 9:     return true;

    case 13:    return row <= 2;
    case 11:    return row == 5;
    case 12:    return row >= 8;
    }
}

bool isInTheGap0009(char16_t c)
{
    auto column = (c >> 4) & 0xF;
    auto row = c & 0xF;
    switch (column)
    {
    default:    return false;
    case 8:     return row == 4 || row == 13 || row == 14;
    case 9:     return row == 1 || row == 2;
    case 10:    return row == 9;
    case 11:
        switch (row)
        {
        default:    return false;
        case 1:
        case 3:
        case 4:
        case 5:
        case 10:
        case 11:    return true;
        }
    case 12:
        switch (row)
        {
        default:    return false;
        case 5:
        case 6:
        case 9:
        case 10:
        case 15:    return true;
        }
    case 13:
        switch (row)
        {
        default:    return true;
        case 7:
        case 12:
        case 13:
        case 15:    return false;
        }
    case 14:        return row == 4 || row == 5;
    case 15:        return row == 15;
    }
}
"#

/-- `source/bits13/char_is_unicode.cxx:178-254`. -/
def isUnicode2 : Text := cxx% r#"
bool isInTheGap000A(char16_t c)
{
    auto column = (c >> 4) & 0xF;
    auto row = c & 0xF;
    switch (column)
    {
    default:    return true;        // should never be here
    case 0:     return row == 0 || row == 4 || (row >= 11 && row < 15);
    case 1:     return row == 1 || row == 2;
    case 2:     return row == 9;
    case 3:
        switch (row)
        {
        default:    return false;
        case 1:
        case 4:
        case 7:
        case 10:
        case 11:
        case 13:    return true;
        }
    case 4:
        switch (row)
        {
        default:    return false;
        case 3:
        case 4:
        case 5:
        case 6:
        case 9:
        case 10:
        case 14:
        case 15:    return true;
        }
    case 5:
        switch (row)
        {
        default:    return false;
        case 0:
        case 2:
        case 3:
        case 4:
        case 5:
        case 6:
        case 7:
        case 8:
        case 13:
        case 15:    return true;
        }
    case 6:     return row <= 5;
    case 7:     return row >= 7;
    case 8:
        switch (row)
        {
        default:    return false;
        case 0:
        case 4:
        case 14:    return true;
        }
    case 9:     return row == 2;
    case 10:    return row == 9;
    case 11:
        switch (row)
        {
        default:    return false;
        case 1:
        case 4:
        case 10:
        case 11:    return true;
        }
    case 12:    return row == 6 || row == 10 || row >= 14;
    case 13:    return row >= 1;
    case 14:    return row == 4 || row == 5;
    case 15:    return row >= 2 && row <= 8;
    }
}
"#

/-- `source/bits13/char_is_unicode.cxx:255-337`. -/
def isUnicode3 : Text := cxx% r#"
bool isInTheGap000B(char16_t c)
{
    auto column = (c >> 4) & 0xF;
    auto row = c & 0xF;
    switch (column)
    {
    default:    return true;        // should never be here
    case 0:     return row == 0 || row == 4 || row == 13 || row == 14;
    case 1:     return row == 1 || row == 2;
    case 2:     return row == 9;
    case 3:     return row == 1 || row == 4 || row == 10 || row == 11;
    case 4:
        switch (row)
        {
        default:    return false;
        case 5:
        case 6:
        case 9:
        case 10:
        case 14:
        case 15:    return true;
        }
    case 5:     return row <= 4 || (row >= 8 && row <= 11) || row == 14;
    case 6:     return row == 4 || row == 5;
    case 7:     return row >= 8;
    case 8:
        switch (row)
        {
        default:    return false;
        case 0:
        case 1:
        case 4:
        case 11:
        case 12:
        case 13:    return true;
        }
    case 9:
        switch (row)
        {
        default:    return false;
        case 1:
        case 6:
        case 7:
        case 8:
        case 11:
        case 13:    return true;
        }
    case 10:
        switch (row)
        {
        default:    return true;
        case 3:
        case 4:
        case 8:
        case 9:
        case 10:
        case 14:
        case 15:    return false;
        }
    case 11:    return row >= 10 && row <= 13;
    case 12:
        switch (row)
        {
        default:    return false;
        case 3:
        case 4:
        case 5:
        case 9:
        case 14:
        case 15:    return true;
        }
    case 13:
        switch (row)
        {
        default:    return true;
        case 0:
        case 7:     return false;
        }
    case 14:    return row <= 5;
    case 15:    return row >= 11;
    }
}
"#

/-- `source/bits13/char_is_unicode.cxx:338-385`. -/
def isUnicode4 : Text := cxx% r#"
bool isInTheGap000C(char16_t c)
{
    auto column = (c >> 4) & 0xF;
    auto row = c & 0xF;
    switch (column)
    {
    default:    return true;        // should never be here
    case 0:     return row == 13;
    case 1:     return row == 1;
    case 2:     return row == 9;
    case 3:     return row >= 10 && row <= 12;
    case 4:     return row == 5 || row == 9 || row >= 14;
    case 5:     return row <= 4 || row == 7 || row >= 11;
    case 6:     return row == 4 || row == 5;
    case 7:     return row <= 6;
    case 8:     return row == 13;
    case 9:     return row == 1;
    case 10:    return row == 9;
    case 11:    return row == 4 || row == 10 || row == 11;
    case 12:    return row == 5 || row == 9 || row >= 14;
    case 13:    return row <= 4 || (row >= 7 && row != 14);
    case 14:    return row == 4 || row == 5;
    case 15:    return row == 0 || row >= 3;
    }
}

bool isInTheGap000D(char16_t c)
{
    auto column = (c >> 4) & 0xF;
    auto row = c & 0xF;
    switch (column)
    {
    default:    return false;
    case 0:     return row == 13;
    case 1:     return row == 1;
    case 4:     return row == 5 || row == 9;
    case 5:     return row <= 3;
    case 6:     return row == 4 || row == 5;
    case 8:     return row == 0 || row == 4;
    case 9:     return row >= 7 && row <= 9;
    case 11:    return row == 2 || (row >= 12 && row != 13);
    case 12:    return row >= 7 && row != 10 && row <= 14;
    case 13:    return row == 5 || row == 7;
    case 14:    return row <= 5;
    case 15:    return row < 2 || row >= 5;
    }
}
"#

/-- `source/bits13/char_is_unicode.cxx:386-467`. -/
def isUnicode5 : Text := cxx% r#"
bool isInTheGap000E(char16_t c)
{
    auto column = (c >> 4) & 0xF;
    auto row = c & 0xF;
    switch (column)
    {
    default:    return false;
    case 0:     return row == 0;
    case 3:     return row >= 11 && row <= 14;
    case 5:     return row >= 12;
    case 6:
    case 7:
    case 14:
    case 15:    return true;
    case 8:
        switch (row)
        {
        case 0:
        case 3:
        case 5:
        case 11:    return true;
        default:    return false;
        }
    case 10:
        switch (row)
        {
        default:    return false;
        case 4:
        case 6:     return true;
        }
    case 11:    return row >= 14;
    case 12:    return row == 5 || row == 7 || row >= 14;
    case 13:    return row == 10 || row == 11;
    }
}

bool isInTheGap000F(char16_t c)
{
    auto column = (c >> 4) & 0xF;
    auto row = c & 0xF;
    switch (column)
    {
    default:    return false;
    case 4:     return row == 8;
    case 6:     return row >= 13;
    case 7:     return row == 0;
    case 9:     return row == 8;
    case 11:
    case 12:    return row == 13;
    case 13:    return row >= 11;
    case 14:
    case 15:    return true;
    }
}

bool isInTheGap0010(char16_t c)
{
    auto column = (c >> 4) & 0xF;
    auto row = c & 0xF;
    switch (column)
    {
    default:    return false;
    case 12:    return row == 6 || (row >= 8 && row != 13);
    }
}

bool isInTheGap0012(char16_t c)
{
    auto column = (c >> 4) & 0xF;
    auto row = c & 0xF;
    switch (column)
    {
    default:    return false;
    case 4:     return row == 9 || row >= 14;
    case 5:     return row == 7 || row == 9 || row >= 14;
    case 8:     return row == 9 || row >= 14;
    case 11:    return row == 1 || row == 6 || row == 7|| row == 15;
    case 12:    return row == 1 || row == 6 || row == 7;
    case 13:    return row == 7;
    }
}
"#

/-- `source/bits13/char_is_unicode.cxx:468-547`. -/
def isUnicode6 : Text := cxx% r#"
bool isInTheGap0013(char16_t c)
{
    auto column = (c >> 4) & 0xF;
    auto row = c & 0xF;
    switch (column)
    {
    default:    return false;
    case 1:     return row == 1 || row == 6 || row == 7;
    case 5:     return row == 11 || row == 12;
    case 7:     return row >= 13;
    case 9:     return row >= 10;
    case 15:    return (row & 7) >= 6;
    }
}

bool isInTheGap0016(char16_t c)
{
    auto column = (c >> 4) & 0xF;
    auto row = c & 0xF;
    switch (column)
    {
    default:    return false;
    case 9:     return row >= 13;
    case 15:    return row >= 9;
    }
}

bool isInTheGap0017(char16_t c)
{
    auto column = (c >> 4) & 0xF;
    auto row = c & 0xF;
    switch (column)
    {
    default:    return false;
    case 0:     return row == 13;
    case 1:     return row >= 5;
    case 3:     return row >= 7;
    case 5:     return row >= 4;
    case 6:     return row == 13;
    case 7:     return row == 1 || row >= 4;
    case 13:    return row >= 14;
    case 14:
    case 15:    return row >= 10;
    }
}

bool isInTheGap0018(char16_t c)
{
    auto column = (c >> 4) & 0xF;
    auto row = c & 0xF;
    switch (column)
    {
    default:    return false;
    case 0:     return row == 15;
    case 1:     return row >= 10;
    case 7:     return row >= 9;
    case 10:    return row >= 11;
    case 15:    return row >= 6;
    }
}

bool isInTheGap0019(char16_t c)
{
    auto column = (c >> 4) & 0xF;
    auto row = c & 0xF;
    switch (column)
    {
    default:    return false;
    case 1:     return row == 15;
    case 2:
    case 3:     return row >= 12;
    case 4:     return row >= 1 && row <= 3;
    case 6:     return row >= 14;
    case 7:     return row >= 5;
    case 10:    return row >= 12;
    case 12:    return row >= 10;
    case 13:    return row >= 11 && row <= 13;
    }
}
"#

/-- `source/bits13/char_is_unicode.cxx:548-614`. -/
def isUnicode7 : Text := cxx% r#"
bool isInTheGap001A(char16_t c)
{
    auto column = (c >> 4) & 0xF;
    auto row = c & 0xF;
    switch (column)
    {
    default:    return false;
    case 1:     return row == 12 || row == 13;
    case 5:     return row == 15;
    case 7:     return row == 13 || row == 14;
    case 8:
    case 9:     return row >= 10;
    case 10:    return row >= 14;
    case 12:    return row != 0;
    case 13:
    case 14:
    case 15:    return true;
    }
}

bool isInTheGap001B(char16_t c)
{
    auto column = (c >> 4) & 0xF;
    auto row = c & 0xF;
    switch (column)
    {
    default:    return false;
    case 4:     return row >= 12;
    case 7:     return row >= 13;
    case 15:    return row >= 4 && row <= 11;
    }
}

bool isInTheGap001C(char16_t c)
{
    auto column = (c >> 4) & 0xF;
    auto row = c & 0xF;
    switch (column)
    {
    default:    return false;
    case 3:     return row >= 8 && row <= 10;
    case 4:     return row >= 10 && row <= 12;
    case 8:     return row >= 9;
    case 11:    return row == 11 || row == 12;
    case 12:    return row >= 8;
    case 15:    return row >= 11;
    }
}

bool isInTheGap001F(char16_t c)
{
    auto column = (c >> 4) & 0xF;
    auto row = c & 0xF;
    switch (column)
    {
    default:    return false;
    case 1:
    case 4:     return row == 6 || row == 7 || row == 14 || row == 15;
    case 5:     return row == 8 || row == 10 || row == 12 || row == 14;
    case 7:     return row >= 14;
    case 11:
    case 12:    return row == 5;
    case 13:    return row == 4 || row == 5 || row == 12;
    case 15:    return row < 2 || row == 5 || row == 15;
    }
}
"#

/-- `source/bits13/char_is_unicode.cxx:615-709`. -/
def isUnicode8 : Text := cxx% r#"
bool isInTheGap0020(char16_t c)
{
    auto column = (c >> 4) & 0xF;
    auto row = c & 0xF;
    switch (column)
    {
    default:    return false;
    case 6:     return row == 5;
    case 7:     return row == 2 || row == 3;
    case 8:     return row == 15;
    case 9:     return row >= 13;
    case 12:    return true;
    case 15:    return row != 0;
    }
}

bool isInTheGap0021(char16_t c)
{
    auto column = (c >> 4) & 0xF;
    if (column == 8)
    {
        return (c & 0xF) >= 12;
    }
    return false;
}

bool isInTheGap0024(char16_t c)
{
    auto column = (c >> 4) & 0xF;
    auto row = c & 0xF;
    switch (column)
    {
    default:    return false;
    case 2:     return row >= 7;
    case 3:
    case 5:     return true;
    case 4:     return row >= 11;
    }
}

bool isInTheGap002B(char16_t c)
{
    auto column = (c >> 4) & 0xF;
    auto row = c & 0xF;
    switch (column)
    {
    default:    return false;
    case 7:     return row == 4 || row == 5;
    case 9:     return row == 6;
    }
}

bool isInTheGap002C(char16_t c)
{
    auto column = (c >> 4) & 0xF;
    auto row = c & 0xF;
    switch (column)
    {
    default:        return false;
    case 2:
    case 5:     return row == 15;
    case 15:    return row >= 4 && row <= 8;
    }
}

bool isInTheGap002D(char16_t c)
{
    auto column = (c >> 4) & 0xF;
    auto row = c & 0xF;
    switch (column)
    {
    default:    return false;
    case 2:
        switch (row)
        {
        default:    return true;
        case 0:
        case 1:
        case 2:
        case 3:
        case 4:
        case 5:
        case 7:
        case 13:    return false;
        }
    case 6:     return row >= 8 && row <= 14;
    case 7:     return row != 0 && row != 15;
    case 9:     return row >= 7;
    case 10:
    case 11:
    case 12:
    case 13:    return row == 7 || row == 15;
    }
}
"#

/-- `source/bits13/char_is_unicode.cxx:710-798`. -/
def isUnicode9 : Text := cxx% r#"
bool isInTheGap002E(char16_t c)
{
    auto column = (c >> 4) & 0xF;
    auto row = c & 0xF;
    switch (column)
    {
    default:    return false;
    case 6:
    case 7:     return true;
    case 5:     return row > 2;
    case 9:     return row == 10;
    case 15:    return row >= 4;
    }
}

bool isInTheGap002F(char16_t c)
{
    auto column = (c >> 4) & 0xF;
    auto row = c & 0xF;
    switch (column)
    {
    default:    return false;
    case 13:    return row >= 6;
    case 14:    return true;
    case 15:    return row >= 12;
    }
}

bool isInTheGap0030(char16_t c)
{
    auto column = (c >> 4) & 0xF;
    auto row = c & 0xF;
    switch (column)
    {
    default:    return false;
    case 4:     return row == 0;
    case 9:     return row == 7 || row == 8;
    }
}

bool isInTheGap0031(char16_t c)
{
    auto column = (c >> 4) & 0xF;
    auto row = c & 0xF;
    switch (column)
    {
    default:    return false;
    case 0:     return row <= 4;
    case 3:     return row == 0;
    case 8:     return row == 15;
    case 14:    return row >= 4;
    }
}

bool isInTheGap0032(char16_t c)
{
    return c == 0x321F;
}

bool isInTheGap009F(char16_t c)
{
    return (c & 0xFF) + 4 > 0x100;
}

bool isInTheGap00A4(char16_t c)
{
    auto column = (c >> 4) & 0xF;
    auto row = c & 0xF;
    switch (column)
    {
    default:    return false;
    case 8:     return row >= 13;
    case 12:    return row >= 7;
    }
}

bool isInTheGap00A6(char16_t c)
{
    auto column = (c >> 4) & 0xF;
    auto row = c & 0xF;
    switch (column)
    {
    default:    return false;
    case 2:     return row >= 12;
    case 3:     return true;
    case 15:    return row >= 8;
    }
}
"#

/-- `source/bits13/char_is_unicode.cxx:799-874`. -/
def isUnicode10 : Text := cxx% r#"
bool isInTheGap00A7(char16_t c)
{
    auto column = (c >> 4) & 0xF;
    auto row = c & 0xF;
    switch (column)
    {
    default:    return false;
    case 13:
    case 14:    return true;
    case 12:    return row <= 1 || row >= 11;
    case 15:    return row <= 4;
    }
}

bool isInTheGap00A8(char16_t c)
{
    auto column = (c >> 4) & 0xF;
    auto row = c & 0xF;
    switch (column)
    {
    default:    return false;
    case 2:     return row >= 13;
    case 3:     return row >= 10;
    case 7:     return row >= 8;
    case 12:    return row >= 6 && row <= 13;
    case 13:    return row >= 10;
    }
}

bool isInTheGap00A9(char16_t c)
{
    auto column = (c >> 4) & 0xF;
    auto row = c & 0xF;
    switch (column)
    {
    default:    return false;
    case 5:     return row >= 4 && row <= 14;
    case 7:     return row >= 13;
    case 12:    return row == 14;
    case 13:    return row >= 10 && row <= 13;
    case 15:    return row == 15;
    }
}

bool isInTheGap00AA(char16_t c)
{
    auto column = (c >> 4) & 0xF;
    auto row = c & 0xF;
    switch (column)
    {
    default:    return false;
    case 3:     return row >= 7;
    case 4:     return row >= 14;
    case 5:     return row == 10 || row == 11;
    case 12:    return row >= 3;
    case 13:    return row <= 10;
    case 15:    return row >= 7;
    }
}

bool isInTheGap00AB(char16_t c)
{
    auto column = (c >> 4) & 0xF;
    auto row = c & 0xF;
    switch (column)
    {
    default:    return false;
    case 0:     return row == 0 || row == 7 || row == 8 || row == 15;
    case 1:     return row == 0 || row >= 7;
    case 2:     return row == 7 || row == 15;
    case 6:     return row >= 12;
    case 14:    return row >= 14;
    case 15:    return row >= 10;
    }
}
"#

/-- `source/bits13/char_is_unicode.cxx:875-953`. -/
def isUnicode11 : Text := cxx% r#"
bool isInTheGap00D7_DF(char16_t c)
{
    auto page = (c >> 8) & 0xF;
    if (page == 7)
    {
        auto column = (c >> 4) & 0xF;
        auto row = c & 0xF;
        switch (column)
        {
        default:    return false;
        case 10:    return row >= 4;
        case 12:    return row >= 7 && row <= 10;
        case 15:    return row >= 12;
        }
    }
    return true;
}

bool isInTheGap00FA(char16_t c)
{
    auto column = (c >> 4) & 0xF;
    auto row = c & 0xF;
    switch (column)
    {
    default:    return false;
    case 6:     return row >= 14;
    case 13:    return row >= 10;
    case 14:
    case 15:    return true;
    }
}

bool isInTheGap00FB(char16_t c)
{
    auto column = (c >> 4) & 0xF;
    auto row = c & 0xF;
    switch (column)
    {
    default:    return false;
    case 0:     return row >= 7;
    case 1:     return row <= 2 || (row >= 8 && row <= 12);
    case 3:     return row == 7 || row ==13 || row ==15;
    case 4:     return row == 2 || row == 5;
    case 12:    return row >= 2;
    case 13:    return row <= 2;
    }
}

bool isInTheGap00FD(char16_t c)
{
    auto column = (c >> 4) & 0xF;
    auto row = c & 0xF;
    switch (column)
    {
    default:    return false;
    case 4:     return true;
    case 9:     return row <= 1;
    case 12:    return row >= 8;
    case 13:
    case 14:    return true;
    case 15:    return row >= 14;
    }
}

bool isInTheGap00FE(char16_t c)
{
    auto column = (c >> 4) & 0xF;
    auto row = c & 0xF;
    switch (column)
    {
    default:    return false;
    case 1:     return row >= 10;
    case 5:     return row == 3;
    case 6:     return row == 7 || row >= 12;
    case 7:     return row == 5;
    case 15:    return row == 13 || row == 14;
    }
}
"#

/-- `source/bits13/char_is_unicode.cxx:954-1023`. -/
def isUnicode12 : Text := cxx% r#"
bool isInTheGap00FF(char16_t c)
{
    auto column = (c >> 4) & 0xF;
    auto row = c & 0xF;
    switch (column)
    {
    default:    return false;
    case 0:     return row == 0;
    case 11:    return row == 15;
    case 12:    return row == 0 || row == 1 || row == 8 || row == 9;
    case 13:    return row <= 1 || row == 8 || row == 9 || row >= 13;
    case 14:    return row == 7 || row == 15;
    case 15:    return row <= 8 || row >= 14;
    }
}

bool isInTheGap0100(char32_t c)
{
    auto column = (c >> 4) & 0xF;
    auto row = c & 0xF;
    switch (column)
    {
    default:    return false;
    case 0:     return row == 12;
    case 2:     return row == 7;
    case 3:     return row == 11 || row == 14;
    case 4:
    case 5:     return row >= 14;
    case 6:
    case 7:     return true;
    case 15:    return row >= 11;
    }
}

bool isInTheGap0101(char32_t c)
{
    auto column = (c >> 4) & 0xF;
    auto row = c & 0xF;
    switch (column)
    {
    default:    return false;
    case 0:     return row >= 3 && row <= 6;
    case 3:     return row >= 4 && row <= 6;
    case 8:     return row == 15;
    case 9:     return row >= 13;
    case 10:    return row != 0;
    case 11:
    case 12:    return true;
    case 15:    return row >= 14;
    }
}

bool isInTheGap0102(char32_t c)
{
    auto column = (c >> 4) & 0xF;
    auto row = c & 0xF;
    switch (column)
    {
    default:    return true;
    case 8:
    case 10:
    case 11:
    case 12:
    case 14:    return false;
    case 9:     return row >= 13;
    case 13:    return row != 0;
    case 15:    return row >= 12;
    }
}
"#

/-- `source/bits13/char_is_unicode.cxx:1024-1107`. -/
def isUnicode13 : Text := cxx% r#"
bool isInTheGap0103(char32_t c)
{
    auto column = (c >> 4) & 0xF;
    auto row = c & 0xF;
    switch (column)
    {
    default:    return false;
    case 2:     return row >= 4 && row <= 12;
    case 4:
    case 7:     return row >= 11;
    case 9:     return row == 14;
    case 12:    return row >= 4 && row <= 7;
    case 13:    return row >= 6;
    case 14:
    case 15:    return true;
    }
}

bool isInTheGap0104(char32_t c)
{
    auto column = (c >> 4) & 0xF;
    auto row = c & 0xF;
    switch (column)
    {
    default:    return false;
    case 9:     return row >= 14;
    case 10:    return row >= 10;
    case 13:    return row >= 4 && row <= 7;
    case 15:    return row >= 12;
    }
}

bool isInTheGap0105(char32_t c)
{
    auto column = (c >> 4) & 0xF;
    if (column >= 7)
    {
        return true;
    }
    auto row = c & 0xF;
    switch (column)
    {
    default:    return false;
    case 2:     return row >= 8;
    case 6:     return row >= 4 && row <= 14;
    }
}

bool isInTheGap0107(char32_t c)
{
    auto column = (c >> 4) & 0xF;
    auto row = c & 0xF;
    switch (column)
    {
    default:    return true;
    case 0:
    case 1:
    case 2:
    case 4:     return false;
    case 3:     return row >= 7;
    case 5:     return row >= 6;
    case 6:     return row >= 8;
    }
}

bool isInTheGap0108(char32_t c)
{
    auto column = (c >> 4) & 0xF;
    auto row = c & 0xF;
    switch (column)
    {
    default:    return false;
    case 0:     return row == 6 || row == 7 || row == 9;
    case 3:     return row == 6 || (row >= 9 && row <= 14 && row != 12);
    case 5:     return row == 6;
    case 9:     return row == 15;
    case 10:    return row <= 6;
    case 11:
    case 12:
    case 13:    return true;
    case 15:    return row == 3 || (row >= 6 && row <= 10);
    }
}
"#

/-- `source/bits13/char_is_unicode.cxx:1108-1180`. -/
def isUnicode14 : Text := cxx% r#"
bool isInTheGap0109(char32_t c)
{
    auto column = (c >> 4) & 0xF;
    auto row = c & 0xF;
    switch (column)
    {
    default:    return false;
    case 1:     return row >= 12 && row <= 14;
    case 3:     return row >= 10 && row <= 14;
    case 4:
    case 5:
    case 6:
    case 7:     return true;
    case 11:    return row >= 8 && row <= 11;
    case 13:    return row <= 1;
    }
}

bool isInTheGap010A(char32_t c)
{
    auto column = (c >> 4) & 0xF;
    auto row = c & 0xF;
    switch (column)
    {
    default:    return false;
    case 0:     return row == 4 || (row >= 7 && row <= 11);
    case 1:     return row == 4 || row == 8;
    case 3:     return row == 6 || row == 7 || (row >= 11 && row <= 14);
    case 4:
    case 5:     return row >= 9;
    case 10:
    case 11:    return true;
    case 14:    return row >= 7 && row <= 10;
    case 15:    return row >= 7;
    }
}

bool isInTheGap010B(char32_t c)
{
    auto column = (c >> 4) & 0xF;
    auto row = c & 0xF;
    switch (column)
    {
    default:    return false;
    case 3:     return row >= 6 && row <= 8;
    case 5:     return row == 6 || row == 7;
    case 7:     return row >= 3 && row <= 7;
    case 9:     return (row >= 2 && row <= 8) || row >= 13;
    case 10:    return row <= 8;
    case 11:
    case 12:
    case 13:
    case 14:
    case 15:    return true;
    }
}

bool isInTheGap010C(char32_t c)
{
    auto column = (c >> 4) & 0xF;
    auto row = c & 0xF;
    switch (column)
    {
    default:    return false;
    case 4:     return row >= 9;
    case 5:
    case 6:
    case 7:     return true;
    case 11:    return row >= 3;
    case 15:    return row >= 3 && row <= 9;
    }
}
"#

/-- `source/bits13/char_is_unicode.cxx:1181-1262`. -/
def isUnicode15 : Text := cxx% r#"
bool isInTheGap010D(char32_t c)
{
    auto column = (c >> 4) & 0xF;
    auto row = c & 0xF;
    switch (column)
    {
    default:    return true;
    case 0:
    case 1:     return false;
    case 2:     return row >= 8;
    case 3:     return row >= 10;
    }
}

bool isInTheGap010E(char32_t c)
{
    auto column = (c >> 4) & 0xF;
    auto row = c & 0xF;
    switch (column)
    {
    default:    return true;
    case 6:
    case 8:
    case 9:     return false;
    case 7:     return row == 15;
    case 10:    return row == 10 || row >= 14;
    case 11:    return row >= 2;
    }
}

bool isInTheGap010F(char32_t c)
{
    auto column = (c >> 4) & 0xF;
    auto row = c & 0xF;
    switch (column)
    {
    case 0:
    case 1:
    case 3:
    case 4:
    case 11:
    case 14:    return false;

    case 2:     return row >= 8;
    case 5:     return row >= 10;
    case 12:    return row >= 12;
    case 15:    return row >= 7;
    default:    return true;
    }
}

bool isInTheGap0110(char32_t c)
{
    auto column = (c >> 4) & 0xF;
    auto row = c & 0xF;
    switch (column)
    {
    default:    return false;
    case 4:     return row >= 14;
    case 5:     return row <= 1;
    case 7:     return row <= 14;
    case 12:    return row >= 2 && row != 13;
    case 14:    return row >= 9;
    case 15:    return row >= 10;
    }
}

bool isInTheGap0111(char32_t c)
{
    auto column = (c >> 4) & 0xF;
    auto row = c & 0xF;
    switch (column)
    {
    default:    return false;
    case 3:     return row == 5;
    case 4:     return row >= 8;
    case 7:     return row >= 7;
    case 14:    return row == 0;
    case 15:    return row >= 5;
    }
}
"#

/-- `source/bits13/char_is_unicode.cxx:1263-1332`. -/
def isUnicode16 : Text := cxx% r#"
bool isInTheGap0112(char32_t c)
{
    auto column = (c >> 4) & 0xF;
    auto row = c & 0xF;
    switch (column)
    {
    default:    return false;
    case 1:     return row == 2;
    case 3:     return row == 15;
    case 4:
    case 5:
    case 6:
    case 7:     return true;
    case 8:     return row == 7 || row == 9 || row == 14;
    case 9:     return row == 14;
    case 10:    return row >= 10;
    case 14:    return row >= 11;
    case 15:    return row >= 10;
    }
}

bool isInTheGap0113(char32_t c)
{
    auto column = (c >> 4) & 0xF;
    if (column >= 8)
    {
        return true;
    }
    auto row = c & 0xF;
    switch (column)
    {
    default:    return false;
    case 0:     return row == 4 || row == 13 || row == 14;
    case 1:     return row == 1 || row == 2;
    case 2:     return row == 9;
    case 3:     return row == 1 || row == 4 || row == 10;
    case 4:
        switch (row)
        {
            default:    return false;
            case 5:
            case 6:
            case 9:
            case 10:
            case 14:
            case 15:    return true;
        }
    case 5:     return (row >= 1 && row <= 6) || (row >= 8 && row <= 12);
    case 6:     return row == 4 || row == 5 || row >= 13;
    case 7:     return row >= 5;
    }
}

bool isInTheGap0114(char32_t c)
{
    auto column = (c >> 4) & 0xF;
    auto row = c & 0xF;
    switch (column)
    {
    default:    return false;
    case 5:     return row == 12;
    case 6:     return row >= 2;
    case 12:    return row >= 8;
    case 13:    return row >= 10;
    case 7:
    case 14:
    case 15:    return true;
    }
}
"#

/-- `source/bits13/char_is_unicode.cxx:1333-1420`. -/
def isUnicode17 : Text := cxx% r#"
bool isInTheGap0115(char32_t c)
{
    auto column = (c >> 4) & 0xF;
    auto row = c & 0xF;
    switch (column)
    {
    default:    return true;
    case 8:
    case 9:
    case 10:
    case 12:    return false;
    case 11:    return row == 6 || row == 7;
    case 13:    return row >= 14;
    }
}

bool isInTheGap0116(char32_t c)
{
    auto column = (c >> 4) & 0xF;
    auto row = c & 0xF;
    switch (column)
    {
    default:    return false;
    case 4:     return row >= 5;
    case 5:     return row >= 10;
    case 6:     return row >= 13;
    case 7:
    case 13:
    case 14:
    case 15:    return true;
    case 11:    return row >= 9;
    case 12:    return row >= 10;
    }
}

bool isInTheGap0117(char32_t c)
{
    auto column = (c >> 4) & 0xF;
    auto row = c & 0xF;
    switch (column)
    {
    default:    return true;
    case 0:
    case 3:     return false;
    case 1:     return row == 11 || row == 12;
    case 2:     return row >= 12;
    }
}

bool isInTheGap0118(char32_t c)
{
    auto column = (c >> 4) & 0xF;
    auto row = c & 0xF;
    switch (column)
    {
    default:    return false;
    case 3:     return row >= 12;
    case 4:
    case 5:
    case 6:
    case 7:
    case 8:
    case 9:     return true;
    case 15:    return row >= 3 && row <= 14;
    }
}

bool isInTheGap0119(char32_t c)
{
    auto column = (c >> 4) & 0xF;
    auto row = c & 0xF;
    switch (column)
    {
    default:    return true;
    case 0:     return row == 7 || row == 8 || row == 10 || row == 11;
    case 1:     return row == 4 || row == 7;
    case 3:     return row == 6 || row == 9 || row == 10;
    case 4:     return row >= 7;
    case 5:     return row >= 10;
    case 10:
    case 13:    return row == 8 || row == 9;
    case 14:    return row >= 5;
    case 2:
    case 11:
    case 12:    return false;
    }
}
"#

/-- `source/bits13/char_is_unicode.cxx:1421-1503`. -/
def isUnicode18 : Text := cxx% r#"
bool isInTheGap011A(char32_t c)
{
    auto column = (c >> 4) & 0xF;
    auto row = c & 0xF;
    switch (column)
    {
    default:    return false;
    case 4:     return row >= 8;
    case 10:    return row >= 3;
    case 11:    return true;
    case 15:    return row >= 9;
    }
}

bool isInTheGap011C(char32_t c)
{
    auto column = (c >> 4) & 0xF;
    auto row = c & 0xF;
    switch (column)
    {
    default:    return false;
    case 0:     return row == 9;
    case 3:     return row == 7;
    case 4:     return row >= 6;
    case 6:     return row >= 13;
    case 9:     return row <= 1;
    case 10:    return row == 8;
    case 11:    return row >= 7;
    case 12:
    case 13:
    case 14:
    case 15:    return true;
    }
}

bool isInTheGap011D(char32_t c)
{
    auto column = (c >> 4) & 0xF;
    auto row = c & 0xF;
    switch (column)
    {
    case 0:     return row == 7 || row == 10;
    case 1:
    case 2:
    case 7:     return false;
    case 3:     return ( row >= 7 && row <= 9 ) || row == 11 || row == 14;
    case 4:     return row >= 8;
    case 5:
    case 10:    return row >= 10;
    case 6:     return row == 6 || row == 9;
    case 8:     return row == 15;
    case 9:     return row == 2 || row >= 9;
    default:    return true;
    }
}

bool isInTheGap011E(char32_t c)
{
    auto column = (c >> 4) & 0xF;
    auto row = c & 0xF;
    switch (column)
    {
    default:    return true;
    case 14:    return false;
    case 15:    return row >= 9;
    }
}

bool isInTheGap011F(char32_t c)
{
    auto column = (c >> 4) & 0xF;
    auto row = c & 0xF;
    switch (column)
    {
    default:    return true;
    case 12:
    case 13:
    case 14:    return false;
    case 11:    return row != 0;
    case 15:    return row >= 2 && row < 15;
    }
}
"#

/-- `source/bits13/char_is_unicode.cxx:1504-1592`. -/
def isUnicode19 : Text := cxx% r#"
bool isInTheGap0123(char32_t c)
{
    auto column = (c >> 4) & 0xF;
    if (column >= 10)
    {
        return true;
    }

    auto row = c & 0xF;
    switch (column)
    {
    default:    return false;
    case 9:     return row >= 10;
    }
}

bool isInTheGap0124(char32_t c)
{
    auto column = (c >> 4) & 0xF;
    auto row = c & 0xF;
    switch (column)
    {
    default:    return false;
    case 6:     return row == 15;
    case 7:     return row >= 5;
    }
}

bool isInTheGap0125(char32_t c)
{
    auto column = (c >> 4) & 0xF;
    if (column < 4)
    {
        return false;
    }
    if (column > 4)
    {
        return true;
    }
    return (c & 0xF) >= 4;
}

bool isInTheGap0134(char32_t c)
{
    auto column = (c >> 4) & 0xF;
    auto row = c & 0xF;
    switch (column)
    {
    case 0:
    case 1:     return false;
    case 2:     return row == 15;
    case 3:     return row >= 9;
    default:    return true;
    }
}

bool isInTheGap0146(char32_t c)
{
    auto column = (c >> 4) & 0xF;
    if (column < 4)
    {
        return false;
    }
    if (column > 4)
    {
        return true;
    }
    return (c & 0xF) >= 7;
}

bool isInTheGap016A(char32_t c)
{
    auto column = (c >> 4) & 0xF;
    if (column >= 7 && column <= 12)
    {
        return true;
    }
    auto row = c & 0xF;
    switch (column)
    {
    default:    return false;
    case 3:     return row >= 9;
    case 5:     return row == 15;
    case 6:     return row >= 10 && row <= 13;
    case 14:    return row >= 14;
    case 15:    return row >= 6;
    }
}
"#

/-- `source/bits13/char_is_unicode.cxx:1593-1688`. -/
def isUnicode20 : Text := cxx% r#"
bool isInTheGap016B(char32_t c)
{
    auto column = (c >> 4) & 0xF;
    if (column >= 9)
    {
        return true;
    }

    auto row = c & 0xF;
    switch (column)
    {
    default:    return false;
    case 4:     return row >= 6;
    case 5:     return row == 10;
    case 6:     return row == 2;
    case 7:     return row >= 8 && row <= 12;
    }
}

bool isInTheGap016E(char32_t c)
{
    auto column = (c >> 4) & 0xF;
    if (column < 4 || column > 9)
    {
        return true;
    }
    if (column != 9)
    {
        return false;
    }

    return (c & 0xF) >= 11;
}

bool isInTheGap016F(char32_t c)
{
    auto column = (c >> 4) & 0xF;
    if (column >= 10 && column <= 13)
    {
        return true;
    }

    auto row = c & 0xF;
    switch (column)
    {
    default:    return false;
    case 4:     return row >= 11 && row <= 14;
    case 8:     return row >= 8 && row <= 14;
    case 14:    return row >= 5;
    case 15:    return row >= 2;
    }
}

bool isInTheGap0187(char32_t c)
{
    if (((c >> 4) & 0xF) != 15)
    {
        return false;
    }
    return (c & 0xF) >= 8;
}

bool isInTheGap018C(char32_t c)
{
    auto column = (c >> 4) & 0xF;
    auto row = c & 0xF;
    switch (column)
    {
    default:    return false;
    case 13:    return row >= 6;
    case 14:
    case 15:    return true;
    }
}

bool isInTheGap018D(char32_t c)
{
    return (c & 0xFF) >= 9;
}

bool isInTheGap01B1(char32_t c)
{
    auto column = (c >> 4) & 0xF;
    auto row = c & 0xF;
    switch (column)
    {
    default:    return false;
    case 1:     return row == 15;
    case 5:     return row >= 3;
    case 6:     return row <= 3 || row >= 8;
    case 2:
    case 3:
    case 4:     return true;
    }
}
"#

/-- `source/bits13/char_is_unicode.cxx:1689-1775`. -/
def isUnicode21 : Text := cxx% r#"
bool isInTheGap01B2(char32_t c)
{
    return (c & 0xFF) >= 0xFC;
}

bool isInTheGap01BC(char32_t c)
{
    auto column = (c >> 4) & 0xF;
    if (column >= 11)
    {
        return true;
    }

    auto row = c & 0xF;
    switch (column)
    {
    default:    return false;
    case 6:     return row >= 11;
    case 7:     return row >= 13;
    case 8:     return row >= 9;
    case 9:     return row == 10 || row == 11;
    case 10:    return row >= 4;
    }
}

bool isInTheGap01D0(char32_t c)
{
    return (c & 0xFF) >= 0xF6;
}

bool isInTheGap01D1(char32_t c)
{
    auto column = (c >> 4) & 0xF;
    auto row = c & 0xF;
    switch (column)
    {
    default:    return false;
    case 2:     return row == 7 || row == 8;
    case 14:    return row >= 9;
    case 15:    return true;
    }
}

bool isInTheGap01D2(char32_t c)
{
    auto column = (c >> 4) & 0xF;
    auto row = c & 0xF;
    switch (column)
    {
    default:    return true;
    case 0:
    case 1:
    case 2:
    case 3:
    case 14:    return false;
    case 4:     return row >= 6;
    case 15:    return row >= 4;
    }
    if (column < 4)
    {
        return false;
    }
    if (column > 4)
    {
        return true;
    }
    return (c & 0xF) >= 6;
}

bool isInTheGap01D3(char32_t c)
{
    auto column = (c >> 4) & 0xF;
    auto row = c & 0xF;
    switch (column)
    {
    default:    return true;
    case 0:
    case 1:
    case 2:
    case 3:
    case 4:
    case 6:     return false;
    case 5:     return row >= 7;
    case 7:     return row >= 9;
    }
}
"#

/-- `source/bits13/char_is_unicode.cxx:1776-1862`. -/
def isUnicode22 : Text := cxx% r#"
bool isInTheGap01D4(char32_t c)
{
    auto column = (c >> 4) & 0xF;
    auto row = c & 0xF;
    switch (column)
    {
    default:    return false;
    case 5:     return row == 5;
    case 9:     return row == 13;
    case 10:
        switch (row)
        {
        default:    return false;
        case 0:
        case 1:
        case 3:
        case 4:
        case 7:
        case 8:
        case 13:    return true;
        }
    case 11:    return row == 10 || row == 12;
    case 12:    return row == 4;
    }
}

bool isInTheGap01D5(char32_t c)
{
    auto column = (c >> 4) & 0xF;
    auto row = c & 0xF;
    switch (column)
    {
    default:    return false;
    case 0:     return row == 6 || row == 11 || row == 12;
    case 1:     return row == 5 || row == 13;
    case 3:     return row == 10 || row == 15;
    case 4:     return row >= 5 && row <= 9 && row != 6;
    case 5:     return row == 1;
    }
}

bool isInTheGap01D6(char32_t c)
{
    auto offset = c & 0xFF;
    return offset == 0xA6 || offset == 0xA7;
}

bool isInTheGap01D7(char32_t c)
{
    auto offset = c & 0xFF;
    return offset == 0xCC || offset == 0xCD;
}

bool isInTheGap01DA(char32_t c)
{
    auto column = (c >> 4) & 0xF;
    if (column >= 11)
    {
        return true;
    }
    auto row = c & 0xF;
    switch (column)
    {
    default:    return false;
    case 8:     return row >= 12;
    case 9:     return row <= 10;
    case 10:    return row == 0;
    }
}

bool isInTheGap01E0(char32_t c)
{
    auto column = (c >> 4) & 0xF;
    if (column >= 3)
    {
        return true;
    }
    auto row = c & 0xF;
    switch (column)
    {
    case 0:     return row == 7;
    case 1:     return row == 9 || row == 10;
    case 2:     return row == 2 || row == 5 || row >= 11;
    default:    return true;
    }
}
"#

/-- `source/bits13/char_is_unicode.cxx:1863-1958`. -/
def isUnicode23 : Text := cxx% r#"
bool isInTheGap01E1(char32_t c)
{
    auto column = (c >> 4) & 0xF;
    auto row = c & 0xF;
    switch (column)
    {
    case 0:
    case 1:     return false;
    case 2:     return row >= 13;
    case 3:     return row >= 14;
    case 4:     return row >= 10 && row <= 13;
    default:    return true;
    }
}

bool isInTheGap01E2(char32_t c)
{
    auto column = (c >> 4) & 0xF;
    auto row = c & 0xF;
    switch (column)
    {
    case 12:
    case 13:
    case 14:    return false;
    case 15:    return row >= 10 && row <= 14;
    default:    return true;
    }
}

bool isInTheGap01E8(char32_t c)
{
    auto column = (c >> 4) & 0xF;
    if (column >= 14)
    {
        return true;
    }
    auto row = c & 0xF;
    switch (column)
    {
    default:    return false;
    case 12:    return row == 5 || row == 6;
    case 13:    return row >= 7;
    }
}

bool isInTheGap01E9(char32_t c)
{
    auto column = (c >> 4) & 0xF;
    if (column >= 6)
    {
        return true;
    }
    else if (column < 4)
    {
        return false;
    }
    auto row = c & 0xF;
    if (column == 4)
    {
        return row >= 12;
    }
    else    // if (column == 5)
    {
        return row >= 10 && row <= 13;
    }
}

bool isInTheGap01EC(char32_t c)
{
    auto column = (c >> 4) & 0xF;
    auto row = c & 0xF;
    switch (column)
    {
    default:    return true;
    case 7:     return row == 0;
    case 8:
    case 9:
    case 10:    return false;
    case 11:    return row >= 5;
    }
}

bool isInTheGap01ED(char32_t c)
{
    auto column = (c >> 4) & 0xF;
    auto row = c & 0xF;
    switch (column)
    {
    default:    return true;
    case 0:     return row == 0;
    case 1:
    case 2:     return false;
    case 3:     return row >= 14;
    }
}
"#

/-- `source/bits13/char_is_unicode.cxx:1959-2045`. -/
def isUnicode24 : Text := cxx% r#"
bool isInTheGap01EE(char32_t c)
{
    auto column = (c >> 4) & 0xF;
    auto row = c & 0xF;
    switch (column)
    {
    default:    return false;
    case 0:     return row == 4;
    case 2:
        switch (row)
        {
        default:    return false;
        case 0:
        case 3:
        case 5:
        case 6:
        case 8:     return true;
        }
    case 3:
        switch (row)
        {
        default:    return false;
        case 3:
        case 8:
        case 10:
        case 12:
        case 13:
        case 14:
        case 15:    return true;
        }
     case 4:
        switch (row)
        {
        default:    return false;
        case 0:
        case 1:
        case 3:
        case 4:
        case 5:
        case 6:
        case 8:
        case 10:
        case 12:    return true;
        }
    case 5:
        switch (row)
        {
        default:    return false;
        case 0:
        case 3:
        case 5:
        case 6:
        case 8:
        case 10:
        case 12:
        case 14:    return true;
        }
    case 6:     return row == 0 || row == 3 || row == 5 || row == 6 || row == 11;
    case 7:     return row == 3 || row == 8 || row == 13 || row == 15;
    case 8:     return row == 10;
    case 9:     return row >= 12;
    case 10:    return row == 0 || row == 4 || row == 10;
    case 11:    return row >= 12;
    case 12:
    case 13:
    case 14:    return true;
    case 15:    return row >= 2;
    }
}

bool isInTheGap01F0(char32_t c)
{
    auto column = (c >> 4) & 0xF;
    auto row = c & 0xF;
    switch (column)
    {
    default:    return false;
    case 2:     return row >= 12;
    case 9:     return row >= 4;
    case 10:    return row == 15;
    case 11:
    case 12:
    case 13:    return row == 0;
    case 15:    return row >= 6;
    }
}
"#

/-- `source/bits13/char_is_unicode.cxx:2046-2136`. -/
def isUnicode25 : Text := cxx% r#"
bool isInTheGap01F1(char32_t c)
{
    auto column = (c >> 4) & 0xF;
    auto row = c & 0xF;
    switch (column)
    {
    default:    return false;
    case 10:    return row >= 14;
    case 11:
    case 12:
    case 13:    return true;
    case 14:    return row <= 5;
    }
}

bool isInTheGap01F2(char32_t c)
{
    auto column = (c >> 4) & 0xF;
    if (column >= 7)
    {
        return true;
    }
    auto row = c & 0xF;
    switch (column)
    {
    default:    return false;
    case 0:     return row >= 3;
    case 3:     return row >= 12;
    case 4:     return row >= 9;
    case 5:     return row >= 2;
    case 6:     return row >= 6;
    }
}

bool isInTheGap01F6(char32_t c)
{
    auto column = (c >> 4) & 0xF;
    if (column < 13)
    {
        return false;
    }

    auto row = c & 0xF;
    switch (column)
    {
    default:    return false;
    case 13:    return row >= 8;
    case 14:    return row >= 13;
    case 15:    return row >= 13;
    }
}

bool isInTheGap01F7(char32_t c)
{
    auto column = (c >> 4) & 0xF;
    if (column < 7)
    {
        return false;
    }

    auto row = c & 0xF;
    switch (column)
    {
    default:    return false;
    case 7:     return row >= 4;
    case 13:    return row >= 9;
    case 14:    return row >= 12;
    case 15:    return true;
    }
}

bool isInTheGap01F8(char32_t c)
{
    auto column = (c >> 4) & 0xF;
    if (column > 11)
    {
        return true;
    }
    auto row = c & 0xF;
    switch (column)
    {
    default:    return false;
    case 0:     return row >= 12;
    case 4:     return row >= 8;
    case 5:     return row >= 10;
    case 8:     return row >= 8;
    case 10:    return row >= 14;
    case 11:    return row >= 2;
    }
}
"#

/-- `source/bits13/char_is_unicode.cxx:2137-2358`. -/
def isUnicode26 : Text := cxx% r#"
bool isInTheGap01F9(char32_t c)
{
    auto column = (c >> 4) & 0xF;
    auto row = c & 0xF;
    switch (column)
    {
    default:    return false;
    case 7:     return row == 9;
    case 12:    return row == 12;
    }
}

bool isInTheGap01FA(char32_t c)
{
    auto column = (c >> 4) & 0xF;
    if (column >= 14)
    {
        return true;
    }
    auto row = c & 0xF;
    switch (column)
    {
    case 5:     return row >= 4;
    case 6:     return row >= 14;
    case 7:     return (row >= 5 && row <= 7) || row >= 11;
    case 8:     return row >= 7;
    case 10:    return row >= 9;
    case 11:    return row >= 7;
    case 12:    return row >= 3;
    case 13:    return row >= 7;
    default:    return false;
    }
}

bool isInTheGap01FB(char32_t c)
{
    auto column = (c >> 4) & 0xF;
    auto row = c & 0xF;
    switch (column)
    {
    default:    return false;
    case 9:     return row == 3;
    case 12:    return row >= 11;
    case 15:    return row >= 10;
    case 13:
    case 14:    return true;
    }
}

bool isInTheGap01(char32_t c)
{
    auto page = (c >> 8) & 0xFF;
    auto sheaf = page >> 4;
    page &= 0xF;

    switch (sheaf)
    {
    default:    return true;
    case 0:     // U+10xxx
        switch (page)
        {
        default:    return false;

        case 0:     return isInTheGap0100(c);
        case 1:     return isInTheGap0101(c);
        case 2:     return isInTheGap0102(c);
        case 3:     return isInTheGap0103(c);
        case 4:     return isInTheGap0104(c);
        case 5:     return isInTheGap0105(c);
        case 7:     return isInTheGap0107(c);
        case 8:     return isInTheGap0108(c);
        case 9:     return isInTheGap0109(c);
        case 10:    return isInTheGap010A(c);
        case 11:    return isInTheGap010B(c);
        case 12:    return isInTheGap010C(c);
        case 13:    return isInTheGap010D(c);
        case 14:    return isInTheGap010E(c);
        case 15:    return isInTheGap010F(c);
        }

    case 1:     // U+11xxx
        switch (page)
        {
        default:    return true;

        case 0:     return isInTheGap0110(c);
        case 1:     return isInTheGap0111(c);
        case 2:     return isInTheGap0112(c);
        case 3:     return isInTheGap0113(c);
        case 4:     return isInTheGap0114(c);
        case 5:     return isInTheGap0115(c);
        case 6:     return isInTheGap0116(c);
        case 7:     return isInTheGap0117(c);
        case 8:     return isInTheGap0118(c);
        case 9:     return isInTheGap0119(c);
        case 10:    return isInTheGap011A(c);
        case 12:    return isInTheGap011C(c);
        case 13:    return isInTheGap011D(c);
        case 14:    return isInTheGap011E(c);
        case 15:    return isInTheGap011F(c);
        }

    case 2:     // U+12xxx
        switch (page)
        {
        default:    return true;
        case 0:
        case 1:
        case 2:     return false;
        case 3:     return isInTheGap0123(c);
        case 4:     return isInTheGap0124(c);
        case 5:     return isInTheGap0125(c);
        }

    case 3:     // U+13xxx
        switch (page)
        {
        default:    return true;
        case 0:
        case 1:
        case 2:
        case 3:     return false;
        case 4:     return isInTheGap0134(c);
        }

    case 4:     // U+14xxx
        switch (page)
        {
        default:    return true;
        case 4:
        case 5:     return false;
        case 6:     return isInTheGap0146(c);
        }

    case 6:     // U+16xxx
        switch (page)
        {
        default:    return true;
        case 8:
        case 9:     return false;
        case 10:    return isInTheGap016A(c);
        case 11:    return isInTheGap016B(c);
        case 14:    return isInTheGap016E(c);
        case 15:    return isInTheGap016F(c);
        }

    case 7:         return false;
    case 8:
        switch (page)
        {
        default:    return false;
        case 7:     return isInTheGap0187(c);
        case 12:    return isInTheGap018C(c);
        case 13:    return isInTheGap018D(c);
        case 14:
        case 15:    return true;
        }

    case 11:    // U+1Bxxx
        switch (page)
        {
        default:    return true;
        case 0:     return false;
        case 1:     return isInTheGap01B1(c);
        case 2:     return isInTheGap01B2(c);
        case 12:    return isInTheGap01BC(c);
        }

    case 13:    // U+1Dxxx
        switch(page)
        {
        default:    return true;

        case 8:
        case 9:     return false;

        case 0:     return isInTheGap01D0(c);
        case 1:     return isInTheGap01D1(c);
        case 2:     return isInTheGap01D2(c);
        case 3:     return isInTheGap01D3(c);
        case 4:     return isInTheGap01D4(c);
        case 5:     return isInTheGap01D5(c);
        case 6:     return isInTheGap01D6(c);
        case 7:     return isInTheGap01D7(c);
        case 10:    return isInTheGap01DA(c);
        }

    case 14:    // U+1Exxx
        switch(page)
        {
        default:    return true;
        case 0:     return isInTheGap01E0(c);
        case 1:     return isInTheGap01E1(c);
        case 2:     return isInTheGap01E2(c);
        case 8:     return isInTheGap01E8(c);
        case 9:     return isInTheGap01E9(c);
        case 12:    return isInTheGap01EC(c);
        case 13:    return isInTheGap01ED(c);
        case 14:    return isInTheGap01EE(c);
        }

    case 15:    // U+1Fxxx
        switch(page)
        {
        default:    return true;
        case 3:
        case 4:
        case 5:     return false;

        case 0:     return isInTheGap01F0(c);
        case 1:     return isInTheGap01F1(c);
        case 2:     return isInTheGap01F2(c);
        case 6:     return isInTheGap01F6(c);
        case 7:     return isInTheGap01F7(c);
        case 8:     return isInTheGap01F8(c);
        case 9:     return isInTheGap01F9(c);
        case 10:    return isInTheGap01FA(c);
        case 11:    return isInTheGap01FB(c);
        }
    }
}
"#

/-- `source/bits13/char_is_unicode.cxx:2359-2489`. -/
def isUnicode27 : Text := cxx% r#"
bool isInTheGap02A6(char32_t c)
{
    auto column = (c >> 4) & 0xF;
    if (column < 13)
    {
        return false;
    }
    if (column > 13)
    {
        return true;
    }
    return (c & 0xF) >= 14;
}

bool isInTheGap02B7(char32_t c)
{
    if (((c >> 4) & 0xF) == 3)
    {
        return (c & 0xF) >= 5;
    }
    else
    {
        return false;
    }
}

bool isInTheGap02B8(char32_t c)
{
    if (((c >> 4) & 0xF) == 1)
    {
        return (c & 0xF) >= 14;
    }
    else
    {
        return false;
    }
}

bool isInTheGap02CE(char32_t c)
{
    // 2ce00..2ce9f -- all in
    // 2cea0, 2cea1 -- in; 2cea2..2ceaf -- out
    // 2ceb0..2ceff -- in
    auto column = (c >> 4) & 0xF;
    auto row = c & 0xF;
    switch (column)
    {
    default:    return false;   // 0..9; 11..15
    case 10:    return row >= 2;
    }
}

bool isInTheGap02EB(char32_t c)
{
    auto column = (c >> 4) & 0xF;
    switch (column)
    {
    default:    return false;
    case 14:    return (c & 0xF) > 0;
    case 15:    return true;
    }
}

bool isInTheGap02FA(char32_t c)
{
    auto column = (c >> 4) & 0xF;
    if (column < 1)
    {
        return false;
    }
    if (column > 1)
    {
        return true;
    }
    return (c & 0xF) >= 14;
}

bool isInTheGap02(char32_t c)
{
    auto page = (c >> 8) & 0xFF;
    auto sheaf = page >> 4;
    page &= 0xF;

    switch (sheaf)
    {
    default:    return false;
    case 10:
        if (page == 6)
        {
            return isInTheGap02A6(c);
        }
        else
        {
            return false;
        }
    case 11:
        switch (page)
        {
        default:    return false;
        case 7:     return isInTheGap02B7(c);
        case 8:     return isInTheGap02B8(c);
        }
    case 12:
        switch (page)
        {
        default:    return false;
        case 14:    return isInTheGap02CE(c);
        }
    case 14: // 0x2e000...0x2eaff -- all in
        switch (page)
        {
        default:    return false;
        case 11:    return isInTheGap02EB(c);
        case 12:
        case 13:
        case 14:
        case 15:    return true;
        }
    case 15:
        if (page < 8 || page > 10)
        {
            return true;
        }
        if (page < 10)
        {
            return false;
        }
        return isInTheGap02FA(c);
    }
}
"#

/-- `source/bits13/char_is_unicode.cxx:2490-2641`. -/
def isUnicode28 : Text := cxx% r#"
bool isInTheGap03(char32_t c)
{
    auto page = (c >> 8) & 0xFF;
    if (page == 19)
    {
        return (c & 0xFF) >= 75;
    }
    return page > 19;
}

bool isInTheGap0E(char32_t c)
{
    auto page = (c >> 8) & 0xFF;
    auto sheaf = page >> 4;
    page &= 0xF;

    if (sheaf > 0 || page > 1)
    {
        return true;
    }

    auto column = (c >> 4) & 0xF;
    auto row = c & 0xF;
    if (page == 0)
    {
        if (column >= 8 || column == 1)
        {
            return true;
        }
        else if (column == 0)
        {
            return row != 1;
        }
        return false;
    }
    else
    {
        return column > 14;
    }
}

}

bool isUnicodeAssigned(char16_t c)
{
    auto page = (c >> 8) & 0xFF;
    auto sheaf = page >> 4;
    page &= 0xF;

    switch (sheaf)
    {
    default:    return true;
    case 0:
        switch (page)
        {
        default:    return true;
        case 3:     return !isInTheGap0003(c);
        case 5:     return !isInTheGap0005(c);
        case 6:     return !isInTheGap0006(c);
        case 7:     return !isInTheGap0007(c);
        case 8:     return !isInTheGap0008(c);
        case 9:     return !isInTheGap0009(c);
        case 10:    return !isInTheGap000A(c);
        case 11:    return !isInTheGap000B(c);
        case 12:    return !isInTheGap000C(c);
        case 13:    return !isInTheGap000D(c);
        case 14:    return !isInTheGap000E(c);
        case 15:    return !isInTheGap000F(c);
        }

    case 1:
        switch (page)
        {
        default:    return true;
        case 0:     return !isInTheGap0010(c);
        case 2:     return !isInTheGap0012(c);
        case 3:     return !isInTheGap0013(c);
        case 6:     return !isInTheGap0016(c);
        case 7:     return !isInTheGap0017(c);
        case 8:     return !isInTheGap0018(c);
        case 9:     return !isInTheGap0019(c);
        case 10:    return !isInTheGap001A(c);
        case 11:    return !isInTheGap001B(c);
        case 12:    return !isInTheGap001C(c);
        case 13:    return c != 0x1DFA;
        case 15:    return !isInTheGap001F(c);
        }

    case 2:
        switch (page)
        {
        default:    return true;
        case 0:     return !isInTheGap0020(c);
        case 1:     return !isInTheGap0021(c);
        case 4:     return !isInTheGap0024(c);
        case 11:    return !isInTheGap002B(c);
        case 12:    return !isInTheGap002C(c);
        case 13:    return !isInTheGap002D(c);
        case 14:    return !isInTheGap002E(c);
        case 15:    return !isInTheGap002F(c);
        }

    case 3:
        switch (page)
        {
        default:    return true;
        case 0:     return !isInTheGap0030(c);
        case 1:     return !isInTheGap0031(c);
        case 2:     return !isInTheGap0032(c);
        }

    case 9:     return (page == 15) ? !isInTheGap009F(c) : true;

    case 10:
        switch (page)
        {
        default:    return true;
        case 4:     return !isInTheGap00A4(c);
        case 6:     return !isInTheGap00A6(c);
        case 7:     return !isInTheGap00A7(c);
        case 8:     return !isInTheGap00A8(c);
        case 9:     return !isInTheGap00A9(c);
        case 10:    return !isInTheGap00AA(c);
        case 11:    return !isInTheGap00AB(c);
        }

    case 13:    return (page >= 7) ? !isInTheGap00D7_DF(c) : true;
    case 14:    return false;
    case 15:
        switch (page)
        {
        default:    return true;
        case 0:
        case 1:
        case 2:
        case 3:
        case 4:
        case 5:
        case 6:
        case 7:
        case 8:     return false;
        case 10:    return !isInTheGap00FA(c);
        case 11:    return !isInTheGap00FB(c);
        case 13:    return !isInTheGap00FD(c);
        case 14:    return !isInTheGap00FE(c);
        case 15:    return !isInTheGap00FF(c);
        }
    }

    return true;
}
"#

/-- `source/bits13/char_is_unicode.cxx:2642-2748`. -/
def isUnicode29 : Text := cxx% r#"
bool isUnicodeAssigned(char32_t c)
{
    switch(c >> 16)
    {
    default:    return false;
    case 0:     return isUnicodeAssigned(static_cast<char16_t>(c & 0xFFFF));
    case 1:     return !isInTheGap01(c);
    case 2:     return !isInTheGap02(c);
    case 3:     return !isInTheGap03(c);
    case 14:    return !isInTheGap0E(c);
    }
}

bool isUnicodePrivate(char16_t c)
{
    auto page = (c >> 8) & 0xFF;
    auto sheaf = page >> 4;
    page &= 0xF;

    switch (sheaf)
    {
    default:    return false;
    case 14:    return true;
    case 15:    return page < 9;
    }
}

bool isUnicodePrivate(char32_t c)
{
    switch(c >> 16)
    {
    default:    return false;
    case 0:     return isUnicodePrivate(static_cast<char16_t>(c & 0xFFFF));
    case 15:
    case 16:    return (c & 0xFFFF) <= 0xFFFD;
    }
}

bool isControlChar(char c)
{
    unsigned u = static_cast<unsigned char>(c);
    return u < 0x20 || (u >= 0x7f && u < 0xA0);
}

bool isControlChar(char16_t c)
{
    if ((c & ~0xFF) != 0)
    {
        return false;
    }
    return isControlChar(static_cast<char>(c & 0xFF));
}

bool isControlChar(char32_t c)
{
    if ((c & ~0xFF) != 0)
    {
        return false;
    }
    return isControlChar(static_cast<char>(c & 0xFF));
}

bool isWhitespaceChar(char c)
{
    switch (static_cast<unsigned char>(c))
    {
    default:    return false;
    case 9:
    case 10:
    case 11:
    case 12:
    case 13:
    case 32:
    case 133:
    case 160:   return true;
    }
}

bool isWhitespaceChar(char16_t c)
{
    if ((c & 0xFF) == c)
    {
        return isWhitespaceChar(static_cast<char>(c));
    }

    auto page = (c >> 8) & 0xFF;
    auto sheaf = page >> 4;
    page &= 0xF;
    auto byte = static_cast<unsigned char>(c);
    switch (sheaf)
    {
    default:    return false;
    case 1:     return page == 6 && byte == 0x80;
    case 2:
        if (page != 0)
        {
            return false;
        }
        else
        {
            return byte <= 10 ||
                   byte == 0x28 || byte == 0x29 || byte == 0x2f || byte == 0x5f;
        }
    case 3:     return page == 0 && byte == 0;
    }
}
"#

/-- `source/bits13/char_is_unicode.cxx:2749-2764`. -/
def isUnicode30 : Text := cxx% r#"
bool isWhitespaceChar(char32_t c)
{
    if (c > 0x3000)
    {
        return false;
    }
    else
    {
        return isWhitespaceChar(static_cast<char16_t>(c));
    }
}

}

}
"#

/-- `source/bits13/char_is_unicode.cxx`. -/
def isUnicode : List Text :=
  [isUnicode0, isUnicode1, isUnicode2, isUnicode3, isUnicode4, isUnicode5,
   isUnicode6, isUnicode7, isUnicode8, isUnicode9, isUnicode10, isUnicode11,
   isUnicode12, isUnicode13, isUnicode14, isUnicode15, isUnicode16, isUnicode17,
   isUnicode18, isUnicode19, isUnicode20, isUnicode21, isUnicode22, isUnicode23,
   isUnicode24, isUnicode25, isUnicode26, isUnicode27, isUnicode28, isUnicode29,
   isUnicode30]

/-- `source/bits13/char_to_lower.cxx:1-64`. -/
def toLower0 : Text := cxx% r#"///////////////////////////////////////////////////////////////////////////
//
// Copyright (c) 2021, Arthur N. Klassen
// All rights reserved.
//
// Redistribution and use in source and binary forms, with or without
// modification, are permitted provided that the following conditions are met:
// 
// 1. Redistributions of source code must retain the above copyright notice,
//    this list of conditions and the following disclaimer.
//
// 2. Redistributions in binary form must reproduce the above copyright notice,
//    this list of conditions and the following disclaimer in the documentation
//    and/or other materials provided with the distribution.
//
// THIS SOFTWARE IS PROVIDED BY THE COPYRIGHT HOLDERS AND CONTRIBUTORS "AS IS"
// AND ANY EXPRESS OR IMPLIED WARRANTIES, INCLUDING, BUT NOT LIMITED TO, THE
// IMPLIED WARRANTIES OF MERCHANTABILITY AND FITNESS FOR A PARTICULAR PURPOSE
// ARE DISCLAIMED. IN NO EVENT SHALL THE COPYRIGHT HOLDER OR CONTRIBUTORS BE
// LIABLE FOR ANY DIRECT, INDIRECT, INCIDENTAL, SPECIAL, EXEMPLARY, OR
// CONSEQUENTIAL DAMAGES (INCLUDING, BUT NOT LIMITED TO, PROCUREMENT OF
// SUBSTITUTE GOODS OR SERVICES; LOSS OF USE, DATA, OR PROFITS; OR BUSINESS
// INTERRUPTION) HOWEVER CAUSED AND ON ANY THEORY OF LIABILITY, WHETHER IN
// CONTRACT, STRICT LIABILITY, OR TORT (INCLUDING NEGLIGENCE OR OTHERWISE)
// ARISING IN ANY WAY OUT OF THE USE OF THIS SOFTWARE, EVEN IF ADVISED OF THE
// POSSIBILITY OF SUCH DAMAGE.
//
///////////////////////////////////////////////////////////////////////////
//
// 2019.10.12 - First version
//
//    May you do good and not evil.
//    May you find forgiveness for yourself and forgive others.
//    May you share freely, never taking more than you give.
//
///////////////////////////////////////////////////////////////////////////
//
// string_tolower.cxx -- Lower-case any UCS-4 value, one char, char16_t or
//                       char32_t at a time.
//
///////////////////////////////////////////////////////////////////////////

#include <string.hxx>
#include "string_internal.hxx"

using namespace std;

namespace ansak {

namespace internal {

// The Simple algorithm for characters: 0x41..0x5A --> 0x61..0x7A
//                                      0xC0..0xD7 --> 0xE0..0xF7
//                                      0xD9..0xDE --> 0xF9..0xFE
char toLowerC(char c)
{
    uint8_t uc = static_cast<uint8_t>(c);
    if (uc < 0x41 || uc > 0xDE || (uc > 0x5A && uc < 0xC0))
    {
        return c;
    }

    return static_cast<char>(uc + 0x20);
}
"#

/-- `source/bits13/char_to_lower.cxx:65-138`. -/
def toLower1 : Text := cxx% r#"
namespace {

// Various Script Systems, BMP, 0100..01FF
char16_t toLower0100(char16_t c)
{
    if (c == 0x130) // dotted I, turkic or not...
    {
        return 0x69;
    }
    if ((c < 0x138) || 
        (c >= 0x14A && c <= 0x177) ||
        (c >= 0x1A0 && c <= 0x1A5) ||
        (c >= 0x1DE && c <= 0x1EF) ||
        (c >= 0x1F8))
    {
        return c | 1;
    }
    if ((c >= 0x139 && c <= 0x148) ||
        (c >= 0x179 && c <= 0x17E) ||
        (c >= 0x1B3 && c <= 0x1B6) ||
        (c >= 0x1CF && c <= 0x1DC))
    {
        return (c + 1) & ~1;
    }
    switch (c)
    {
        default:        return c;
        case 0x178: return 0x0FF;
        case 0x181: return 0x253;
        case 0x182: return 0x183;
        case 0x184: return 0x185;
        case 0x186: return 0x254;
        case 0x187: return 0x188;
        case 0x189: return 0x256;
        case 0x18A: return 0x257;
        case 0x18B: return 0x18C;
        case 0x18E: return 0x1DD;
        case 0x18F: return 0x259;
        case 0x190: return 0x25B;
        case 0x191: return 0x192;
        case 0x193: return 0x260;
        case 0x194: return 0x263;
        case 0x196: return 0x269;
        case 0x197: return 0x268;
        case 0x198: return 0x199;
        case 0x19C: return 0x26F;
        case 0x19D: return 0x272;
        case 0x19F: return 0x275;
        case 0x1A6: return 0x280;
        case 0x1A7: return 0x1A8;
        case 0x1A9: return 0x283;
        case 0x1AC: return 0x1AD;
        case 0x1AE: return 0x288;
        case 0x1AF: return 0x1B0;
        case 0x1B1: return 0x28A;
        case 0x1B2: return 0x28B;
        case 0x1B7: return 0x292;
        case 0x1B8: return 0x1B9;
        case 0x1BC: return 0x1BD;
        case 0x1C4:
        case 0x1C5: return 0x1C6;
        case 0x1C7:
        case 0x1C8: return 0x1C9;
        case 0x1CA:
        case 0x1CB: return 0x1CC;
        case 0x1CD: return 0x1CE;
        case 0x1F1:
        case 0x1F2: return 0x1F3;
        case 0x1F4: return 0x1F5;
        case 0x1F6: return 0x195;
        case 0x1F7: return 0x1BF;
    }
}
"#

/-- `source/bits13/char_to_lower.cxx:139-202`. -/
def toLower2 : Text := cxx% r#"
// Various Script Systems, BMP, 0200..02FF
char16_t toLower0200(char16_t c)
{
    if ((c < 0x220) ||
        (c >= 0x222 && c <= 0x233) ||
        (c >= 0x246 && c <= 0x24F))
    {
        return c | 1;
    }
    switch (c)
    {
        default:    return c;
        case 0x220: return 0x019E;
        case 0x23A: return 0x2C65;
        case 0x23B: return 0x023C;
        case 0x23D: return 0x019A;
        case 0x23E: return 0x2C66;
        case 0x241: return 0x0242;
        case 0x243: return 0x0180;
        case 0x244: return 0x0289;
        case 0x245: return 0x028C;
    }
}

// Various Script Systems, BMP, 0300..03FF; Greek et al.
char16_t toLower0300(char16_t c)
{
    if ((c < 0x370) || ((c & 0xF0) == 0xB0))
    {
        return c;
    }
    if ((c >= 0x370 && c <= 0x373) ||
        (c >= 0x376 && c <= 0x377) ||
        (c >= 0x3D8 && c <= 0x3EF))
    {
        return c | 1;
    }
    if ((c >= 0x391 && c <= 0x3A1) ||
        (c >= 0x3A3 && c <= 0x3AB))
    {
        return c + 0x20;
    }
    switch (c)
    {
        default:    return c;
        case 0x37F: return 0x3F3;
        case 0x386: return 0x3AC;
        case 0x388: return 0x3AD;
        case 0x389: return 0x3AE;
        case 0x38A: return 0x3AF;
        case 0x38C: return 0x3CC;
        case 0x38E: return 0x3CD;
        case 0x38F: return 0x3CE;
        case 0x3CF: return 0x3D7;
        case 0x3F4: return 0x3B8;
        case 0x3F7: return 0x3F8;
        case 0x3F9: return 0x3F2;
        case 0x3FA: return 0x3FB;
        case 0x3FD: return 0x37B;
        case 0x3FE: return 0x37C;
        case 0x3FF: return 0x37D;
    }
}
"#

/-- `source/bits13/char_to_lower.cxx:203-340`. -/
def toLower3 : Text := cxx% r#"
// Various Script Systems, BMP, 0400..04FF
char16_t toLower0400(char16_t c)
{
    if (c < 0x410)
    {
        return c + 0x50;
    }
    else if (c < 0x430)
    {
        return c + 0x20;
    }
    else if ((c >= 0x460 && c <= 0x481) ||
             (c >= 0x48A && c <= 0x4BF) || c >= 0x4D0)
    {
        return c | 1;
    }
    else if (c == 0x4C0)
    {
        return 0x4CF;
    }
    else if (c >= 0x4C1 && c <= 0x4CE)
    {
        return (c + 1) & ~1;
    }

    return c;
}

// Various Script Systems, BMP, 0500..05FF
char16_t toLower0500(char16_t c)
{
    if (c < 0x530)
    {
        return c | 1;
    }
    else if (c >= 0x531 && c <= 0x556)
    {
        return c + 0x30;
    }

    return c;
}

// Various Script Systems, BMP, 1000..1FFF
char16_t toLower1000(char16_t c)
{
    switch (c >> 8)
    {
    default:        break;
    case 0x10:
        if ((c >= 0x10A0 && c <= 0x10C5) ||
            c == 0x10c7 ||
            c == 0x10cd)
        {
            return c + 0x1C60;
        }
        break;

    case 0x13:
        if (c >= 0x13A0 && c < 0x13F0)
        {
            // Cherokee!
            return c + 0x97d0;
        }
        else if (c >= 0x13F0 && c <= 0x13F5)
        {
            return c | 8;
        }
        break;

    case 0x1E:
        if (c == 0x1E9E)
        {
            return 0xDF;
        }
        else
        {
            return c | 1;
        }
        break;

    case 0x1F:
        if (c < 0x1F70 || (c >= 0x1F80 && c < 0x1FB0))
        {
            switch(c)
            {
            default:
                return c & ~8;

            case 0x1f1e:
            case 0x1f1f:
            case 0x1f4e:
            case 0x1f4f:
            case 0x1f58:
            case 0x1f5a:
            case 0x1f5c:
            case 0x1f5e:
                return c;
            }
        }
        else
        {
            switch (c)
            {
                default:        return c;

                case 0x1FB8:    return 0x1FB0;
                case 0x1FB9:    return 0x1FB1;
                case 0x1FBA:    return 0x1F70;
                case 0x1FBB:    return 0x1F71;
                case 0x1FBC:    return 0x1FB3;
                case 0x1FC8:    return 0x1F72;
                case 0x1FC9:    return 0x1F73;
                case 0x1FCA:    return 0x1F74;
                case 0x1FCB:    return 0x1F75;
                case 0x1FCC:    return 0x1FC3;
                case 0x1FD8:    return 0x1FD0;
                case 0x1FD9:    return 0x1FD1;
                case 0x1FDA:    return 0x1F76;
                case 0x1FDB:    return 0x1F77;
                case 0x1FE8:    return 0x1FE0;
                case 0x1FE9:    return 0x1FE1;
                case 0x1FEA:    return 0x1F7A;
                case 0x1FEB:    return 0x1F7B;
                case 0x1FEC:    return 0x1FE5;
                case 0x1FF8:    return 0x1F78;
                case 0x1FF9:    return 0x1F79;
                case 0x1FFA:    return 0x1F7C;
                case 0x1FFB:    return 0x1F7D;
                case 0x1FFC:    return 0x1FF3;
            }
        }
        break;
    }

    return c;
}
"#

/-- `source/bits13/char_to_lower.cxx:341-399`. -/
def toLower4 : Text := cxx% r#"
// Various Script Systems, BMP, 2000..2FFF
char16_t toLower2000(char16_t c)
{
    switch (c)
    {
        default:
            if ((c & 0xFF00) == 0x2C00)
            {
                if (c < 0x2C2F)
                {
                    return c + 0x30;
                }
                else if ((c >= 0x2C80 && c <= 0x2CE3) ||
                         c == 0x2cF2)
                {
                    return c | 1;
                }
                else if ((c >= 0x2C67 && c <= 0x2C6C) ||
                         (c >= 0x2CEB && c <= 0x2CEE))
                {
                    return (c + 1) & ~1;
                }
                switch (c)
                {
                default:        break;
                case 0x2C60:
                case 0x2C72:    return c | 1;
                case 0x2C75:    return c + 1;
                case 0x2C62:    return 0x026B;
                case 0x2C63:    return 0x1D7D;
                case 0x2C64:    return 0x027D;
                case 0x2C6D:    return 0x0251;
                case 0x2C6E:    return 0x0271;
                case 0x2C6F:    return 0x0250;
                case 0x2C70:    return 0x0252;
                case 0x2C7E:    return 0x023F;
                case 0x2C7F:    return 0x0240;
                }
            }
            else if ((c & 0xFFF0) == 0x2160)
            {
                return c | 0x10;
            }
            else if (c >= 0x24B6 && c < 0x24d0)
            {
                return c + 26;
            }
            break;

        case 0x2126:        return 0x3C9;       // Ohm to small omega
        case 0x212A:        return 0x6B;        // Kelvin to small k
        case 0x212B:        return 0xE5;        // Angstrom to small a-dot
        case 0x2132:        return 0x214E;
        case 0x2183:        return 0x2184;
    }

    return c;
}
"#

/-- `source/bits13/char_to_lower.cxx:400-460`. -/
def toLower5 : Text := cxx% r#"
// Various Script Systems, BMP, A000..AFFF
char16_t toLowerA000(char16_t c)
{
    switch ((c & 0x0F00) >> 8)
    {
    default:        break;
    case 6:
        if ((c >= 0xA640 && c <= 0xA66D) ||
            (c >= 0xA680 && c <= 0xA69B))
        {
            return c | 1;
        }
        break;

    case 7:
        if ((c >= 0xA722 && c <= 0xA72F) ||
            (c >= 0xA732 && c <= 0xA76F) ||
            (c >= 0xA77E && c <= 0xA787) ||
            (c >= 0xA790 && c <= 0xA793) ||
            (c >= 0xA796 && c <= 0xA7A9) ||
            (c >= 0xA7B4 && c <= 0xA7B7) ||
            (c >= 0xA7BA && c <= 0xA7BF) ||
            (c >= 0xA7C2 && c <= 0xA7C3))
        {
            return c | 1;
        }
        else if (c >= 0xA779 && c <= 0xA77C)
        {
            return (c + 1) & ~1;
        }
        else
        {
            switch (c)
            {
                default:        break;
                case 0xA77D:    return 0x1D79;
                case 0xA78B:    return 0xA78C;
                case 0xA78D:    return 0x0265;
                case 0xA7AA:    return 0x0266;
                case 0xA7AB:    return 0x025C;
                case 0xA7AC:    return 0x0261;
                case 0xA7AD:    return 0x026C;
                case 0xA7AE:    return 0x026A;
                case 0xA7B0:    return 0x029E;
                case 0xA7B1:    return 0x0287;
                case 0xA7B2:    return 0x029D;
                case 0xA7B3:    return 0xAB53;
                case 0xA7C4:    return 0xA794;
                case 0xA7C5:    return 0x0282;
                case 0xA7C6:    return 0x1D8E;
                case 0xA7C7:    return 0xA7C8;
                case 0xA7C9:    return 0xA7CA;
                case 0xA7F5:    return 0xA7F6;
            }
        }
        break;
    }

    return c;
}
"#

/-- `source/bits13/char_to_lower.cxx:461-555`. -/
def toLower6 : Text := cxx% r#"
// Half-width/Full-width Latin letters
char16_t toLowerF000(char16_t c)
{
    switch ((c & 0x0F00) >> 8)
    {
        default:    break;
        case 15:
            if (c > 0xFF20 && c <= 0xFF3A)
            {
                return c + 0x20;
            }
            break;
    }

    return c;
}

// The Dispatch algorithm for UCS-2: ignore all but 00xx,
// 01xx, 02xx, 03xx, 04xx, 05xx, 1xxx, 2xxx and Axxx
char16_t toLower2(char16_t c)
{
    switch (c >> 8)
    {
    case 0:     return static_cast<char16_t>(
                           static_cast<unsigned char>(
                               toLowerC(static_cast<char>(c))));
    default:    break;

    // 0x0600-0x0FFF have no lowercasing
    case 15:
    case 14:
    case 13:
    case 12:
    case 11:
    case 10:
    case 9:
    case 8:
    case 7:
    case 6:     return c;

    case 5:     return toLower0500(c);
    case 4:     return toLower0400(c);
    case 3:     return toLower0300(c);
    case 2:     return toLower0200(c);
    case 1:     return toLower0100(c);
    }

    switch (c >> 12)
    {
    default:    return c;

    case 1:     return toLower1000(c);
    case 2:     return toLower2000(c);
    case 10:    return toLowerA000(c);
    case 15:    return toLowerF000(c);
    }
}

}

// The Dispatch algorithm for UCS-4: delegate BMP, ignore all but
// some portions of #1 MP
char32_t toLower(char32_t c)
{
    if (c < 0x10000)
    {
        return static_cast<char32_t>(toLower2(static_cast<char16_t>(c)));
    }
    else if (c >= 0x10400 && c <= 0x118BF)
    {
        if (c < 0x10428)
        {
            return c + 0x28;
        }
        else if (c >= 0x104B0 && c <= 0x104D3)
        {
            return c + 0x28;
        }
        else if (c >= 0X10C80 && c <= 0x10CB2)
        {
            return c | 0x40;
        }
        else if (c >= 0x118A0 && c < 0x118C0)
        {
            return c + 0x20;
        }
    }
    else if (c >= 0x1E900 && c <= 0x1E921)
    {
        return c + 0x22;
    }

    return c;
}
"#

/-- `source/bits13/char_to_lower.cxx:556-572`. -/
def toLower7 : Text := cxx% r#"
// Turkic lowercasing for UCS-4
char32_t turkicToLower(char32_t c)
{
    switch (c)
    {
        default:        return toLower(c);
        case 0x130:     return 0x69;
        case 0x49:      return 0x131;
    }
}

}

}


"#

/-- `source/bits13/char_to_lower.cxx`. -/
def toLower : List Text :=
  [toLower0, toLower1, toLower2, toLower3, toLower4, toLower5,
   toLower6, toLower7]

end Ansak.Cxx.Source13
