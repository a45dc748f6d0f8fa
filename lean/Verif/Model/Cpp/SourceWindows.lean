import Verif.Model.Cpp.Source

/-!
# The source text of the library: what it has for Windows

`interface/string.hxx` as it is, in pieces (`tools/gen_cpp.py`): what is under `#if defined(WIN32)`.
-/

namespace Ansak.Cpp.Source

open Cxx (Text)

/-- `interface/string.hxx:545-573`. -/
def windowsIs0 : Text := cxx% r#"#if defined(WIN32)

// and because TCHAR can be wchar_t sometimes, these have to be provided for
// Windows convenience, so that anyone can use this API with TCHAR's just as
// they would with wchar_t, so that TCHAR code can be portable either way.
// It's only decent, even if the meanings are warped slightly by a local
// dialect.

// isUtf8 is already implemented wtih const char* and const std::string& only
// (and two defaulted parameters), see above, about 300 lines.

inline bool isUtf16(const char* test)
{
  return isUtf8(test, kUtf16);
}
inline bool isUtf16(const std::string& test) { return isUtf16(test.c_str()); }

inline bool isUcs2(const char* test)
{
  return isUtf8(test, kUcs2);
}
inline bool isUcs2(const std::string& test) { return isUcs2(test.c_str()); }

inline bool isUcs4(const char* test)
{
  return isUtf8(test, kUcs4);
}
inline bool isUcs4(const std::string& test) { return isUcs4(test.c_str()); }

"#

/-- `interface/string.hxx:743-760`. -/
def windowsTo0 : Text := cxx% r#"#if defined(WIN32)

// TCHAR requires toUtf8 specialization

inline utf8String toUtf8(const char* src)
{
  if (isUtf8(src))
  {
    return utf8String(src);
  }
  else
  {
    return utf8String();
  }
}

inline utf8String toUtf8(const std::string& src) { return toUtf8(src.c_str()); }

"#

/-- `interface/string.hxx:574-612`. -/
def mbcsIs0 : Text := cxx% r#"#if defined(_MBCS)

inline bool isTstring(const utf8String& test)
{
    return isUtf8(test, kUtf16);
}

inline bool isTstring(const char* test)
{
    return isUtf8(test, kUtf16);
}

inline bool isTstring(const utf16String& test)
{
    return isUtf16(test);
}

/* ucs2String and utf16String are the same type under the hood
inline bool isTstring(const ucs2String& test)
{
    return isUcs2(test, kUtf16);
}
*/

inline bool isTstring(const char16_t* test)
{
    return isUtf16(test);
}

inline bool isTstring(const ucs4String& test)
{
    return isUcs4(test, kUtf16);
}

inline bool isTstring(const char32_t* test)
{
    return isUcs4(test, kUtf16);
}

"#

/-- `interface/string.hxx:761-766`. -/
def mbcsTo0 : Text := cxx% r#"#if defined(_MBCS)

inline std::string toTstring(const utf8String& test)
{
    return toTstring(test.c_str());
}
"#

/-- `interface/string.hxx:767-778`. -/
def mbcsTo1 : Text := cxx% r#"
inline std::string toTstring(const char* test)
{
    if (isUtf8(test, kAscii))
    {
        return std::string(test);
    }
    else
    {
        return std::string();
    }
}
"#

/-- `interface/string.hxx:779-783`. -/
def mbcsTo2 : Text := cxx% r#"
inline std::string toTstring(const utf16String& test)
{
    return toTstring(test.c_str());
}
"#

/-- `interface/string.hxx:784-802`. -/
def mbcsTo3 : Text := cxx% r#"
/* ucs2String and utf16String are the same type under the hood
inline std::string toTstring(const ucs2String& test)
{
    return std::string(toUtf8(test).c_str());
}
*/

inline std::string toTstring(const char16_t* test)
{
    if (isUtf16(test, kAscii))
    {
        return std::string(toUtf8(test).c_str());
    }
    else
    {
        return std::string();
    }
}
"#

/-- `interface/string.hxx:803-807`. -/
def mbcsTo4 : Text := cxx% r#"
inline std::string toTstring(const ucs4String& test)
{
    return toTstring(test.c_str());
}
"#

/-- `interface/string.hxx:808-820`. -/
def mbcsTo5 : Text := cxx% r#"
inline std::string toTstring(const char32_t* test)
{
    if (isUcs4(test, kAscii))
    {
        return std::string(toUtf8(test).c_str());
    }
    else
    {
        return std::string();
    }
}

"#

/-- `interface/string.hxx:613-654`. -/
def unicodeIs0 : Text := cxx% r#"#elif defined(_UNICODE)

inline bool isTstring(const utf8String& test)
{
    return isUtf8(test, kUtf16);
}

inline bool isTstring(const char* test)
{
    return isUtf8(test, kUtf16);
}

inline bool isTstring(const utf16String& test)
{
    return isUtf16(test);
}

/* ucs2String and utf16String are the same type under the hood
inline bool isTstring(const ucs2String& test)
{
    return isUcs2(test, kUtf16);
}
*/

inline bool isTstring(const char16_t* test)
{
    return isUtf16(test);
}

inline bool isTstring(const ucs4String& test)
{
    return isUcs4(test, kUtf16);
}

inline bool isTstring(const char32_t* test)
{
    return isUcs4(test, kUtf16);
}

#endif

#endif
"#

/-- `interface/string.hxx:821-864`. -/
def unicodeTo0 : Text := cxx% r#"#elif defined(_UNICODE)

inline std::wstring toTstring(const utf8String& test)
{
    return std::wstring(reinterpret_cast<const wchar_t*>(toUtf16(test).c_str()));
}

inline std::wstring toTstring(const char* test)
{
    return std::wstring(reinterpret_cast<const wchar_t*>(toUtf16(test).c_str()));
}

inline std::wstring toTstring(const utf16String& test)
{
    return std::wstring(reinterpret_cast<const wchar_t*>(test.c_str()));
}

/* ucs2String and utf16String are the same type under the hood
inline std::wstring toTstring(const ucs2String& test)
{
    return std::wstring(reinterpret_cast<const wchar_t*>(test.c_str()));
}
*/

inline std::wstring toTstring(const char16_t* test)
{
    return std::wstring(reinterpret_cast<const wchar_t*>(test));
}

inline std::wstring toTstring(const ucs4String& test)
{
    return std::wstring(reinterpret_cast<const wchar_t*>(toUtf16(test).c_str()));
}

inline std::wstring toTstring(const char32_t* test)
{
    return std::wstring(reinterpret_cast<const wchar_t*>(toUtf16(test).c_str()));
}

#endif

#endif

#endif
"#

/-- The pieces that Windows always has. -/
def windows : List Text :=
  [windowsIs0, windowsTo0]

/-- The pieces for `_MBCS`: `isTstring`. -/
def mbcsIs : List Text :=
  [mbcsIs0]

/-- The pieces for `_MBCS`: `toTstring`, one function each. -/
def mbcsTo : List Text :=
  [mbcsTo0, mbcsTo1, mbcsTo2, mbcsTo3, mbcsTo4, mbcsTo5]

/-- The pieces for `_UNICODE`. -/
def unicode : List Text :=
  [unicodeIs0, unicodeTo0]

/-- What `TCHAR` is: neither `_MBCS` nor `_UNICODE` is defined, or one of them. -/
inductive Tchar where
  | none
  | mbcs
  | unicode

/-- The whole library on Windows. (The order of the functions does not matter to the semantics; see `untilMbcs`.) -/
def onWindows (t : Tchar) : List Text :=
  pieces false ++ (windows ++
    match t with
    | .none => []
    | .mbcs => mbcsIs ++ mbcsTo
    | .unicode => unicode)

/-- With `_MBCS`, the library up to the end of the `i`-th (from 0) of the functions `toTstring`. What is declared
later is not known inside of that function. -/
def untilMbcs (i : Nat) : List Text := pieces false ++ (windows ++ (mbcsIs ++ mbcsTo.take (i + 1)))

end Ansak.Cpp.Source
