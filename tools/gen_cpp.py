"""Write Verif/Model/Cpp/Source.lean: the text of the files of the library other than the character tables,
cut into pieces after the closing brace of a function."""
import os

REPO = '/repo'
OUT = os.path.join(os.path.dirname(os.path.abspath(__file__)), '../lean/Verif/Model/Cpp')

# name, file, first line, last line (None: all)
FILES = [
    ('interface', 'interface/string.hxx', 1, 472),
    ('interfaceEnd', 'interface/string.hxx', 1016, None),
    ('decodeHeader', 'interface/internal/string_decode_utf8.hxx', 1, None),
    ('internal', 'source/string_internal.hxx', 1, None),
    ('decodeUtf8', 'source/string_decode_utf8.cxx', 1, None),
    ('predicate', 'source/encoding_check_predicate.cxx', 1, None),
    ('string', 'source/string.cxx', 1, None),
    ('toUtf8', 'source/string_toutf8.cxx', 1, None),
    ('toLower', 'source/string_tolower.cxx', 1, None),
    ('trim', 'interface/string_trim.hxx', 1, None),
    ('splitJoin', 'interface/string_splitjoin.hxx', 1, None),
]
# what is under `#if WCHAR_MAX < 0x10000`, without what is under `#if defined(WIN32)`
WIDE16 = [
    ('wide16Is', 'interface/string.hxx', 479, 544),
    ('wide16To', 'interface/string.hxx', 655, 742),
]
# what is under `#if WCHAR_MAX > 0x10000`
WIDE32 = [
    ('wide32', 'interface/string.hxx', 866, 1015),
]

# what is under `#if defined(WIN32)` (which has a `wchar_t` of 16 bits), and there under `#if defined(_MBCS)` and
# `#elif defined(_UNICODE)`
WINDOWS = [
    ('windowsIs', 'interface/string.hxx', 545, 573),
    ('windowsTo', 'interface/string.hxx', 743, 760),
]
MBCS_IS = [('mbcsIs', 'interface/string.hxx', 574, 612)]
MBCS_TO = [('mbcsTo', 'interface/string.hxx', 761, 820)]
UNICODE = [
    ('unicodeIs', 'interface/string.hxx', 613, 654),
    ('unicodeTo', 'interface/string.hxx', 821, 864),
]


def pieces(text, size=1500):
    out, cur = [], ''
    for line in text.splitlines(keepends=True):
        cur += line
        if line in ('}\n', '};\n', ');\n') and len(cur) > size and cur.count('/*') == cur.count('*/'):
            out.append(cur)
            cur = ''
    if cur.strip() or size:
        out.append(cur)
    else:
        out[-1] += cur
    assert ''.join(out) == text
    return out


r = '''import Verif.Model.Cxx.Lex

/-!
# The source text of the library

The files as they are, in pieces (`tools/gen_cpp.py`). What `interface/string.hxx` has for `wchar_t` depends on the
platform (`#if WCHAR_MAX < 0x10000`); what it has for Windows only (`#if defined(WIN32)`) is in
`Verif.Model.Cpp.SourceWindows`.
-/

namespace Ansak.Cpp.Source

open Cxx (Text)

'''


def add(files, size=1500):
    global r
    allp = []
    for name, file, a, b in files:
        lines = open(f'{REPO}/{file}').read().splitlines(keepends=True)
        text = ''.join(lines[a - 1:b])
        assert text.isascii() and '"#' not in text and '\r' not in text
        ps = pieces(text, size)
        line = a
        for i, p in enumerate(ps):
            k = p.count('\n')
            r += f'/-- `{file}:{line}-{line + k - 1}`. -/\n'
            r += f'def {name}{i} : Text := cxx% r#"{p}"#\n\n'
            line += k
            allp.append(f'{name}{i}')
    return allp


def table(ps):
    return '  [' + ',\n   '.join(', '.join(ps[a:a + 6]) for a in range(0, len(ps), 6)) + ']\n\n'


common, wide16, wide32 = add(FILES), add(WIDE16), add(WIDE32)
r += '/-- The pieces that all platforms have. -/\ndef common : List Text :=\n' + table(common)
r += '/-- The pieces for a `wchar_t` of 16 bits. -/\ndef wide16 : List Text :=\n' + table(wide16)
r += '/-- The pieces for a `wchar_t` of 32 bits. -/\ndef wide32 : List Text :=\n' + table(wide32)
r += '''/-- The whole library: has `wchar_t` 32 bits, or 16? (The order in which a function comes before another one does not matter to
the semantics.) -/
def pieces (w32 : Bool) : List Text := common ++ (bif w32 then wide32 else wide16)

'''
r += 'end Ansak.Cpp.Source\n'
open(f'{OUT}/Source.lean', 'w').write(r)
print(common, wide16, wide32)

r = '''import Verif.Model.Cpp.Source

/-!
# The source text of the library: what it has for Windows

`interface/string.hxx` as it is, in pieces (`tools/gen_cpp.py`): what is under `#if defined(WIN32)`.
-/

namespace Ansak.Cpp.Source

open Cxx (Text)

'''
windows, mbcsIs, mbcsTo, unicode = add(WINDOWS), add(MBCS_IS), add(MBCS_TO, 0), add(UNICODE)
r += '/-- The pieces that Windows always has. -/\ndef windows : List Text :=\n' + table(windows)
r += '/-- The pieces for `_MBCS`: `isTstring`. -/\ndef mbcsIs : List Text :=\n' + table(mbcsIs)
r += '/-- The pieces for `_MBCS`: `toTstring`, one function each. -/\ndef mbcsTo : List Text :=\n' + table(mbcsTo)
r += '/-- The pieces for `_UNICODE`. -/\ndef unicode : List Text :=\n' + table(unicode)
r += '''/-- What `TCHAR` is: neither `_MBCS` nor `_UNICODE` is defined, or one of them. -/
inductive Tchar where
  | none
  | mbcs
  | unicode

/-- The whole library on Windows. (The order of the functions does not matter to the semantics; see `untilMbcs`.) -/
def onWindows (t : Tchar) : List Text :=
  pieces false ++ (windows ++
    match t with
    | .none => []
    | .mbcs => mbcsIs ++ mbcsTo
    | .unicode => unicode)

/-- With `_MBCS`, the library up to the end of the `i`-th (from 0) of the functions `toTstring`. What is declared
later is not known inside of that function. -/
def untilMbcs (i : Nat) : List Text := pieces false ++ (windows ++ (mbcsIs ++ mbcsTo.take (i + 1)))

'''
r += 'end Ansak.Cpp.Source\n'
open(f'{OUT}/SourceWindows.lean', 'w').write(r)
print(windows, mbcsIs, mbcsTo, unicode)
