"""Write Verif/Model/Cxx/Source*.lean: the text of source/bits*/char_is_unicode.cxx and
char_to_lower.cxx, cut into pieces after the closing brace of a function."""
import os, sys

REPO = '/repo/source'
OUT = os.path.join(os.path.dirname(os.path.abspath(__file__)), '../lean/Verif/Model/Cxx')


def pieces(text, size=1500):
    out, cur = [], ''
    for line in text.splitlines(keepends=True):
        cur += line
        if line == '}\n' and len(cur) > size:
            out.append(cur)
            cur = ''
    if cur:
        out.append(cur)
    assert ''.join(out) == text
    return out


def emit(n):
    r = f'''import Verif.Model.Cxx.Lex

/-!
# The source text of `source/bits{n}`

The files `char_is_unicode.cxx` and `char_to_lower.cxx` as they are, in pieces (`tools/gen_source.py`).
-/

namespace Ansak.Cxx.Source{n}

'''
    for name, file in (('isUnicode', 'char_is_unicode.cxx'), ('toLower', 'char_to_lower.cxx')):
        text = open(f'{REPO}/bits{n}/{file}').read()
        assert text.isascii() and '"#' not in text and '\r' not in text
        ps = pieces(text)
        line = 1
        for i, p in enumerate(ps):
            k = p.count('\n')
            r += f'/-- `source/bits{n}/{file}:{line}-{line + k - 1}`. -/\n'
            r += f'def {name}{i} : Text := cxx% r#"{p}"#\n\n'
            line += k
        r += f'/-- `source/bits{n}/{file}`. -/\n'
        r += f'def {name} : List Text :=\n  [' + ',\n   '.join(
            ', '.join(f'{name}{i}' for i in range(a, min(a + 6, len(ps)))) for a in range(0, len(ps), 6)) + ']\n\n'
    r += f'end Ansak.Cxx.Source{n}\n'
    open(f'{OUT}/Source{n}.lean', 'w').write(r)


for n in range(7, 17):
    emit(n)
