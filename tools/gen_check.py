"""Write lean/Verif/Lemmas/Cxx/Check7.lean .. Check16.lean: the checks that the translations of the character
tables (Verif/Model/Unicode/Bits*.lean) are what the source texts (Verif/Model/Cxx/Source*.lean) mean."""
import re

ROOT = '/verif/lean/Verif'
QB = [('isUnicodeAssigned', 'c16', '16'), ('isUnicodeAssigned', 'c32', '32'),
      ('isUnicodePrivate', 'c16', '16'), ('isUnicodePrivate', 'c32', '32'),
      ('isControlChar', 'char', '8'), ('isControlChar', 'c16', '16'), ('isControlChar', 'c32', '32'),
      ('isWhitespaceChar', 'char', '8'), ('isWhitespaceChar', 'c16', '16'), ('isWhitespaceChar', 'c32', '32')]
QV = [('toLower', 'c32'), ('turkicToLower', 'c32')]

TEXT = '''import Verif.Lemmas.Cxx.File
import Verif.Model.Cxx.Source%(v)d
import Verif.Model.Unicode.Bits%(v)d

/-!
# The translation of `source/bits%(v)d` is right

Lean's kernel reads the source text and compares it with the translation (`tools/gen_check.py`).
-/

namespace Ansak.Cxx.Check%(v)d

open Unicode.Bits%(v)d

/-- The functions of `char_is_unicode.cxx`, in order. -/
def isUnicodeTrees : List Tree :=
  %(bs)s

/-- The functions of `char_to_lower.cxx`, in order. -/
def toLowerTrees : List Tree :=
  %(vs)s

/-- The functions of `char_is_unicode.cxx` that other files use. -/
def isUnicodeQueries : List Query :=
  %(qb)s

/-- The functions of `char_to_lower.cxx` that other files use. -/
def toLowerQueries : List Query :=
  %(qv)s

theorem isUnicode_ok : checkFile Source%(v)d.isUnicode isUnicodeTrees isUnicodeQueries
    [(name%% "supportedUnicodeVersion", name%% %(ver)s)] = true := by decide +kernel

theorem toLower_ok : checkFile Source%(v)d.toLower toLowerTrees toLowerQueries [] = true := by decide +kernel

end Ansak.Cxx.Check%(v)d
'''


def wrap(items, indent=3):
    lines, cur = [], ''
    for x in items:
        if cur and len(cur) + len(x) + 2 > 108 - indent:
            lines.append(cur + ',')
            cur = x
        else:
            cur = cur + ', ' + x if cur else x
    lines.append(cur)
    return '[' + ('\n' + ' ' * indent).join(lines) + ']'


for v in range(7, 17):
    src = open(f'{ROOT}/Model/Unicode/Bits{v}.lean').read()
    defs = re.findall(r'^def (\w+) : ([BV]) :=', src, re.M)
    open(f'{ROOT}/Lemmas/Cxx/Check{v}.lean', 'w').write(TEXT % dict(
        v=v,
        bs=wrap(['.b ' + n for n, k in defs if k == 'B']),
        vs=wrap(['.v ' + n for n, k in defs if k == 'V']),
        qb=wrap([f'⟨name% "{n}", .{t}, .bool, .b {n}{w}⟩' for n, t, w in QB]),
        qv=wrap([f'⟨name% "{n}", .{t}, .c32, .v {n}⟩' for n, t in QV]),
        ver=re.search(r'supportedUnicodeVersion : String := ("[^"]*")', src).group(1)))
