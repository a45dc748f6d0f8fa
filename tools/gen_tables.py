#!/usr/bin/env python3
"""Writes Verif/Model/Unicode/Bits*.lean (translations of the table functions of
/repo/source/bits*) and Verif/Spec/UnicodeData/V*.lean (the assigned ranges and
lower-case mappings of the UnicodeData.txt files) and Verif/Lemmas/Unicode/Cert*.lean (cut
points for the interval checker, and the theorems it proves)."""
import os, sys
sys.path.insert(0, os.path.dirname(__file__))
from cxx_tables import load, unicode_data, run
from interval import inline, absB, absId, segments
import re

ROOT = '/verif/lean/Verif'
VERSIONS = range(7, 17)


def num(n):
    return str(n) if n < 16 else '0x%X' % n


def pE(e, lvl=100):
    k = e[0]
    if k == 'c': return 'c'
    if k == 'var': return e[1]
    if k == 'lit': return '(.lit %s)' % num(e[1])
    if k == 'cast': return '(.cast %s %d)' % (pE(e[1]), e[2])
    op, l = {'shr': ('>>:', 75), 'add': ('+:', 65), 'and': ('&:', 60), 'or': ('|:', 58)}[k]
    s = '%s %s %s' % (pE(e[1], l), op, num(e[2]))
    return '(%s)' % s if l < lvl else s


CMP = {'eq': '=:', 'lt': '<:', 'gt': '>:', 'le': '≤:', 'ge': '≥:'}


def pB(b, lvl=100):
    """one-line form of a boolean expression, or None"""
    k = b[0]
    if k == 'tt': return '.tt'
    if k == 'ff': return '.ff'
    if k in CMP:
        s, l = '%s %s %s' % (pE(b[1], 51), CMP[k], num(b[2])), 50
    elif k == 'eqE':
        return '(.eqE %s %s)' % (pE(b[1]), pE(b[2]))
    elif k == 'callB':
        return '(.call %s %s)' % (b[1], pE(b[2]))
    elif k == 'not':
        s, l = '!: ' + pB(b[1], 40), 40
    elif k == 'andB':
        s, l = '%s &&: %s' % (pB(b[1], 35), pB(b[2], 36)), 35
    elif k == 'orB':
        s, l = '%s ||: %s' % (pB(b[1], 30), pB(b[2], 31)), 30
    else:
        return None
    return '(%s)' % s if l < lvl else s


def tree(t, ind):
    """multi-line form; lines already indented by `ind`"""
    pad = ' ' * ind
    k = t[0]
    if k == 'let':
        return pad + 'let %s := %s\n' % (t[1], pE(t[2], 0)) + tree(t[3], ind)
    if k == 'ret':
        return pad + '.ret %s\n' % pE(t[1])
    if k == 'callV':
        return pad + '.call %s %s %d\n' % (t[1], pE(t[2]), t[3])
    if k == 'case':
        head = '.case %s [%s]' % (pE(t[1]), ', '.join(num(n) for n in t[2]))
        return block(head, t[3], pad, ind) + tree(t[4], ind)
    if k == 'cond':
        head = '.cond %s' % pB(t[1])
        return block(head, t[2], pad, ind) + tree(t[3], ind)
    return pad + pB(t, 0) + '\n'


def block(head, t, pad, ind):
    if t[0] in ('let', 'case', 'cond'):
        return pad + head + ' (\n' + tree(t, ind + 2).rstrip('\n') + ') <|\n'
    s = tree(t, 0).strip()
    if not s.startswith('(') and s not in ('.tt', '.ff'):
        s = '(%s)' % s
    return pad + head + ' ' + s + ' <|\n'


def wrap(text):
    out = []
    for line in text.split('\n'):
        ind = len(line) - len(line.lstrip()) + 4
        while len(line) > 100:
            cut = max((line.rfind(' ' + o, 0, 99) for o in ('||:', '&&:')), default=-1)
            if cut <= ind:
                cut = line.rfind(' ', 0, 99)
            if cut <= ind:
                break
            out.append(line[:cut])
            line = ' ' * ind + line[cut + 1:]
        out.append(line)
    return '\n'.join(out)


def model(v):
    src = '/repo/source/bits%d' % v
    ver = re.search(r'supportedUnicodeVersion = "([^"]*)"', open(src + '/char_is_unicode.cxx').read())
    vline = [i + 1 for i, l in enumerate(open(src + '/char_is_unicode.cxx'))
             if 'supportedUnicodeVersion' in l][0]
    out = ['import Verif.Model.CExpr', '', '/-!',
           '# The character tables of `source/bits%d`' % v, '',
           'Translation of `source/bits%d/char_is_unicode.cxx` and `char_to_lower.cxx` into the' % v,
           'expression language of `Verif.Model.CExpr`, written by `tools/gen_tables.py`.  Functions',
           'overloaded on the character type carry the width in bits as a suffix.  The continuation',
           'after a `break` is copied into the branch that breaks.', '-/', '',
           'namespace Ansak.Unicode.Bits%d' % v, '', 'open CExpr', 'open CExpr.E (c)', '',
           '/-- `source/bits%d/char_is_unicode.cxx:%d`, `supportedUnicodeVersion`. -/' % (v, vline),
           'def supportedUnicodeVersion : String := "%s"' % ver.group(1), '']
    for f in ('char_is_unicode', 'char_to_lower'):
        for lean, name, arg, ret, body, a, b in load('%s/%s.cxx' % (src, f)):
            out.append('/-- `source/bits%d/%s.cxx:%d-%d`, `%s(%s)`. -/' % (v, f, a, b, name, arg))
            out.append('def %s : %s :=' % (lean, 'B' if ret == 'bool' else 'V'))
            out.append(wrap(tree(body, 2)))
    out.append('end Ansak.Unicode.Bits%d' % v)
    open('%s/Model/Unicode/Bits%d.lean' % (ROOT, v), 'w').write('\n'.join(out) + '\n')


def lines(items, ind='  '):
    out, cur = [], ind
    for i, s in enumerate(items):
        s += ',' if i + 1 < len(items) else ''
        if len(cur) + len(s) + 1 > 98:
            out.append(cur.rstrip())
            cur = ind
        cur += s + ' '
    out.append(cur.rstrip())
    return '\n'.join(out)


def table(name, items, doc, size=50):
    out, parts = [], []
    for i in range(0, len(items), size):
        parts.append('%s%d' % (name, i // size + 1))
        out += ['/-- Part %d of `%s`. -/' % (i // size + 1, name),
                'def %s : List (Nat × Nat) := [' % parts[-1],
                lines(['(0x%X, 0x%X)' % r for r in items[i:i + size]]) + ']', '']
    out += ['/-- %s -/' % doc, 'def %s : List (Nat × Nat) :=' % name,
            lines(' ++ '.join(parts).replace(' ++ ', ' ++|').split('|')).replace(',', ''), '']
    return out


def spec(v):
    ranges, lower = unicode_data('/repo/source/bits%d/UnicodeData.txt' % v)
    out = ['/-!', '# UnicodeData.txt of `source/bits%d`' % v, '',
           'Data extracted from `source/bits%d/UnicodeData.txt` by `tools/gen_tables.py`.' % v, '-/', '',
           'namespace Ansak.Spec.UnicodeData.V%d' % v, '',
           *table('assigned', ranges,
                  '''The code points listed in the file (entries and First..Last pairs), other than those
whose name says Surrogate or Private Use, as maximal ranges in increasing order.'''),
           *table('lower', lower,
                  '''The code points with a simple lower-case mapping (field 13), with that mapping, in
increasing order.'''),
           'end Ansak.Spec.UnicodeData.V%d' % v]
    assert sorted(lower) == lower
    open('%s/Spec/UnicodeData/V%d.lean' % (ROOT, v), 'w').write('\n'.join(out) + '\n')


WHITE = [(9, 13), (0x20, 0x20), (0x85, 0x85), (0xA0, 0xA0), (0x1680, 0x1680), (0x2000, 0x200A),
         (0x2028, 0x2029), (0x202F, 0x202F), (0x205F, 0x205F), (0x3000, 0x3000)]
CONTROL = [(0, 0x1F), (0x7F, 0x9F)]
PRIVATE = [(0xE000, 0xF8FF), (0xF0000, 0xFFFFD), (0x100000, 0x10FFFD)]
# name of the certificate, function, ranges on which it is true, last argument
CLASSES = [('private16', 'isUnicodePrivate16', PRIVATE[:1], 0xFFFF),
           ('private32', 'isUnicodePrivate32', PRIVATE, 0xFFFFFFFF),
           ('control8', 'isControlChar8', CONTROL, 0xFF),
           ('control16', 'isControlChar16', CONTROL, 0xFFFF),
           ('control32', 'isControlChar32', CONTROL, 0xFFFFFFFF),
           ('white8', 'isWhitespaceChar8', WHITE[:4], 0xFF),
           ('white16', 'isWhitespaceChar16', WHITE, 0xFFFF),
           ('white32', 'isWhitespaceChar32', WHITE, 0xFFFFFFFF)]


def cert(v):
    src = '/repo/source/bits%d' % v
    fns = {f[0]: inline(f[4], {}) for f in load(src + '/char_is_unicode.cxx')}
    lns = {f[0]: inline(f[4], {}) for f in load(src + '/char_to_lower.cxx')}
    ranges, _ = unicode_data(src + '/UnicodeData.txt')

    b = fns['isUnicodeAssigned32']
    h = lambda xs: ['0x%X' % x for x in xs]
    out, names, pos = [], [], 0
    for k in range(0, len(ranges), 50):
        chunk = ranges[k:k + 50]
        top = chunk[-1][1] if k + 50 < len(ranges) else 2 ** 32 - 1
        ends = []
        for lo, hi in chunk + ([(top + 1, None)] if top == 2 ** 32 - 1 else []):
            for x, y, w in ([(pos, lo - 1, False)] if pos < lo else []) + \
                           ([(lo, hi, True)] if hi is not None else []):
                ends += [q for _, q in segments(lambda p, q: absB(b, p, q, fns) is w, x, y)]
            if hi is not None:
                pos = hi + 1
        i = k // 50 + 1
        names.append('assigned%d' % i)
        out += ['/-- Cuts for `Spec.UnicodeData.V%d.assigned%d`. -/' % (v, i),
                'def assigned%d : Part := (0x%X, [' % (i, top), lines(h(ends)) + '],',
                '  Spec.UnicodeData.V%d.assigned%d)' % (v, i), '']
    out += ['/-- Cuts for `Spec.UnicodeData.V%d.assigned`. -/' % v,
            'def assignedParts : List Part := [', lines(names) + ']', '']

    small = []
    for name, fn, rs, top in CLASSES:
        b = fns[fn]
        segs, pos = [], 0
        for lo, hi in rs + [(top + 1, None)]:
            for x, y, w in ([(pos, lo - 1, False)] if pos < lo else []) + \
                           ([(lo, hi, True)] if hi is not None else []):
                segs += [(q, w, q == y) for _, q in segments(lambda p, q: absB(b, p, q, fns) is w, x, y)]
            if hi is not None:
                pos = hi + 1
        ps, cur, pos = [], [], 0
        for q, w, last in segs:
            cur.append(q)
            if q == top or (len(cur) >= 100 and (last or not w)):
                ps.append((q, cur, [r for r in rs if pos <= r[0] and r[1] <= q]))
                pos, cur = q + 1, []
        out += ['/-- Cuts for `%s`. -/' % fn, 'def %sParts : List Part := [' % name,
                ',\n'.join('  (0x%X, [\n%s],\n%s)' % (q, lines(h(e), '    '),
                            lines(['[' + ', '.join('(0x%X, 0x%X)' % r for r in rr) + ']'], '    '))
                           for q, e, rr in ps) + ']', '']
        small += ['theorem %s_check :' % name,
                  '    checkParts %s 0x%X %sParts 0 = true ∧' % (fn, top, name),
                  '      rangesOf %sParts = %s := by' % (name, '[' + ', '.join('(0x%X, 0x%X)' % r for r in rs) + ']'),
                  '  decide +kernel', '']

    t = lns['toLower']
    steps, pos = [], 0
    for c in list(range(0x20000)) + [2 ** 32]:
        y = run(t, c, {}, lns) if c < 2 ** 32 else None
        if y == c:
            continue
        if pos < c:
            steps += [(s[1], '.id 0x%X 0x%X' % s)
                      for s in segments(lambda p, q: absId(t, p, q, lns), pos, c - 1)]
        if y is not None:
            steps.append((c, '.map 0x%X 0x%X' % (c, y)))
        pos = c + 1
    names = []
    for k in range(0, len(steps), 150):
        i = k // 150 + 1
        names.append('lower%d' % i)
        out += ['/-- Part %d of `lowerParts`. -/' % i,
                'def lower%d : Nat × List Step := (0x%X, [' % (i, steps[k:k + 150][-1][0]),
                lines([s for _, s in steps[k:k + 150]]) + '])', '']
    out += ['/-- What `toLower(char32_t)` does, in order. -/',
            'def lowerParts : List (Nat × List Step) := [', lines(names) + ']', '']
    ns = 'Ansak.Unicode.Bits%d' % v
    head = ['import Verif.Lemmas.Interval', 'import Verif.Model.Unicode.Bits%d' % v,
           'import Verif.Spec.UnicodeData.V%d' % v, '', '/-!',
           '# The tables of `source/bits%d` against its UnicodeData.txt' % v, '',
           'Cut points found by `tools/gen_tables.py`, checked here by the kernel.', '-/', '',
           'namespace %s' % ns, '', 'open CExpr', '', 'namespace Cert', '']
    out = head + out
    out += ['theorem assigned_check :',
            '    checkParts isUnicodeAssigned32 0xFFFFFFFF assignedParts 0 = true := by',
            '  decide +kernel', '',
            'theorem assigned_ranges : rangesOf assignedParts = Spec.UnicodeData.V%d.assigned := by' % v,
            '  decide +kernel', '',
            'theorem lower_check : checkVParts toLower 0xFFFFFFFF lowerParts 0 = true := by',
            '  decide +kernel', ''] + small + ['end Cert', '', 'end %s' % ns]
    open('%s/Lemmas/Unicode/Cert%d.lean' % (ROOT, v), 'w').write('\n'.join(out) + '\n')


if __name__ == '__main__':
    os.makedirs(ROOT + '/Lemmas/Unicode', exist_ok=True)
    os.makedirs(ROOT + '/Model/Unicode', exist_ok=True)
    os.makedirs(ROOT + '/Spec/UnicodeData', exist_ok=True)
    for v in VERSIONS:
        model(v)
        spec(v)
        cert(v)
