#!/usr/bin/env python3
"""Write above each syntax tree in Verif/Model/Cpp/Ast.lean and AstWindows.lean which lines of the repository it is the tree of."""
import os
import re

REPO = '/repo'
HERE = os.path.dirname(os.path.abspath(__file__))
OUT = os.path.join(HERE, '../lean/Verif/Model/Cpp')

FILES, WIDE16, WIDE32 = [], [], []
WINDOWS, MBCS_IS, MBCS_TO, UNICODE = [], [], [], []
config = open(os.path.join(HERE, 'gen_cpp.py')).read()
exec(config[config.index('# name, file'):config.index('def pieces')])


def blank(text):
    """The text with comments, literals and preprocessor lines blanked out."""
    def f(m):
        return re.sub(r'[^\n]', ' ', m.group(0))
    text = re.sub(r'//[^\n]*|/\*.*?\*/|"(?:[^"\\\n]|\\.)*"|\'(?:[^\'\\\n]|\\.)+\'', f, text, flags=re.S)
    return re.sub(r'^[ \t]*#(?:[^\n]*\\\n)*[^\n]*', f, text, flags=re.M)


def functions(file, first, last):
    """The functions defined or declared in these lines: name, first line, last line, has a body."""
    text = blank(open(f'{REPO}/{file}').read())
    lines = text.split('\n')
    base = sum(len(x) + 1 for x in lines[:first - 1])
    end = sum(len(x) + 1 for x in lines[:last]) if last else len(text)
    out, start, i = [], base, base

    def line(k):
        return text.count('\n', 0, k) + 1
    while i < end:
        ch = text[i]
        if ch in ';{}':
            head = text[start:i]
            k = start + len(head) - len(head.lstrip())
            label = re.match(r'(?:public|private|protected)\s*:\s*', text[k:i])
            while label:
                k += label.end()
                label = re.match(r'(?:public|private|protected)\s*:\s*', text[k:i])
            head = text[k:i].strip()
            if ch in ';{' and '(' in head and not re.match(r'using|typedef|static_assert', head):
                name = re.search(r'(operator\s*\(\)|operator\s*[=!]=|[A-Za-z_]\w*)\s*\(', head)
                has = ch == '{'
                if has:
                    depth = 1
                    while depth:
                        i += 1
                        depth += {'{': 1, '}': -1}.get(text[i], 0)
                if not head.startswith('}') and not re.match(r'(const|constexpr|static)\b[^()]*=', head):
                    out.append((name.group(1).replace(' ', ''), file, line(k), line(i), has))
            elif ch == '{' and re.match(r'enum\b', head) or ch == '{' and head.endswith('='):
                depth = 1
                while depth:
                    i += 1
                    depth += {'{': 1, '}': -1}.get(text[i], 0)
            start = i + 1
        i += 1
    # the class `CharacterAdder` is part of the semantics
    return [f for f in out if f[0] != 'CharacterAdder' and (f[0], file) != ('operator()', 'source/string_internal.hxx')]


def short(ident):
    return {'equals': 'operator==', 'differs': 'operator!=', 'apply': 'operator()',
            'construct': 'EncodingCheckPredicate'}.get(ident, ident)


def cite(c):
    return f'{c[1]}:{c[2]}-{c[3]}' if c[3] > c[2] else f'{c[1]}:{c[2]}'


def label(text, suffix, groups, items):
    """Cite for the bodies and functions with this suffix, and for the lists of items."""
    fs = [f for group in groups for _, file, a, b in group for f in functions(file, a, b)]
    bodies = [f for f in fs if f[4]]
    found = re.findall(r'^def (\w+?)_body : Stmt :=$', text, flags=re.M)
    found = [f for f in found if f.endswith(suffix)] if suffix else [f for f in found if not re.search(r'_(w16|w32|win|mbcs|unicode)$', f)]
    assert len(found) == len(bodies), (suffix, len(found), len(bodies), list(zip(found, [b[0] for b in bodies])))
    where = {}
    for ident, b in zip(found, bodies):
        assert short(ident.split('_')[0]) == b[0], (ident, b)
        where[ident] = b
        text = text.replace(f'\ndef {ident}_body : Stmt :=\n', f'\n/-- `{cite(b)}`. -/\ndef {ident}_body : Stmt :=\n')
    for ident in re.findall(r'^def (\w+) : Fun :=$', text, flags=re.M):
        if re.search(r'-/\ndef ' + ident + ' : Fun', text):
            continue
        if suffix and not ident.endswith(suffix) or not suffix and re.search(r'_(w16|w32|win|mbcs|unicode)$', ident):
            continue
        if ident in where:
            c = cite(where[ident])
        else:
            base, *kinds = ident.split('_')
            types = {'8': 'char', '16': 'char16_t', '32': 'char32_t'}
            for f in fs:
                if f[0] == base and not f[4]:
                    head = ' '.join(open(f'{REPO}/{f[1]}').read().split('\n')[f[2] - 1:f[3]])
                    got = [x.split()[0] for x in head[head.index('(') + 1:head.rindex(')')].split(',')]
                    if got == [types[k] for k in kinds]:
                        c = cite(f) + ' (a declaration; the definition is in the table files)'
                        break
            else:
                raise AssertionError(ident)
        text = text.replace(f'\ndef {ident} : Fun :=\n', f'\n/-- `{c}`. -/\ndef {ident} : Fun :=\n'.replace('files)`.', 'files).').replace(' (a decl', '` (a decl'))
    for pre, source in items:
        doc = {}
        for f in ('Source.lean', 'SourceWindows.lean'):
            t = open(f'{OUT}/{f}').read()
            doc.update((n, c) for c, n in re.findall(r'/-- (`[^`]*`)\. -/\ndef (\w+) : Text', t))
            m = re.search(r'^def ' + source + r' : List Text :=\n  \[([^\]]*)\]', t, flags=re.M)
            if m:
                names = [x.strip() for x in m.group(1).split(',')]
        for k, n in enumerate(names):
            assert f'\ndef {pre}{k} : List Item' in text
            text = text.replace(f'\ndef {pre}{k} : List Item', f'\n/-- {doc[n]}. -/\ndef {pre}{k} : List Item')
        text = text.replace(f'\ndef {pre} : List Item', f'\n/-- The pieces together (`Source.{source}`). -/\ndef {pre} : List Item')
    return text


def main():
    f = f'{OUT}/Ast.lean'
    t = open(f).read()
    t = label(t, '', [FILES], [('items', 'common')])
    t = label(t, '_w16', [WIDE16], [('items16_', 'wide16')])
    t = label(t, '_w32', [WIDE32], [('items32_', 'wide32')])
    t = t.replace('\ndef funs : List', '\n/-- The functions that all platforms have. -/\ndef funs : List')
    t = t.replace('\ndef funs16 : List', '\n/-- The functions for a `wchar_t` of 16 bits. -/\ndef funs16 : List')
    t = t.replace('\ndef funs32 : List', '\n/-- The functions for a `wchar_t` of 32 bits. -/\ndef funs32 : List')
    t = t.replace('\ndef globals (', '\n/-- The enumerators and the constant tables. -/\ndef globals (')
    t = t.replace('\ndef classes :', '\n/-- `interface/string.hxx`: the member variables of `EncodingCheckPredicate`. -/\ndef classes :')
    open(f, 'w').write(t)
    f = f'{OUT}/AstWindows.lean'
    t = open(f).read()
    t = label(t, '_win', [WINDOWS], [('itemsWindows', 'windows')])
    t = label(t, '_mbcs', [MBCS_IS, MBCS_TO], [('itemsMbcsIs', 'mbcsIs'), ('itemsMbcsTo', 'mbcsTo')])
    t = label(t, '_unicode', [UNICODE], [('itemsUnicode', 'unicode')])
    t = t.replace('\ndef funsWindows : List', '\n/-- The functions that Windows always has. -/\ndef funsWindows : List')
    t = t.replace('\ndef funsMbcs : List', '\n/-- The functions for `_MBCS`. -/\ndef funsMbcs : List')
    t = t.replace('\ndef funsUnicode : List', '\n/-- The functions for `_UNICODE`. -/\ndef funsUnicode : List')
    open(f, 'w').write(t)


main()
