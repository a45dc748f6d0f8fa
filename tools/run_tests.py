#!/usr/bin/env python3
"""Run the unit tests of the repository against the meaning that Verif/Model/Cpp gives to the text of the library.

    run_tests.py <server> [file ...]

The tests in /repo/test/unit are interpreted here, and each call of a function of the library is sent to <server>
(tools/server.txt, compiled), which runs the text of that function with the definitions of Verif/Model/Cpp. What
EXPECT_* and ASSERT_* say is then checked. This is evidence that those definitions mean what C++ means; no proof uses it.
"""
import os
import re
import subprocess
import sys

TESTS = '/repo/test/unit'
BITS = {'bool': 1, 'char': 8, 'uchar': 8, 'c16': 16, 'c32': 32, 'int': 32, 'uint': 32, 'long': 64, 'ulong': 64}
TYPES = {'char': 'char', 'char16_t': 'c16', 'char32_t': 'c32', 'wchar_t': 'wchar', 'bool': 'bool', 'int': 'int',
         'size_t': 'ulong', 'int64_t': 'long'}
STRINGS = {'string': 'char', 'utf8String': 'char', 'utf16String': 'c16', 'ucs2String': 'c16', 'ucs4String': 'c32',
           'u16string': 'c16', 'u32string': 'c32', 'wstring': 'wchar'}
# the constants of interface/string.hxx and interface/internal/string_internal.hxx
CONSTANTS = {}


class Failed(Exception):
    pass


class Int:
    __slots__ = ('t', 'n')

    def __init__(self, t, n):
        self.t, self.n = t, n


class Str:
    def __init__(self, t, l):
        self.t, self.l = t, l


class Arr:
    def __init__(self, t, l):
        self.t, self.l = t, l


class Ptr:
    def __init__(self, t, buf, off):
        self.t, self.buf, self.off = t, buf, off


class Vec:
    def __init__(self, t, l):
        self.t, self.l = t, l


class Pred:
    def __init__(self, mask, value):
        self.mask, self.value = mask, value


class Adder:
    def __init__(self, s):
        self.s = s


class Lambda:
    def __init__(self, param, body):
        self.param, self.body = param, body


class Cell:
    """A variable."""

    def __init__(self, v):
        self.v = v


TOKEN = re.compile(r'''\s+|//[^\n]*|/\*.*?\*/
  |(?P<str>(?:u8|u|U|L)?"(?:\\.|[^"\\])*")
  |(?P<chr>(?:u|U|L)?'(?:\\.[^']*|[^'\\])')
  |(?P<num>0[xX][0-9a-fA-F]+[uUlL]*|0b[01]+|\d+[uUlL]*)
  |(?P<id>[A-Za-z_]\w*)
  |(?P<op>::|<<=|\|=|\+\+|--|<<|>>|<=|>=|==|!=|&&|\|\||->|[-+*/%&|^~!<>=?:;,.(){}\[\]])''', re.X | re.S)


def preprocess(text, wide):
    """Conditional sections: not on Windows, and WCHAR_MAX is as given."""
    out, stack = [], []
    for line in text.split('\n'):
        s = line.strip()
        if s.startswith('#'):
            if s.startswith('#if'):
                if 'WCHAR_MAX' in s:
                    c = {'<': wide == 16, '>': wide == 32}[re.search(r'WCHAR_MAX\s*([<>])', s).group(1)]
                elif s.startswith('#if !defined') or s.startswith('#ifndef'):
                    c = True
                else:
                    assert 'defined(' in s, s
                    c = False
                stack.append([c, c])
            elif s.startswith('#elif'):
                assert 'WCHAR_MAX' in s, s
                c = {'<': wide == 16, '>': wide == 32}[re.search(r'WCHAR_MAX\s*([<>])', s).group(1)]
                stack[-1][0] = c and not stack[-1][1]
                stack[-1][1] = stack[-1][1] or c
            elif s.startswith('#else'):
                stack[-1][0] = not stack[-1][1]
            elif s.startswith('#endif'):
                stack.pop()
            out.append('')
        else:
            out.append(line if all(c for c, _ in stack) else '')
    return '\n'.join(out)


def tokens(text):
    pos, res = 0, []
    while pos < len(text):
        m = TOKEN.match(text, pos)
        if not m:
            raise SyntaxError(text[pos:pos + 60])
        if m.lastgroup:
            res.append((m.lastgroup, m.group(), text.count('\n', 0, pos) + 1 if m.group() in (';', 'TEST') else 0))
        pos = m.end()
    return res


def unescape(body):
    """The elements of a literal: numbers of escapes, and code points of characters."""
    i, out = 0, []
    while i < len(body):
        c = body[i]
        if c != '\\':
            out.append(('u', ord(c)))
            i += 1
            continue
        c = body[i + 1]
        if c == 'x':
            m = re.compile(r'[0-9a-fA-F]+').match(body, i + 2)
            out.append(('x', int(m.group(), 16)))
            i = m.end()
        elif c in 'uU':
            n = 4 if c == 'u' else 8
            out.append(('u', int(body[i + 2:i + 2 + n], 16)))
            i += 2 + n
        elif c in '01234567':
            m = re.compile(r'[0-7]{1,3}').match(body, i + 1)
            out.append(('x', int(m.group(), 8)))
            i = m.end()
        else:
            out.append(('u', ord({'n': '\n', 't': '\t', 'r': '\r', '\\': '\\', '"': '"', "'": "'"}[c])))
            i += 2
    return out


class Machine:
    def __init__(self, server, version, wide, signed):
        self.server, self.version, self.wide, self.signed = server, version, wide, signed
        self.calls = self.checks = 0
        self.failures = []
        self.globals = {}
        self.functions = {}

    # numbers

    def bits(self, t):
        return self.wide if t == 'wchar' else BITS.get(t, 32)

    def is_signed(self, t):
        if t == 'char':
            return self.signed
        return t in ('int', 'long') or t not in BITS and t != 'wchar'

    def make(self, t, n):
        if t == 'bool':
            return Int('bool', 1 if n else 0)
        b = self.bits(t)
        n %= 1 << b
        if self.is_signed(t) and n >= 1 << (b - 1):
            n -= 1 << b
        return Int(t, n)

    def promote(self, v):
        if v.t in ('c32', 'uint', 'long', 'ulong') or v.t == 'wchar' and self.wide == 32:
            return Int('uint' if v.t in ('c32', 'wchar') else v.t, v.n)
        return Int('int', v.n)

    def arith(self, op, a, b):
        a, b = self.promote(a), self.promote(b)
        for t in ('ulong', 'long', 'uint', 'int'):
            if a.t == t or b.t == t:
                break
        x, y = self.make(t, a.n).n, self.make(t, b.n).n
        if op in ('==', '!=', '<', '>', '<=', '>='):
            return self.make('bool', {'==': x == y, '!=': x != y, '<': x < y, '>': x > y, '<=': x <= y, '>=': x >= y}[op])
        return self.make(t, {'+': x + y, '-': x - y, '*': x * y, '&': x & y, '|': x | y, '%': x % y if y else 0}[op])

    def truth(self, v):
        if isinstance(v, Int):
            return v.n != 0
        if isinstance(v, Ptr):
            return v.buf is not None
        raise TypeError(v)

    # text

    def units(self, prefix, parts):
        t = {'': 'char', 'u8': 'char', 'u': 'c16', 'U': 'c32', 'L': 'wchar'}[prefix]
        out = []
        for kind, n in parts:
            if kind == 'x' or n < 128:
                out.append(n)
            elif self.bits(t) == 8:
                out += list(chr(n).encode('utf-8'))
            elif self.bits(t) == 16 and n >= 0x10000:
                out += [0xD800 + ((n - 0x10000) >> 10), 0xDC00 + (n & 0x3FF)]
            else:
                out.append(n)
        return t, [self.make(t, n).n for n in out]

    def c_string(self, v):
        if isinstance(v, Str):
            return v.l
        if isinstance(v, Arr):
            v = Ptr(v.t, v, 0)
        l = v.buf.l[v.off:]
        return l[:l.index(0)]

    def to_str(self, t, v):
        if isinstance(v, Str):
            return Str(v.t, list(v.l))
        return Str(t or v.t, list(self.c_string(v)))

    def bytes_of(self, v, n):
        if isinstance(v, Arr):
            v = Ptr(v.t, v, 0)
        k = self.bits(v.t) // 8
        out = b''.join((x % (1 << (8 * k))).to_bytes(k, 'little') for x in v.buf.l[v.off:])
        assert len(out) >= n, 'memcmp reads outside'
        return out[:n]

    # calls

    def send(self, v, name):
        nums = lambda l: ','.join(map(str, l))
        if isinstance(v, Int):
            return 'i/%s/%d' % (v.t, v.n)
        if isinstance(v, Str):
            return 's/%s/%s' % (v.t, nums(v.l))
        if isinstance(v, Adder):
            return 's/%s/%s' % (v.s.t, nums(v.s.l))
        if isinstance(v, Arr):
            return 'p/%s/%s/0' % (v.t, nums(v.l))
        if isinstance(v, Ptr):
            t = v.t or {'isUtf8': 'char', 'isUtf16': 'c16', 'isUcs2': 'c16', 'isUcs4': 'c32'}[name]
            if v.buf is None:
                return 'p/%s/null' % t
            return 'p/%s/%s/%d' % (t, nums(v.buf.l), v.off)
        if isinstance(v, Vec):
            return 'v/%s/%s' % (v.t, ';'.join(nums(s.l) for s in v.l) if v.l else '-')
        if isinstance(v, Pred):
            return 'o/%d,%d' % (v.mask, v.value)
        raise TypeError(v)

    def receive(self, s):
        p = s.split('/')
        nums = lambda l: [int(x) for x in l.split(',')] if l else []
        if p[0] == 'i':
            return Int(p[1], int(p[2]))
        if p[0] == 's':
            return Str(p[1], nums(p[2]))
        if p[0] == 'o':
            return Pred(*nums(p[1]))
        if p[0] == 'p':
            return Ptr(p[1], None, 0) if p[2] == 'null' else Ptr(p[1], Arr(p[1], nums(p[2])), int(p[3]))
        if p[0] == 'v':
            return Vec(p[1], [] if p[2] == '-' else [Str(p[1], nums(x)) for x in p[2].split(';')])
        if s == 'void':
            return None
        raise Failed(s)

    def library(self, cls, name, args, cells):
        # a literal 0 is a null pointer for these functions
        if name in ('isUtf8', 'isUtf16', 'isUcs2', 'isUcs4') and isinstance(args[0], Int):
            assert args[0].n == 0
            args = [Ptr(None, None, 0)] + args[1:]
        if name == 'toLower' and isinstance(args[0], (Ptr, Arr)):
            args = [self.to_str(None, args[0])] + args[1:]
        self.calls += 1
        size = 0
        for a in args:
            size += len(a.l) if isinstance(a, (Str, Arr)) else len(a.buf.l) if isinstance(a, Ptr) and a.buf else 0
            size += sum(len(s.l) + 1 for s in a.l) if isinstance(a, Vec) else 0
        line = ' '.join([str(self.wide), str(self.version), str(int(self.signed)), str(size + 8), cls or '-', name] +
                        [self.send(a, name) for a in args])
        self.server.stdin.write(line + '\n')
        self.server.stdin.flush()
        reply = self.server.stdout.readline().strip()
        if '|' not in reply:
            raise Failed('%s: %s' % (line, reply))
        parts = reply.split('|')
        for a, c, r in zip(args, cells, parts[1:]):
            if r == '-' or c is None:
                continue
            v = self.receive(r)
            if isinstance(a, Adder):
                a.s.l = v.l
            elif isinstance(a, Str):
                a.l = v.l
            elif isinstance(a, Pred):
                a.mask, a.value = v.mask, v.value
            elif isinstance(a, (Ptr, Arr)):
                if isinstance(v, Ptr) and v.buf is not None:
                    buf = a.buf if isinstance(a, Ptr) else a
                    assert buf.l == v.buf.l
                    v = Ptr(a.t, buf, v.off)
                if isinstance(a, Ptr):
                    c.v = v
            elif isinstance(a, Int):
                c.v = v
        return self.receive(parts[0])

    # programs

    def load(self, text):
        self.ts = tokens(preprocess(text, self.wide))
        self.i = 0
        self.tests = []
        self.top()

    def peek(self, k=0):
        return self.ts[self.i + k][1] if self.i + k < len(self.ts) else None

    def take(self, x=None):
        t = self.ts[self.i]
        if x is not None and t[1] != x:
            raise SyntaxError('%s expected: %s' % (x, [y[1] for y in self.ts[self.i:self.i + 12]]))
        self.i += 1
        return t[1]

    def skip_balanced(self, a, b):
        self.take(a)
        depth = 1
        while depth:
            x = self.take()
            depth += (x == a) - (x == b)

    def top(self):
        while self.i < len(self.ts):
            x = self.peek()
            if x == 'using':
                while self.take() != ';':
                    pass
            elif x == 'namespace':
                self.take()
                self.take('{')
            elif x == '}':
                self.take()
            elif x == 'TEST':
                self.take()
                self.take('(')
                a = self.take()
                self.take(',')
                b = self.take()
                self.take(')')
                self.tests.append((a + '.' + b, self.i))
                self.skip_balanced('{', '}')
            elif x == 'template':
                # a function with one parameter
                self.take()
                self.skip_balanced('<', '>')
                self.take('basic_string')
                self.skip_balanced('<', '>')
                name = self.take()
                self.take('(')
                while self.peek(1) != ')':
                    self.take()
                param = self.take()
                self.take(')')
                self.functions[name] = (param, self.i)
                self.skip_balanced('{', '}')
            else:
                self.env = [self.globals]
                self.statement(True)

    def run(self, start):
        self.i = start
        self.env = [self.globals, {}]
        self.statement(True)

    def lookup(self, x):
        for e in reversed(self.env):
            if x in e:
                return e[x]
        return None

    def type_ahead(self):
        """The type at this position, or None. Returns (kind, type) and moves behind it."""
        i = self.i
        while self.peek() in ('const', 'static'):
            self.take()
        if self.peek() in ('ansak', 'std') and self.peek(1) == '::':
            self.i += 2
        x = self.peek()
        r = None
        if x == 'auto':
            self.take()
            r = ('auto', None)
        elif x == 'unsigned':
            self.take()
            if self.peek() == 'int':
                self.take()
            r = ('prim', 'uint')
        elif x in TYPES:
            self.take()
            r = ('prim', TYPES[x])
        elif x in STRINGS and self.lookup(x) is None:
            self.take()
            r = ('str', STRINGS[x])
        elif x == 'basic_string':
            self.take()
            self.skip_balanced('<', '>')
            r = ('str', None)
        elif x == 'vector':
            self.take()
            self.take('<')
            r = ('vec', self.type_ahead()[1])
            self.take('>')
        elif x == 'EncodingCheckPredicate':
            self.take()
            r = ('pred', None)
        elif x == 'CharacterAdder':
            self.take()
            self.skip_balanced('<', '>')
            r = ('adder', None)
        elif x in ('SourceEncoding', 'RangeType', 'EncodingType'):
            self.take()
            r = ('prim', x)
        if r is None:
            self.i = i
            return None
        while self.peek() in ('const', '*', '&'):
            if self.take() == '*':
                r = ('ptr', r[1])
        return r

    def convert(self, ty, v):
        kind, t = ty
        if kind == 'auto':
            return Ptr(v.t, v, 0) if isinstance(v, Arr) else v
        if kind == 'prim':
            return self.make(t, v.n)
        if kind == 'str':
            return self.to_str(t, v)
        if kind == 'ptr':
            if v is None or isinstance(v, Int):
                return Ptr(t, None, 0)
            if isinstance(v, Arr):
                return Ptr(v.t, v, 0)
            return Ptr(t, v.buf, v.off)
        if kind == 'vec':
            return v
        raise TypeError(kind)

    def statement(self, go):
        """Run a statement, or skip it. Returns what stops a loop or a function."""
        x = self.peek()
        if x == '{':
            self.take()
            self.env.append({})
            stop = None
            while self.peek() != '}':
                r = self.statement(go and stop is None)
                stop = stop or r
            self.take('}')
            self.env.pop()
            return stop
        if x == ';':
            self.take()
            return None
        if x == 'cout':
            while self.take() != ';':
                pass
            return None
        if x == 'return':
            self.take()
            if not go:
                while self.take() != ';':
                    pass
                return None
            v = self.expression()
            self.take(';')
            return ('return', v)
        if x == 'break':
            self.take()
            self.take(';')
            return ('break',) if go else None
        if x == 'if':
            self.take()
            if not go:
                self.skip_balanced('(', ')')
                c = False
            else:
                self.take('(')
                c = self.truth(self.expression())
                self.take(')')
            stop = self.statement(go and c)
            if self.peek() == 'else':
                self.take()
                stop = self.statement(go and not c) or stop
            return stop
        if x == 'for':
            self.take()
            if not go:
                self.skip_balanced('(', ')')
                self.statement(False)
                return None
            self.take('(')
            self.env.append({})
            self.statement(True)
            cond = self.i
            while True:
                self.i = cond
                c = True if self.peek() == ';' else self.truth(self.expression())
                self.take(';')
                step = self.i
                depth = 1
                while depth:
                    y = self.take()
                    depth += (y == '(') - (y == ')')
                r = self.statement(c)
                end = self.i
                if not c or r:
                    break
                self.i = step
                if self.peek() != ')':
                    self.expression()
                    while self.peek() == ',':
                        self.take()
                        self.expression()
            self.env.pop()
            self.i = end
            return r if r and r[0] == 'return' else None
        if not go:
            depth = 0
            while True:
                y = self.take()
                depth += (y in '([{') - (y in ')]}') if len(y) == 1 else 0
                if y == ';' and depth == 0:
                    return None
        # a declaration?
        i = self.i
        ty = self.type_ahead()
        if ty is not None and self.ts[self.i][0] == 'id' and self.peek(1) in ('=', '(', '{', ';', '['):
            while True:
                name = self.take()
                self.env[-1][name] = Cell(self.declared(ty))
                if self.peek() != ',':
                    break
                self.take()
            self.take(';')
            return None
        self.i = i
        self.expression()
        self.take(';')
        return None

    def declared(self, ty):
        kind, t = ty
        if self.peek() == '[':
            self.take()
            self.take(']')
            self.take('=')
            if self.peek() == '{':
                l = [self.make(t, v.n).n for v in self.braces()]
            else:
                l = list(self.expression().buf.l)
            return Arr(t, l)
        if self.peek() == ';':
            return {'prim': lambda: self.make(t, 0), 'str': lambda: Str(t, []), 'vec': lambda: Vec(t, []),
                    'pred': lambda: Pred(0, 0), 'ptr': lambda: Ptr(t, None, 0)}[kind]()
        if self.peek() == '=':
            self.take()
            return self.convert(ty, self.copy(self.expression()))
        if self.peek() == '{':
            args = self.braces()
        else:
            self.take('(')
            args = self.arguments()[0]
        assert len(args) == 1
        if kind == 'adder':
            return Adder(args[0])
        return self.convert(ty, self.copy(args[0]))

    def copy(self, v):
        if isinstance(v, Str):
            return Str(v.t, list(v.l))
        if isinstance(v, Vec):
            return Vec(v.t, [self.copy(s) for s in v.l])
        if isinstance(v, Pred):
            return Pred(v.mask, v.value)
        return v

    def braces(self):
        self.take('{')
        out = []
        while self.peek() != '}':
            out.append(self.expression())
            if self.peek() == ',':
                self.take()
        self.take('}')
        return out

    def arguments(self):
        """Behind the parenthesis. Also the variables that the arguments are."""
        args, cells = [], []
        while self.peek() != ')':
            self.cell = None
            i = self.i
            args.append(self.expression())
            single = self.i == i + 1 and self.ts[i][0] == 'id'
            cells.append(self.lookup(self.ts[i][1]) if single else None)
            if self.peek() == ',':
                self.take()
        self.take(')')
        return args, cells

    LEVELS = [['||'], ['&&'], ['|'], ['&'], ['==', '!='], ['<', '>', '<=', '>='], ['+', '-'], ['*', '%']]

    def expression(self):
        v = self.binary(0)
        if self.peek() == '=':
            place = self.place
            self.take()
            w = self.copy(self.expression())
            old = v
            if isinstance(old, Int):
                w = self.make(old.t, w.n)
            elif isinstance(old, Str):
                w = self.to_str(old.t, w)
            place(w)
            return w
        if self.peek() in ('|=', '<<='):
            place = self.place
            op = self.take()
            w = self.expression()
            w = self.arith(op[:-1], v, w) if op == '|=' else Int(v.t, v.n << w.n)
            place(self.make(v.t, w.n))
        if self.peek() == '?':
            self.take()
            a = self.expression()
            self.take(':')
            b = self.expression()
            self.place = None
            return a if self.truth(v) else b
        return v

    def binary(self, level):
        if level == len(self.LEVELS):
            return self.unary()
        v = self.binary(level + 1)
        place = self.place
        while self.peek() in self.LEVELS[level]:
            op = self.take()
            if op in ('||', '&&'):
                a = self.truth(v)
                # the other operand has no effects in the tests
                b = self.truth(self.binary(level + 1))
                v = self.make('bool', (a or b) if op == '||' else (a and b))
            else:
                v = self.operate(op, v, self.binary(level + 1))
            place = None
        self.place = place
        return v

    def operate(self, op, a, b):
        if isinstance(a, Int) and isinstance(b, Int):
            return self.arith(op, a, b)
        if isinstance(a, Pred) and isinstance(b, Pred):
            return self.library('EncodingCheckPredicate', 'operator' + op, [a, b], [None, None])
        if op in ('==', '!='):
            return self.make('bool', self.equal(a, b) == (op == '=='))
        if isinstance(a, Arr):
            a = Ptr(a.t, a, 0)
        if isinstance(a, Ptr) and isinstance(b, Int):
            return Ptr(a.t, a.buf, a.off + (b.n if op == '+' else -b.n))
        raise TypeError((op, a, b))

    def equal(self, a, b):
        if isinstance(a, Int) and isinstance(b, Int):
            return self.arith('==', a, b).n == 1
        if isinstance(a, Str) or isinstance(b, Str):
            return self.c_string(a) == self.c_string(b)
        if isinstance(a, Ptr) and isinstance(b, Ptr):
            return a.buf is b.buf and (a.buf is None or a.off == b.off)
        raise TypeError((a, b))

    def unary(self):
        x = self.peek()
        self.place = None
        if x == '!':
            self.take()
            return self.make('bool', not self.truth(self.unary()))
        if x == '-':
            self.take()
            v = self.promote(self.unary())
            return self.make(v.t, -v.n)
        if x in ('++', '--'):
            self.take()
            v = self.unary()
            place = self.place
            w = self.step(v, 1 if x == '++' else -1)
            place(w)
            return w
        if x == '*':
            self.take()
            p = self.unary()
            if isinstance(p, Arr):
                p = Ptr(p.t, p, 0)
            return Int(p.t, p.buf.l[p.off])
        if x == '&':
            self.take()
            self.unary()
            return Ptr(self.at[0].t, self.at[0], self.at[1])
        if x == '(':
            # a cast
            i = self.i
            self.take()
            ty = self.type_ahead()
            if ty and self.peek() == ')':
                self.take()
                return self.convert(ty, self.unary())
            self.i = i
        return self.postfix()

    def step(self, v, d):
        if isinstance(v, Ptr):
            return Ptr(v.t, v.buf, v.off + d)
        return self.make(v.t, v.n + d)

    def postfix(self):
        v = self.primary()
        while True:
            x = self.peek()
            place = self.place
            if x == '[':
                self.take()
                n = self.expression().n
                self.take(']')
                if isinstance(v, Vec):
                    v = v.l[n]
                    self.place = None
                else:
                    arr, off = (v, n) if isinstance(v, (Arr, Str)) else (v.buf, v.off + n)
                    self.at = (arr, off)
                    v = Int(arr.t, arr.l[off])

                    def put(w, arr=arr, off=off):
                        arr.l[off] = self.make(arr.t, w.n).n
                    self.place = put
            elif x in ('++', '--'):
                self.take()
                place(self.step(v, 1 if x == '++' else -1))
                self.place = None
            elif x == '.':
                self.take()
                m = self.take()
                self.take('(')
                args, _ = self.arguments()
                if isinstance(v, Pred):
                    v = self.library('EncodingCheckPredicate', m, [v] + args, [Cell(v)] + [None for _ in args])
                elif m in ('size', 'length'):
                    v = Int('ulong', len(v.l))
                elif m == 'empty':
                    v = self.make('bool', not v.l)
                elif m == 'c_str':
                    v = Ptr(v.t, Arr(v.t, v.l + [0]), 0)
                elif m == 'push_back':
                    v.l.append(self.to_str(v.t, args[0]))
                else:
                    raise SyntaxError(m)
                self.place = None
            elif x == '(' and isinstance(v, Pred):
                self.take()
                args, _ = self.arguments()
                v = self.library('EncodingCheckPredicate', 'operator()', [v] + args, [None, None])
                self.place = None
            else:
                return v

    def primary(self):
        kind, x, _ = self.ts[self.i]
        if kind == 'num':
            self.take()
            s = x.rstrip('uUlL')
            n = int(s, 16) if s[:2].lower() == '0x' else int(s, 2) if s[:2] == '0b' else int(s)
            t = 'uint' if 'u' in x.lower() else 'int'
            if n > 2 ** 31 - 1:
                t = 'uint' if n < 2 ** 32 else 'long'
            return Int(t, n)
        if kind == 'str':
            prefix, parts = '', []
            while self.ts[self.i][0] == 'str':
                y = self.take()
                p, b = y[:y.index('"')], y[y.index('"') + 1:-1]
                prefix = p or prefix
                parts += unescape(b)
            t, l = self.units(prefix, parts)
            return Ptr(t, Arr(t, l + [0]), 0)
        if kind == 'chr':
            self.take()
            p, b = x[:x.index("'")], x[x.index("'") + 1:-1]
            t, l = self.units(p, unescape(b))
            assert len(l) == 1
            return Int(t, l[0])
        if x == '(':
            self.take()
            v = self.expression()
            self.take(')')
            return v
        if x == '[':
            # a lambda with one parameter
            self.skip_balanced('[', ']')
            self.take('(')
            while self.peek(1) != ')':
                self.take()
            param = self.take()
            self.take(')')
            v = Lambda(param, self.i)
            self.skip_balanced('{', '}')
            return v
        if kind != 'id':
            raise SyntaxError(x)
        if x in ('true', 'false'):
            self.take()
            return self.make('bool', x == 'true')
        if x == 'nullptr':
            self.take()
            return Ptr(None, None, 0)
        if x == 'static_cast':
            self.take()
            self.take('<')
            ty = self.type_ahead()
            self.take('>')
            self.take('(')
            v = self.convert(ty, self.expression())
            self.take(')')
            self.place = None
            return v
        if x == 'sizeof':
            self.take()
            self.take('(')
            v = self.expression()
            self.take(')')
            assert isinstance(v, Arr)
            return Int('ulong', len(v.l) * self.bits(v.t) // 8)
        c = self.lookup(x)
        if c is not None:
            self.take()

            def put(w, c=c):
                c.v = w
            self.place = put
            return c.v
        if x in CONSTANTS:
            self.take()
            return Int(*CONSTANTS[x])
        ty = self.type_ahead()
        if ty is not None:
            self.take('(')
            args, _ = self.arguments()
            self.place = None
            return self.convert(ty, self.copy(args[0])) if args else Str(ty[1], [])
        if x in ('ansak', 'std') and self.peek(1) == '::':
            self.i += 2
        name = self.take()
        self.take('(')
        return self.call(name)

    def call(self, name):
        start = self.i
        args, cells = self.arguments()
        end = self.i
        self.place = None
        if name in ('EXPECT_EQ', 'EXPECT_NE', 'EXPECT_TRUE', 'EXPECT_FALSE', 'ASSERT_FALSE', 'ASSERT_TRUE'):
            self.checks += 1
            if name == 'EXPECT_EQ':
                ok = self.equal(*args)
            elif name == 'EXPECT_NE':
                ok = not self.equal(*args)
            else:
                ok = self.truth(args[0]) == name.endswith('TRUE')
            if not ok:
                line = next(t[2] for t in self.ts[end:] if t[2])
                self.failures.append((line, name + '(' + ' '.join(t[1] for t in self.ts[start:end])[:150]))
            return None
        if name == 'strcmp':
            return Int('int', 0 if self.c_string(args[0]) == self.c_string(args[1]) else 1)
        if name == 'memcmp':
            return Int('int', 0 if self.bytes_of(args[0], args[2].n) == self.bytes_of(args[1], args[2].n) else 1)
        if name == 'strlen':
            return Int('ulong', len(self.c_string(args[0])))
        if name == 'begin':
            return Ptr(args[0].t, args[0], 0)
        if name == 'end':
            return Ptr(args[0].t, args[0], len(args[0].l))
        if name == 'for_each':
            p, q, f = args
            i = self.i
            for n in range(p.off, q.off):
                self.env.append({f.param: Cell(Int(p.t, p.buf.l[n]))})
                self.i = f.body
                self.statement(True)
                self.env.pop()
            self.i = i
            return None
        if name in self.functions:
            param, body = self.functions[name]
            i, env = self.i, self.env
            self.env, self.i = [self.globals, {param: Cell(args[0])}], body
            r = self.statement(True)
            self.i, self.env = i, env
            return r[1]
        return self.library(None, name, args, cells)


def constants():
    for f in ('interface/string.hxx', 'interface/internal/string_internal.hxx', 'source/internal/string_internal.hxx',
              'source/string_internal.hxx', 'interface/string_internal.hxx'):
        path = os.path.join('/repo', f)
        if not os.path.exists(path):
            continue
        text = re.sub(r'//[^\n]*|/\*.*?\*/', ' ', open(path).read(), flags=re.S)
        for m in re.finditer(r'\benum\s+(\w+)\s*(?::\s*int\s*)?\{([^}]*)\}', text):
            n = 0
            for c in m.group(2).split(','):
                c = c.strip()
                if not c:
                    continue
                if '=' in c:
                    c, e = (y.strip() for y in c.split('=', 1))
                    n = eval(e, {}, {k: v[1] for k, v in CONSTANTS.items()})
                CONSTANTS[c] = (m.group(1), n)
                n += 1


def main():
    server = subprocess.Popen([sys.argv[1]], stdin=subprocess.PIPE, stdout=subprocess.PIPE, text=True,
                              stderr=subprocess.DEVNULL)
    constants()
    files = sys.argv[2:] or sorted(os.listdir(TESTS))
    calls = checks = bad = count = 0
    for f in files:
        m = re.search(r'tolower_test(\d+)', f)
        text = open(os.path.join(TESTS, f)).read()
        for version in [int(m.group(1))] if m else range(7, 17):
            for wide in (32, 16):
                for signed in (True, False):
                    vm = Machine(server, version, wide, signed)
                    vm.load(text)
                    for name, start in vm.tests:
                        if name == 'IsUnicodeTest.testIsUnicode':
                            continue  # its data are made from UnicodeData.txt, which is not in the repository
                        # the long loops once for each version, or once
                        if name.startswith('IsUnicodeTest.') and not (wide == 32 and signed):
                            continue
                        if name in ('StringTest.testGetUnicodeEncodableFlag', 'StringTest.testRawDecodeUtf16') and \
                                not (wide == 32 and signed and version == 16):
                            continue
                        try:
                            vm.run(start)
                            count += 1
                        except (Failed, SyntaxError, TypeError, KeyError, AssertionError, AttributeError, IndexError) as e:
                            bad += 1
                            print('%s version %d, wchar_t %d, signed %s, %s: %s %s' %
                                  (f, version, wide, signed, name, type(e).__name__, str(e)[:300]))
                    bad += len(vm.failures)
                    for line, what in vm.failures[:20]:
                        print('%s:%d version %d, wchar_t %d, signed %s: %s' % (f, line, version, wide, signed, what))
                    calls += vm.calls
                    checks += vm.checks
        print('%s: so far %d runs of tests, %d calls, %d expectations, %d failures' % (f, count, calls, checks, bad))
        sys.stdout.flush()


main()
