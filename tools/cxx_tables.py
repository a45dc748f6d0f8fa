"""Parser for the C++ subset of source/bits*/char_is_unicode.cxx and
char_to_lower.cxx: functions of one character `c`, made of local constants,
`if`, `switch`, `return` and expressions.  Every function becomes a decision
tree (the AST below); `interp_*` runs it in Python.

E: ('c',) ('lit',n) ('and',e,n) ('or',e,n) ('add',e,n) ('shr',e,n) ('cast',e,k)
B: ('tt',) ('ff',) ('eq',e,n) ('lt',e,n) ('gt',e,n) ('eqE',e,e) ('not',b)
   ('andB',b,b) ('orB',b,b) ('cond',b,t,f) ('case',e,[n..],t,f) ('callB',name,e)
V: ('ret',e) ('cond',b,t,f) ('case',e,[n..],t,f) ('callV',name,e,k)
"""
import re

TOK = re.compile(r'0[xX][0-9a-fA-F]+|\d+|[A-Za-z_]\w*|&&|\|\||<=|>=|==|!=|>>|&=|"[^"]*"|[^\w\s]')
BITS = {'char': 8, 'unsigned char': 8, 'uint8_t': 8, 'char16_t': 16, 'char32_t': 32}


def tokenize(text):
    out = []
    line = 1
    pos = 0
    for m in re.finditer(r'//[^\n]*|/\*.*?\*/|\n|#[^\n]*|' + TOK.pattern, text, re.S):
        s = m.group(0)
        if s == '\n':
            line += 1
        elif s.startswith('//') or s.startswith('#'):
            pass
        elif s.startswith('/*'):
            line += s.count('\n')
        else:
            out.append((s, line))
    return out


class Parser:
    def __init__(self, text):
        self.t = tokenize(text)
        self.i = 0
        self.funcs = []          # (name, argtype, rettype, body, first, last)
        self.types = {}          # overloads: name -> list of (argbits, ret)

    def peek(self, k=0):
        return self.t[self.i + k][0] if self.i + k < len(self.t) else None

    def next(self):
        s = self.t[self.i][0]
        self.i += 1
        return s

    def expect(self, s):
        got = self.next()
        assert got == s, (got, s, self.t[self.i - 1])

    def typename(self):
        t = self.next()
        if t == 'unsigned' and self.peek() == 'char':
            self.next()
            return 'unsigned char'
        return t

    # -- top level
    def parse(self):
        while self.peek() is not None:
            p = self.peek()
            if p in ('using', 'const'):
                while self.next() != ';':
                    pass
            elif p == 'namespace':
                while self.next() != '{':
                    pass
            elif p == '}':
                self.next()
            else:
                self.function()
        return self.funcs

    def function(self):
        first = self.t[self.i][1]
        ret = self.typename()
        name = self.next()
        self.expect('(')
        arg = self.typename()
        assert self.next() == 'c'
        self.expect(')')
        self.ret = ret
        self.argbits = BITS[arg]
        self.env = {'c': (('c',), BITS[arg])}
        self.expect('{')
        stmts = self.block()
        last = self.t[self.i - 1][1]
        self.types.setdefault(name, []).append((BITS[arg], ret))
        body = self.tree(stmts, dict(self.env), None, None)
        lean = self.leanname(name, BITS[arg])
        self.funcs.append((lean, name, arg, ret, body, first, last))

    def leanname(self, name, bits):
        if name in ('isUnicodeAssigned', 'isUnicodePrivate', 'isControlChar', 'isWhitespaceChar'):
            return name + str(bits)
        return name

    # -- statements (kept as token-level AST, then folded into a tree)
    def block(self):
        out = []
        while self.peek() != '}':
            out.append(self.stmt())
        self.next()
        return out

    def stmt(self):
        p = self.peek()
        if p == '{':
            self.next()
            return ('block', self.block())
        if p == 'if':
            self.next()
            self.expect('(')
            c = self.expr()
            self.expect(')')
            t = self.stmt()
            e = None
            if self.peek() == 'else':
                self.next()
                e = self.stmt()
            return ('if', c, t, e)
        if p == 'switch':
            self.next()
            self.expect('(')
            c = self.expr()
            self.expect(')')
            self.expect('{')
            groups = []            # (labels, stmts)
            while self.peek() != '}':
                labels = []
                while self.peek() in ('case', 'default'):
                    if self.next() == 'case':
                        labels.append(int(self.next(), 0))
                    else:
                        labels.append('default')
                    self.expect(':')
                body = []
                while self.peek() not in ('case', 'default', '}'):
                    body.append(self.stmt())
                assert labels
                groups.append((labels, body))
            self.next()
            return ('switch', c, groups)
        if p == 'return':
            self.next()
            e = self.expr()
            self.expect(';')
            return ('return', e)
        if p == 'break':
            self.next()
            self.expect(';')
            return ('break',)
        if p in ('auto', 'unsigned', 'uint8_t'):
            ty = self.typename()
            name = self.next()
            self.expect('=')
            e = self.expr()
            self.expect(';')
            return ('let', name, e, ty)
        if self.peek(1) == '&=':
            name = self.next()
            self.next()
            e = self.expr()
            self.expect(';')
            return ('let', name, ('bin', '&', ('id', name), e), 'auto')
        raise Exception((p, self.t[self.i]))

    # -- raw expressions, C precedence
    PREC = [['||'], ['&&'], ['|'], ['&'], ['==', '!='], ['<', '<=', '>', '>='], ['>>'], ['+']]

    def expr(self):
        c = self.binary(0)
        if self.peek() == '?':
            self.next()
            a = self.expr()
            self.expect(':')
            b = self.expr()
            return ('?', c, a, b)
        return c

    def binary(self, lvl):
        if lvl == len(self.PREC):
            return self.unary()
        a = self.binary(lvl + 1)
        while self.peek() in self.PREC[lvl]:
            op = self.next()
            a = ('bin', op, a, self.binary(lvl + 1))
        return a

    def unary(self):
        p = self.next()
        if p in ('!', '~'):
            return ('un', p, self.unary())
        if p == '(':
            e = self.expr()
            self.expect(')')
            return e
        if p == 'static_cast':
            self.expect('<')
            ty = self.typename()
            self.expect('>')
            self.expect('(')
            e = self.expr()
            self.expect(')')
            return ('castto', ty, e)
        if re.match(r'\d', p):
            return ('num', int(p, 0))
        if p in ('true', 'false'):
            return ('bool', p)
        if self.peek() == '(':
            self.next()
            e = self.expr()
            self.expect(')')
            return ('callf', p, e)
        return ('id', p)

    # -- typed translation.  E translation returns (e, bits): bits None = promoted
    def E(self, x, env):
        k = x[0]
        if k == 'num':
            return ('lit', x[1]), None
        if k == 'id':
            return env[x[1]]
        if k == 'castto':
            e, b = self.E(x[2], env)
            w = BITS[x[1]]
            if b is not None and b <= w:
                return e, w
            return ('cast', e, w), w
        if k == 'un' and x[1] == '~':
            e, b = self.E(x[2], env)
            assert e[0] == 'lit'
            return ('lit', 0xFFFFFFFF ^ e[1]), None
        if k == 'bin':
            a, ba = self.E(x[2], env)
            b, bb = self.E(x[3], env)
            op = {'&': 'and', '|': 'or', '+': 'add', '>>': 'shr'}[x[1]]
            assert b[0] == 'lit'
            # int (or unsigned) arithmetic; 32-bit operands keep their width
            # additions on char32_t wrap at 32 bits (cast added on return)
            return (op, a, b[1]), (32 if ba == 32 else None)
        raise Exception(x)

    def B(self, x, env):
        k = x[0]
        if k == 'bool':
            return ('tt',) if x[1] == 'true' else ('ff',)
        if k == 'un' and x[1] == '!':
            return ('not', self.B(x[2], env))
        if k == '?':
            return ('cond', self.B(x[1], env), self.B(x[2], env), self.B(x[3], env))
        if k == 'callf':
            e, bits = self.E(x[2], env)
            return ('callB',) + self.resolve(x[1], e, bits)
        if k == 'bin' and x[1] in ('&&', '||'):
            return ('andB' if x[1] == '&&' else 'orB', self.B(x[2], env), self.B(x[3], env))
        if k == 'bin' and x[1] in ('==', '!=', '<', '<=', '>', '>='):
            a, _ = self.E(x[2], env)
            b, _ = self.E(x[3], env)
            if b[0] != 'lit':
                assert x[1] == '=='
                return ('eqE', a, b)
            n = b[1]
            return {'==': ('eq', a, n), '!=': ('not', ('eq', a, n)), '<': ('lt', a, n),
                    '>': ('gt', a, n), '<=': ('le', a, n), '>=': ('ge', a, n)}[x[1]]
        raise Exception(x)

    def resolve(self, name, e, bits):
        ov = self.types[name]
        if len(ov) == 1:
            w = ov[0][0]
        else:
            w = bits
            assert w in [o[0] for o in ov], (name, e, bits)
        if bits is None or bits > w:
            e = ('cast', e, w)
        return self.leanname(name, w), e

    def R(self, x, env):
        """returned expression"""
        if self.ret == 'bool':
            return self.B(x, env)
        w = BITS[self.ret]
        # calls, possibly under casts
        y, casts = x, []
        while y[0] == 'castto':
            casts.append(BITS[y[1]])
            y = y[2]
        if y[0] == 'callf':
            e, bits = self.E(y[2], env)
            name, e = self.resolve(y[1], e, bits)
            rb = BITS[self.types[y[1]][0][1]]
            return ('callV', name, e, min(casts + [w, rb]))
        e, bits = self.E(x, env)
        if e == ('c',):
            assert bits <= w
        elif e[0] == 'lit':
            assert e[1] < 2 ** w
        elif e[0] != 'cast' or e[2] > w:
            e = ('cast', e, w)
        return ('ret', e)

    def tree(self, stmts, env, after, brk):
        """decision tree of a statement list; `after()` = what follows it,
        `brk()` = what follows the enclosing switch"""
        if not stmts:
            assert after is not None, 'falls off'
            return after()
        s, rest = stmts[0], stmts[1:]
        k = s[0]
        if k == 'return':
            return self.R(s[1], env)
        if k == 'break':
            return brk()
        if k == 'block':
            return self.tree(s[1] + rest, env, after, brk)
        if k == 'let':
            e, bits = self.E(s[2], env)
            if s[3] != 'auto' and s[3] in BITS:
                if bits is None or bits > BITS[s[3]]:
                    e = ('cast', e, BITS[s[3]])
                bits = BITS[s[3]]
            if s[3] == 'unsigned' and bits is not None and bits < 32:
                bits = None
            env = dict(env)
            env[s[1]] = (e, bits)
            return ('let', s[1], e, self.tree(rest, dict(env, **{s[1]: (('var', s[1]), bits)}), after, brk))
        cont = lambda: self.tree(rest, env, after, brk)
        if k == 'if':
            t = self.tree([s[2]], env, cont, brk)
            f = self.tree([s[3]] if s[3] else [], env, cont, brk)
            return ('cond', self.B(s[1], env), t, f)
        if k == 'switch':
            e, _ = self.E(s[1], env)
            dflt, chain = None, []
            for gi, (labels, body) in enumerate(s[2]):
                def fall():
                    raise Exception('fallthrough')
                # the last group may run off the end of the switch
                aft = cont if gi == len(s[2]) - 1 else fall
                t = self.tree(body, env, aft, cont)
                if 'default' in labels:
                    dflt = t
                    labels = [l for l in labels if l != 'default']
                    assert not labels
                else:
                    chain.append((labels, t))
            r = dflt if dflt is not None else cont()
            for labels, t in reversed(chain):
                r = ('case', e, labels, t, r)
            return r
        raise Exception(s)


def load(path):
    p = Parser(open(path).read())
    return p.parse()


# ---------------------------------------------------------------- interpreter
def ev(e, x, loc):
    k = e[0]
    if k == 'c': return x
    if k == 'var': return ev(loc[e[1]][0], x, loc[e[1]][1])
    if k == 'lit': return e[1]
    a = ev(e[1], x, loc)
    n = e[2]
    return {'and': lambda: a & n, 'or': lambda: a | n, 'add': lambda: a + n,
            'shr': lambda: a >> n, 'cast': lambda: a % (1 << n)}[k]()


def run(t, x, loc, fns):
    k = t[0]
    if k == 'tt': return True
    if k == 'ff': return False
    if k == 'eq': return ev(t[1], x, loc) == t[2]
    if k == 'lt': return ev(t[1], x, loc) < t[2]
    if k == 'gt': return ev(t[1], x, loc) > t[2]
    if k == 'le': return ev(t[1], x, loc) <= t[2]
    if k == 'ge': return ev(t[1], x, loc) >= t[2]
    if k == 'eqE': return ev(t[1], x, loc) == ev(t[2], x, loc)
    if k == 'not': return not run(t[1], x, loc, fns)
    if k == 'andB': return run(t[1], x, loc, fns) and run(t[2], x, loc, fns)
    if k == 'orB': return run(t[1], x, loc, fns) or run(t[2], x, loc, fns)
    if k == 'cond': return run(t[2] if run(t[1], x, loc, fns) else t[3], x, loc, fns)
    if k == 'case': return run(t[3] if ev(t[1], x, loc) in t[2] else t[4], x, loc, fns)
    if k == 'let': return run(t[3], x, dict(loc, **{t[1]: (t[2], loc)}), fns)
    if k == 'callB': return run(fns[t[1]], ev(t[2], x, loc), {}, fns)
    if k == 'ret': return ev(t[1], x, loc)
    if k == 'callV': return run(fns[t[1]], ev(t[2], x, loc), {}, fns) % (1 << t[3])
    raise Exception(t)


# ---------------------------------------------------------------- UnicodeData
def unicode_data(path):
    """assigned ranges (without surrogates and private use) and simple
    lower-case mappings of a UnicodeData.txt"""
    ranges, lower, first = [], [], None
    for line in open(path, encoding='utf-8'):
        f = line.rstrip('\n').split(';')
        if len(f) < 15:
            continue
        c = int(f[0], 16)
        name = f[1]
        if f[13]:
            lower.append((c, int(f[13], 16)))
        if name.endswith(', First>'):
            first = c
            continue
        lo = c
        if name.endswith(', Last>'):
            lo, first = first, None
        if 'Surrogate' in name or 'Private' in name:
            continue
        if ranges and ranges[-1][1] + 1 == lo:
            ranges[-1][1] = c
        else:
            ranges.append([lo, c])
    return [tuple(r) for r in ranges], lower
