"""Python twin of Verif/Lemmas/Interval.lean, used to find the cut points."""
from cxx_tables import *


def inline(t, loc):
    """replace local names by their definitions"""
    if isinstance(t, tuple):
        if t and t[0] == 'var':
            return loc[t[1]]
        if t and t[0] == 'let':
            return inline(t[3], dict(loc, **{t[1]: inline(t[2], loc)}))
        return tuple(inline(x, loc) for x in t)
    return t


def erange(e, lo, hi):
    k = e[0]
    if k == 'c': return lo, hi
    if k == 'lit': return e[1], e[1]
    r = erange(e[1], lo, hi)
    if r is None: return None
    a, b = r
    n = e[2]
    if k == 'and':
        if a == b: return a & n, a & n
        kk = max(n.bit_length(), 1)
        j = (2 ** kk - n).bit_length() - 1
        return (a & n, b & n) if n == 2 ** kk - 2 ** j and a >> kk == b >> kk else None
    if k == 'or': return (a | n, a | n) if a == b else None
    if k == 'add': return a + n, b + n
    if k == 'shr': return a >> n, b >> n
    if k == 'cast': return (a % 2 ** n, b % 2 ** n) if a >> n == b >> n else None


def mem(r, ks):
    if r is None: return None
    a, b = r
    if a == b: return a in ks
    return False if all(k < a or b < k for k in ks) else None


def absB(t, lo, hi, fns):
    k = t[0]
    if k == 'tt': return True
    if k == 'ff': return False
    if k in ('eq', 'lt', 'gt', 'le', 'ge'):
        r = erange(t[1], lo, hi)
        if r is None: return None
        a, b = r
        n = t[2]
        if k == 'eq': return False if n < a or b < n else (True if a == b else None)
        if k == 'lt': return True if b < n else (False if n <= a else None)
        if k == 'gt': return True if n < a else (False if b <= n else None)
        if k == 'le': return True if b <= n else (False if n < a else None)
        if k == 'ge': return True if n <= a else (False if b < n else None)
    if k == 'eqE':
        r, s = erange(t[1], lo, hi), erange(t[2], lo, hi)
        if r is None or s is None: return None
        if r[1] < s[0] or s[1] < r[0]: return False
        return True if r[0] == r[1] and s[0] == s[1] else None
    if k == 'not':
        v = absB(t[1], lo, hi, fns)
        return None if v is None else not v
    if k == 'andB':
        u = absB(t[1], lo, hi, fns)
        if u is False: return False
        v = absB(t[2], lo, hi, fns)
        if u: return v
        return False if v is False else None
    if k == 'orB':
        u = absB(t[1], lo, hi, fns)
        if u is True: return True
        v = absB(t[2], lo, hi, fns)
        if u is False: return v
        return True if v is True else None
    if k == 'cond':
        v = absB(t[1], lo, hi, fns)
        return None if v is None else absB(t[2] if v else t[3], lo, hi, fns)
    if k == 'case':
        v = mem(erange(t[1], lo, hi), t[2])
        return None if v is None else absB(t[3] if v else t[4], lo, hi, fns)
    if k == 'callB':
        r = erange(t[2], lo, hi)
        return None if r is None else absB(fns[t[1]], r[0], r[1], fns)


def absId(t, lo, hi, fns):
    k = t[0]
    if k == 'ret':
        return t[1] == ('c',) or (lo == hi and ev(t[1], lo, {}) == lo)
    if k == 'cond':
        v = absB(t[1], lo, hi, fns)
        return False if v is None else absId(t[2] if v else t[3], lo, hi, fns)
    if k == 'case':
        v = mem(erange(t[1], lo, hi), t[2])
        return False if v is None else absId(t[3] if v else t[4], lo, hi, fns)
    if k == 'callV':
        e, w = t[2], t[3]
        if e == ('c',): return absId(fns[t[1]], lo, hi, fns) and hi < 2 ** w
        if e[0] == 'cast' and e[1] == ('c',):
            return absId(fns[t[1]], lo, hi, fns) and hi < 2 ** w and hi < 2 ** e[2]
        return False


def leaves(ok, lo, hi):
    if ok(lo, hi): return [(lo, hi)]
    assert lo < hi, hex(lo)
    p = (lo ^ hi).bit_length() - 1
    m = (hi >> p) << p
    return leaves(ok, lo, m - 1) + leaves(ok, m, hi)


def segments(ok, lo, hi):
    """a list of consecutive intervals covering lo..hi on which `ok` holds"""
    out = []
    for s in leaves(ok, lo, hi):
        if out and ok(out[-1][0], s[1]):
            out[-1] = (out[-1][0], s[1])
        else:
            out.append(s)
    return out
