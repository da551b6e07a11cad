"""Translate the single-byte converters of /repo/lib/converters into range rules.

For each converter the C functions X_mbtowc and X_wctomb are parsed, the constants compared with the
argument cut the domain into segments, and the function body is evaluated symbolically on each
segment. The result per segment is one rule; equal neighbouring rules are merged.
"""
import re, sys, os
sys.path.insert(0, os.path.dirname(__file__))
import cparse
from sbnames import names

INF = 1 << 32  # wc is an unsigned int


def consts(e, acc):
    if isinstance(e, tuple):
        if e[0] == 'num':
            acc.add(e[1])
        for x in e[1:]:
            consts(x, acc)
    elif isinstance(e, list):
        for x in e:
            consts(x, acc)


def cmp_consts(e, acc):
    if isinstance(e, tuple):
        if e[0] == 'bin' and e[1] in ('<', '>', '<=', '>=', '==', '!='):
            consts(e, acc)
        if e[0] == 'bin' and e[1] == '&':
            acc.update(range(0x20))
        for x in e[1:]:
            cmp_consts(x, acc)
    elif isinstance(e, list):
        for x in e:
            cmp_consts(x, acc)


class Ret(Exception):
    pass


# symbolic values: ('c', k) constant; ('x', d) argument + d; ('t', T, off, alt) table T[x - off]
class Ev:
    def __init__(self, name, arg, lo):
        self.env = {}
        self.name = name
        self.arg = arg
        self.lo = lo
        self.out = None
        self.ne = False

    def e(self, x):
        k = x[0]
        if k == 'num':
            return ('c', x[1])
        if k == 'id':
            if x[1] == self.arg:
                return ('x', 0)
            if x[1] in self.env:
                return self.env[x[1]]
            if x[1] in ('RET_ILSEQ', 'RET_ILUNI'):
                return ('c', x[1])
            raise KeyError(x[1])
        if k == 'cast':
            return self.e(x[2])
        if k == 'un' and x[1] == '*' and x[2] == ('id', 's') and self.arg == 'c':
            return ('x', 0)
        if k == 'un' and x[1] == '!':
            return ('b', not self.b(x[2]))
        if k == 'idx':
            i = self.e(x[2])
            assert i[0] == 'x', x
            return ('t', x[1][1], -i[1], None)
        if k == 'bin':
            op = x[1]
            if op == '&&':
                a = self.b(x[2])
                return ('b', a and self.b(x[3]))
            if op == '||':
                a = self.b(x[2])
                return ('b', a or self.b(x[3]))
            a, b = self.e(x[2]), self.e(x[3])
            if op == '+' and a[0] == 'x' and b[0] == 'c':
                return ('x', a[1] + b[1])
            if op == '-' and a[0] == 'x' and b[0] == 'c':
                return ('x', a[1] - b[1])
            if op in ('<', '>', '<=', '>=', '==', '!='):
                if a[0] == 't' and op in ('==', '!=') and b == ('c', 0xfffd):
                    return ('hole', a, op == '==')
                if a[0] == 't' and op == '!=' and b == ('c', 0):
                    return ('nz', a)
                va = self.lo + a[1] if a[0] == 'x' else a[1]
                vb = self.lo + b[1] if b[0] == 'x' else b[1]
                assert a[0] in 'xc' and b[0] in 'xc', x
                return ('b', eval('%d %s %d' % (va, op, vb)))
            if a[0] in 'xc' and b[0] in 'xc':
                va = self.lo + a[1] if a[0] == 'x' else a[1]
                vb = self.lo + b[1] if b[0] == 'x' else b[1]
                return ('c', eval('%d %s %d' % (va, op, vb)))
        raise NotImplementedError(x)

    def b(self, x):
        v = self.e(x)
        if v[0] == 'b':
            return v[1]
        if v[0] == 'nz':
            raise NotImplementedError('nz in condition')
        raise NotImplementedError((x, v))

    def run(self, s):
        k = s[0]
        if k == 'blk':
            for y in s[1]:
                self.run(y)
        elif k == 'decl':
            for (n, ptr, arr, init) in s[1][1]:
                if n == self.arg:
                    continue
                self.env[n] = self.e(init) if init is not None else None
        elif k == 'if':
            c = s[1]
            # encoder: c != 0 (|| wc == 0)
            v = self.final(c)
            if v is not None:
                self.run(s[2] if v else s[3])
                return
            v = self.e(c)
            self.run(s[2] if self.truth(v) else s[3])
        elif k == 'ret':
            raise Ret(self.e(s[1]))
        elif k == 'expr':
            x = s[1]
            assert x[0] == 'asg' and x[1] == '=', x
            v = self.e(x[3])
            l = x[2]
            if l[0] == 'id':
                self.env[l[1]] = v
            elif l in (('un', '*', ('id', 'pwc')), ('un', '*', ('id', 'r')), ('idx', ('id', 'r'), ('num', 0))):
                self.out = v
            else:
                raise NotImplementedError(x)
        else:
            raise NotImplementedError(s)

    def truth(self, v):
        assert v[0] == 'b', v
        return v[1]


class Dec(Ev):
    """`hv`: assume that the table value is (or is not) 0xfffd."""
    hv = None
    seen = None

    def final(self, c):
        return None

    def truth(self, v):
        if v[0] == 'hole':
            self.seen = v[1]
            return self.hv == v[2]
        return super().truth(v)


class Enc(Ev):
    def final(self, c):
        # patterns on the variable c of the encoder
        def nz(c):
            return c[0] == 'bin' and c[1] == '!=' and c[2] == ('id', 'c') and c[3] == ('num', 0)
        if nz(c) or (c[0] == 'bin' and c[1] == '||' and nz(c[2]) and
                     c[3] == ('bin', '==', ('id', 'wc'), ('num', 0))):
            zero = not nz(c)
            v = self.env['c']
            if v[0] == 't':
                self.nzflag = True
                self.zero = zero
                return True
            if v[0] == 'c':
                return v[1] != 0 or (zero and self.lo == 0)
            if v[0] == 'x':
                return self.lo + v[1] != 0 or (zero and self.lo == 0)
        return None

    def e(self, x):
        # cp1162: ... && cp874_2uni[wc-0x80] == 0xfffd
        if x[0] == 'bin' and x[1] == '&&' and x[3][0] == 'bin' and x[3][2][0] == 'idx':
            if not self.b(x[2]):
                return ('b', False)
            self.hl = self.e(x[3][2])
            return ('b', True)
        return super().e(x)


def decoder(name):
    ast, l0, l1 = cparse.function(name, name + '_mbtowc')
    arg = 'c' if re.search(r'unsigned char c\s*=', cparse.source(name)) else None
    cs = {0, 256}
    cmp_consts(ast, cs)
    cuts = sorted({x for c in cs for x in (c, c + 1) if 0 <= x <= 256})
    rules = []
    for lo, hi in zip(cuts, cuts[1:]):
        def go(hv):
            ev = Dec(name, 'c', lo)
            ev.hv = hv
            try:
                ev.run(ast)
                raise Exception('fell off')
            except Ret as r:
                return r.args[0], ev
        v, ev = go(False)
        if ev.seen:
            t = ev.seen
            assert v == ('c', 1) and ev.out == t, (name, v, ev.out)
            h, eh = go(True)
            if h == ('c', 'RET_ILSEQ'):
                rule = ('tab', t[1], t[2], 'hole')
            else:
                assert h == ('c', 1) and eh.out == ('x', 0), h
                rule = ('tab', t[1], t[2], 'ident')
        elif v == ('c', 1):
            o = ev.out
            if o[0] == 'x':
                rule = ('add', o[1])
            elif o[0] == 'c':
                rule = ('add', o[1] - lo)
                assert hi == lo + 1
            else:
                rule = ('tab', o[1], o[2], 'all')
        else:
            assert v == ('c', 'RET_ILSEQ'), v
            rule = None
        rules.append((lo, hi, rule))
    return merge(rules), l0, l1


def encoder(name):
    ast, l0, l1 = cparse.function(name, name + '_wctomb')
    cs = {0, INF}
    cmp_consts(ast, cs)
    cuts = sorted({x for c in cs for x in (c, c + 1) if 0 <= x <= INF})
    rules = []
    for lo, hi in zip(cuts, cuts[1:]):
        ev = Enc(name, 'wc', lo)
        ev.hl = None
        ev.nzflag = False
        ev.zero = False
        try:
            ev.run(ast)
            raise Exception('fell off')
        except Ret as r:
            v = r.args[0]
        if v == ('c', 'RET_ILUNI'):
            rule = None
        else:
            assert v == ('c', 1), v
            o = ev.out
            if ev.hl is not None:
                assert o == ('x', 0)
                rule = ('tab', ev.hl[1], ev.hl[2], 'holes')
            elif o[0] == 'x':
                rule = ('add', o[1])
            elif o[0] == 'c':
                assert hi == lo + 1
                rule = ('add', o[1] - lo)
            else:
                assert ev.nzflag or True
                rule = ('tab', o[1], o[2], 'zero' if (ev.zero and lo == 0) else ('nz' if ev.nzflag else 'all'))
                if ev.zero and lo == 0:
                    assert hi == 1
        rules.append((lo, hi, rule))
    return merge(rules), l0, l1


def merge(rules):
    out = []
    for lo, hi, r in rules:
        if out and out[-1][2] == r and out[-1][1] == lo:
            out[-1] = (out[-1][0], hi, r)
        else:
            out.append((lo, hi, r))
    return [x for x in out if x[2] is not None]


if __name__ == '__main__':
    from collections import Counter
    c = Counter()
    for n in (sys.argv[1:] or names):
        try:
            d, a, b = decoder(n)
            e, a2, b2 = encoder(n)
            if sys.argv[1:]:
                for x in d: print('D', x)
                for x in e: print('E', x)
            for x in d: c['D', x[2][0], x[2][3] if x[2][0] == 'tab' else ''] += 1
            for x in e: c['E', x[2][0], x[2][3] if x[2][0] == 'tab' else ''] += 1
        except Exception as ex:
            print(n, type(ex).__name__, str(ex)[:200])
    print(c)
