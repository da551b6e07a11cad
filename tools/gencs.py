"""Generate lean/Verif/Gen/Cs*.lean: the data of the two-byte character sets of lib/converters.

Decoding functions are run on every pair of bytes, recording which table entry or constant gives the
character; runs of equal form are merged to ranges of the index. Encoding functions are cut at the
constants compared with wc and run on each piece."""
import os, sys
sys.path.insert(0, os.path.dirname(os.path.abspath(__file__)))
import cparse

OUT = os.path.join(os.path.dirname(os.path.abspath(__file__)), '../lean/Verif/Gen/')


class Ret(Exception):
    def __init__(self, v):
        self.v = v


class Found(Exception):
    def __init__(self, k):
        self.k = k


class Brk(Exception):
    pass


class V:
    """value with provenance"""
    __slots__ = ('v', 'p')

    def __init__(self, v, p=None):
        self.v = v
        self.p = p


class Ev:
    def __init__(self, tabs, env):
        self.tabs = tabs
        self.env = env
        self.out = None

    def e(self, x):
        k = x[0]
        if k == 'num':
            return V(x[1])
        if k == 'cast':
            return self.e(x[2])
        if k == 'id':
            if x[1] == 'RET_ILSEQ' or x[1] == 'RET_ILUNI':
                return V(-1)
            if x[1] == 'RET_TOOSMALL':
                return V(-2)
            if x[1] == 'NULL':
                return V(0)
            return self.env[x[1]]
        if k == 'call' and x[1] == ('id', 'RET_TOOFEW'):
            return V(-2)
        if k == 'idx' and x[1] == ('id', 's'):
            return self.env['s%d' % self.e(x[2]).v]
        if k == 'un' and x[1] == '*' and x[2] == ('id', 's'):
            return self.env['s0']
        if k == 'un' and x[1] == '&':
            y = x[2]
            return V(1, ('summ', y[1][1], self.e(y[2]).v))
        if k == 'idx':
            t = x[1][1]
            i = self.e(x[2]).v
            vals = self.tabs[t][1]
            assert 0 <= i < len(vals), (t, i, self.env)
            return V(vals[i], ('tab', t, i))
        if k == 'bin':
            op = x[1]
            if op == '&&':
                return V(int(bool(self.e(x[2]).v and self.e(x[3]).v)))
            if op == '||':
                return V(int(bool(self.e(x[2]).v or self.e(x[3]).v)))
            a = self.e(x[2])
            b = self.e(x[3])
            r = {'+': lambda: a.v + b.v, '-': lambda: a.v - b.v, '*': lambda: a.v * b.v,
                 '<': lambda: int(a.v < b.v), '>': lambda: int(a.v > b.v), '<=': lambda: int(a.v <= b.v),
                 '>=': lambda: int(a.v >= b.v), '==': lambda: int(a.v == b.v), '!=': lambda: int(a.v != b.v),
                 '>>': lambda: a.v >> b.v, '<<': lambda: a.v << b.v, '&': lambda: a.v & b.v,
                 '|': lambda: a.v | b.v}[op]()
            p = None
            if op == '|' and a.p:
                # U[swc >> sh] | (swc & mask)
                sh = x[2][2]
                assert sh[:2] == ('bin', '>>'), x
                swc = self.e(sh[2])
                m = self.e(x[3][3]).v
                assert m == (1 << sh[3][1]) - 1
                p = ('pages', swc.p[1], swc.p[2], a.p[1], sh[3][1])
            if op == '+' and a.p and b.p and a.p[0] == 'tab' and b.p[0] == 'tab':
                p = ('main', a.p[1], a.p[2], b.p[1], b.p[2])
            if op == '-':
                assert r >= 0, (x, self.env)
            return V(r, p)
        if k == '?':
            return self.e(x[2]) if self.e(x[1]).v else self.e(x[3])
        if k == 'comma':
            self.e(x[1])
            return self.e(x[2])
        if k == 'asg':
            assert x[1] == '=', x
            v = self.e(x[3])
            if x[2][0] == 'id':
                self.env[x[2][1]] = v
            elif x[2] == ('un', '*', ('id', 'pwc')):
                self.out = v
            else:
                raise KeyError(x)
            return v
        if k == 'fld':
            raise Found(self.env['summary'].p)
        raise KeyError(x)

    def s(self, x):
        k = x[0]
        if k == 'blk':
            for y in x[1]:
                self.s(y)
        elif k == 'decl':
            for (n, ptr, arr, init) in x[1][1]:
                self.env[n] = self.e(init) if init is not None else V(0)
        elif k == 'expr':
            self.e(x[1])
        elif k == 'if':
            if x[1] == ('bin', '!=', ('id', 'c'), ('num', 0)):
                v = self.env['c']
                raise Found(v.p if v.p else (('const', v.v) if v.v else None))
            self.s(x[2] if self.e(x[1]).v else x[3])
        elif k == 'ret':
            raise Ret(self.e(x[1]).v)
        elif k == 'switch':
            v = self.e(x[1]).v
            body = x[2][1]
            on = False
            has = any(y[0] == 'case' and self.e(y[1]).v == v for y in body)
            try:
                for y in body:
                    if y[0] == 'case':
                        on = on or self.e(y[1]).v == v
                    elif y[0] == 'default':
                        on = on or not has
                    elif on:
                        self.s(y)
            except Brk:
                pass
        elif k == 'break':
            raise Brk()
        else:
            raise KeyError(x)


def find(x, pat, acc):
    if isinstance(x, (tuple, list)):
        if isinstance(x, tuple) and pat(x):
            acc.append(x)
        for y in x:
            find(y, pat, acc)
    return acc


def runs(pairs):
    """[(index, key)] sorted, key None dropped -> [(lo, hi, key)]"""
    res = []
    for i, k in pairs:
        if k is None:
            continue
        if res and res[-1][1] == i and res[-1][2] == k:
            res[-1][1] = i + 1
        else:
            res.append([i, i + 1, k])
    return res


def spans(vals):
    """[(c, sub)] -> [(lo, hi, sub)]"""
    res = []
    for c, s in sorted(vals):
        if res and res[-1][1] == c and res[-1][2] == s:
            res[-1][1] = c + 1
        else:
            res.append([c, c + 1, s])
    return res


def decoder(f, name, tabs):
    ast, a, b = cparse.function(f, name)
    subs1 = find(ast, lambda x: x[:3] == ('bin', '-', ('id', 'c1')), [])
    subs2 = find(ast, lambda x: x[:3] == ('bin', '-', ('id', 'c2')), [])
    sub1 = subs1[0][3]
    sub2 = subs2[0][3]
    rows = {}
    cols = {}
    idx = {}
    for c1 in range(256):
        for c2 in range(256):
            ev = Ev(tabs, {'s0': V(c1), 's1': V(c2), 'n': V(2)})
            try:
                ev.s(ast)
                raise AssertionError
            except Ret as r:
                if r.v == 2:
                    # a second run on one byte tells that the row test precedes the test on n
                    pass
                if 'i' in ev.env:
                    i = ev.env['i'].v
                    rows[c1] = ev.e(sub1).v
                    cols[c2] = ev.e(sub2).v
                    w = ev.out if r.v == 2 else None
                    src = ev.env['wc'] if 'wc' in ev.env else ev.out
                    key = None
                    if src is not None and not (src.p is None and (src.v == 0xfffd)):
                        if r.v == 2:
                            assert ev.out is src or ev.out.v == src.v
                        else:
                            assert src.v == 0xfffd
                        if src.p is None:
                            key = ('add', src.v - i)
                        elif src.p[0] == 'tab':
                            key = ('tab', src.p[1], i - src.p[2])
                        elif src.p[0] == 'pages':
                            key = ('pages', src.p[1], i - src.p[2], src.p[3], src.p[4])
                        elif src.p[0] == 'main':
                            key = ('main', src.p[1], src.p[3])
                            assert src.p[4] == i
                            idx.setdefault('main', []).append((i, src.p[2]))
                    else:
                        assert r.v == -1
                    assert idx.setdefault(i, key) == key, (name, c1, c2)
                    idx[(c1, c2)] = i
                else:
                    assert r.v == -1
    # n = 1: rows give RET_TOOFEW(0), others RET_ILSEQ
    for c1 in range(256):
        ev = Ev(tabs, {'s0': V(c1), 'n': V(1)})
        try:
            ev.s(ast)
        except Ret as r:
            assert r.v == (-2 if c1 in rows else -1)
    R = spans(rows.items())
    C = spans(cols.items())
    # stride
    st = None
    for (k, i) in list(idx.items()):
        if isinstance(k, tuple):
            c1, c2 = k
            r = c1 - rows[c1]
            c = c2 - cols[c2]
            if r:
                q, m = divmod(i - c, r)
                assert m == 0 and st in (None, q)
                st = q
            else:
                assert i == c
    st = st or 0
    assert all((c1, c2) in idx for c1 in rows for c2 in cols)
    if 'main' in idx:
        d = st // 2
        assert all(j == i // d for i, j in idx['main'])
    S = runs(sorted((k, v) for k, v in idx.items() if isinstance(k, int)))
    S = [(lo, hi, (k if k[0] != 'main' else k + (st // 2,))) for lo, hi, k in S]
    return R, C, st, S, a, b


def cuts(x, acc):
    if isinstance(x, tuple) and x[0] == 'bin' and x[1] in ('<', '>', '<=', '>=', '==', '!='):
        for y in x[2:]:
            if y[0] == 'num':
                acc |= {y[1], y[1] + 1}
    if isinstance(x, (tuple, list)):
        for y in x:
            cuts(y, acc)
    return acc


def encoder(f, name, tabs):
    ast, a, b = cparse.function(f, name)
    cs = sorted(cuts(ast, {0, 1 << 32}))
    cs = [c for c in cs if c <= 1 << 32]
    segs = []

    def key(wc):
        ev = Ev(tabs, {'wc': V(wc), 'n': V(3)})
        try:
            ev.s(ast)
            raise AssertionError
        except Ret as r:
            assert r.v == -1
            return None
        except Found as fd:
            k = fd.k
            if k is None:
                return None
            if k[0] == 'summ':
                return ('summ', k[1], (wc >> 4) - k[2])
            if k[0] == 'tab':
                return ('tab', k[1], wc - k[2])
            return k
    for lo, hi in zip(cs, cs[1:]):
        k = key(lo)
        assert k == key(hi - 1) == key((lo + hi) // 2), (name, hex(lo), hex(hi))
        if k is None:
            continue
        if segs and segs[-1][1] == lo and segs[-1][2] == k:
            segs[-1][1] = hi
        else:
            segs.append([lo, hi, k])
    used = sorted({t for t in find_ids(ast) if t in tabs and 'uni2indx' not in t})
    return segs, used, a, b


def find_ids(x):
    if isinstance(x, tuple) and x and x[0] == 'id':
        yield x[1]
    elif isinstance(x, (tuple, list)):
        for y in x:
            yield from find_ids(y)


def width(ty):
    return {'unsigned short': 16, 'unsigned char': 8, 'ucs4_t': 32, 'unsigned int': 32, 'Summary16': 32}[ty]


def emit(fn, imports, title, sets):
    out = ['import Verif.Codec.Charset'] + imports + ['', '/-!', '# ' + title, '',
           'Generated by `tools/gencs.py` from `lib/converters/*.h`.', '-/', '', 'namespace Reiconv', '']
    done = set()
    for (files, dec, enc, base) in sets:
        tabs = {}
        where = {}
        for f in files:
            for k, v in cparse.tables(f).items():
                tabs[k] = v
                where[k] = f

        def tab(t):
            if t in done:
                return
            done.add(t)
            ty, vals, a, b, dim = tabs[t]
            if dim.strip():
                n = eval(dim)
                n = n // 1
                assert n == len(vals), (t, dim, len(vals))
            if ty.endswith('Summary16'):
                vals = [i + (u << 16) for i, u in vals]
                w = 32
                extra = ' An entry is `indx + 65536 * used`.'
            else:
                w = width(ty)
                extra = ''
            assert all(0 <= v < 1 << w for v in vals)
            out.append('/-- `%s` (`lib/converters/%s.h:%d-%d`).%s -/' % (t, where[t], a, b, extra))
            out.append('def %s : Tab := ⟨%d, %d, %s⟩\n' % (t, w, len(vals), hex(sum(v << (w * i) for i, v in enumerate(vals)))))
        if dec:
            R, C, st, S, a, b = decoder(files[0], dec, tabs)
            ss = []
            for lo, hi, k in S:
                if k[0] == 'add':
                    kk = '.add 0x%x' % (k[1] + lo)
                elif k[0] == 'tab':
                    tab(k[1])
                    kk = '.tab %s %d' % (k[1], k[2])
                elif k[0] == 'pages':
                    tab(k[1])
                    tab(k[3])
                    kk = '.pages %s %d %s %d' % k[1:]
                else:
                    tab(k[1])
                    tab(k[2])
                    kk = '.main %s %d %s' % (k[1], k[3], k[2])
                ss.append('⟨%d, %d, %s⟩' % (lo, hi, kk))
            f = lambda l: '[' + ', '.join('⟨0x%02x, 0x%02x, 0x%02x⟩' % tuple(x) for x in l) + ']'
            out.append('/-- `%s` (`lib/converters/%s.h:%d-%d`). -/' % (dec, files[0], a, b))
            out.append('def %s_dec : CsDec where' % dec[:-7])
            out.append('  rows := ' + f(R))
            out.append('  cols := ' + f(C))
            out.append('  stride := %d' % st)
            out.append('  segs := [' + ',\n    '.join(ss) + ']\n')
            out.append('theorem %s_dec_safe : %s_dec.safeF = true := by decide +kernel\n' % (dec[:-7], dec[:-7]))
        if enc:
            f = enc[1] if isinstance(enc, tuple) else files[0]
            en = enc[0] if isinstance(enc, tuple) else enc
            segs, used, a, b = encoder(f, en, tabs)
            ss = []
            for lo, hi, k in segs:
                if k[0] == 'const':
                    kk = '.const 0x%x' % k[1]
                else:
                    tab(k[1])
                    kk = '.%s %s 0x%x' % k
                ss.append('⟨0x%x, 0x%x, %s⟩' % (lo, hi, kk))
            st = en[:-7]
            codes = [t for t in used if t.endswith('_2charset')]
            main = [t for t in used if t.endswith('_2charset_main')]
            if main:
                tab(main[0])
                tab(codes[0])
                src = cparse.source(f)
                sh = 7 if 'used >> 7' in src else 6
                assert ('_main[used >> %d]' % sh) in src
                ck = '.main %s %d %s' % (main[0], sh, codes[0])
            elif codes:
                if 'inv_2charset[3 * used' in cparse.source(f):
                    ty, vals, ta, tb, dim = tabs[codes[0]]
                    ps = []
                    for q in range(0, len(vals), 12288):
                        ch = vals[q:q + 12288]
                        ps.append('%s_%d' % (codes[0], q // 12288))
                        out.append('/-- Bytes %d to %d of `%s` (`lib/converters/%s.h:%d-%d`). -/' % (q, q + len(ch) - 1, codes[0], where[codes[0]], ta, tb))
                        out.append('def %s : Tab := ⟨8, %d, %s⟩\n' % (ps[-1], len(ch), hex(sum(v << (8 * i) for i, v in enumerate(ch)))))
                    ck = '.tri [' + ', '.join(ps) + ']'
                else:
                    tab(codes[0])
                    ck = '.flat ' + codes[0]
            else:
                ck = '.flat ⟨16, 0, 0⟩'
            out.append('/-- `%s` (`lib/converters/%s.h:%d-%d`). -/' % (en, f, a, b))
            out.append('def %s_enc : CsEnc where' % st)
            out.append('  segs := [' + ',\n    '.join(ss) + ']')
            out.append('  codes := %s\n' % ck)
            out.append('theorem %s_enc_safe : %s_enc.safeF = true := by decide +kernel\n' % (st, st))
    out.append('end Reiconv')
    open(OUT + fn + '.lean', 'w').write('\n'.join(out) + '\n')


def cs(n, enc=True, dec=True, extra=()):
    return ((n,) + tuple(extra), n + '_mbtowc' if dec else None, n + '_wctomb' if enc else None, n)


if __name__ == '__main__':
    emit('CsKr', [], 'Korean character sets', [cs('ksc5601'), cs('uhc_1'), cs('uhc_2')])
    emit('CsJp', [], 'Japanese character sets', [cs('jisx0208'), cs('jisx0212'), cs('cp932ext')])
    emit('CsCn', [], 'Character sets of mainland China',
         [cs('gb2312'), cs('gbkext1', enc=False), cs('gbkext2', enc=False), cs('gbkext_inv', dec=False),
          cs('cp936ext'), cs('isoir165ext'),
          (('gb18030ext',), 'gb18030_2005_ext_mbtowc', 'gb18030ext_wctomb', ''),
          (('gb18030ext',), 'gb18030_2022_ext_mbtowc', None, '')])
    emit('CsTw', [], 'CNS 11643',
         [cs('cns11643_%s' % k, enc=False, extra=(['cns11643_4a', 'cns11643_4b'] if k == '4' else []))
          for k in ('1', '2', '3', '4', '5', '6', '7', '15')] + [cs('cns11643_inv', dec=False)])
    emit('CsBig5', [], 'Big5 and its extensions',
         [cs('big5'), cs('cp950ext'), cs('hkscs1999'), cs('hkscs2001'), cs('hkscs2004'), cs('hkscs2008')])
