"""Generate lean/Verif/Gen/Tab*.lean: the conversion tables of tests/data for the multibyte encodings,
and the checks of the converters against them."""
import bisect, os, re, sys
HERE = os.path.dirname(os.path.abspath(__file__))
GEN = os.path.join(HERE, '../lean/Verif/Gen/')
DATA = '/repo/tests/data/'
sys.path.insert(0, HERE)


STRIP = {
    # character sets: the rows of an EUC file without the high bits
    'GB2312': ('EUC-CN.TXT', b'', 0x100), 'KSC5601': ('EUC-KR.TXT', b'', 0x100),
    'JISX0208': ('EUC-JP.TXT', b'', 0xf5), 'JISX0212': ('EUC-JP.TXT', b'\x8f', 0xf5),
}


PAIRS = ['BIG5-HKSCS-%d.TXT' % y for y in (1999, 2001, 2004, 2008)] + ['EUC-JISX0213.TXT', 'SHIFT_JISX0213.TXT']


def rows(fn):
    if fn in STRIP:
        f, pre, hi = STRIP[fn]
        out = []
        for b, c in rows(f):
            if b.startswith(pre) and len(b) == len(pre) + 2 and b[len(pre)] >= 0xa1 and b[len(pre)] < hi:
                out.append((bytes(x - 0x80 for x in b[len(pre):]), c))
        return out
    out = []
    for l in open(DATA + fn):
        l = l.split('#')[0].split()
        if not l:
            continue
        b, ws = l[0][2:], l[1:]
        assert len(b) % 2 == 0
        if len(ws) == 2 and fn in PAIRS:
            # one byte sequence for two characters: see `hkPairs`, `jisxPairs`
            continue
        assert len(ws) == 1 and ws[0].startswith('0x'), l
        out.append((bytes.fromhex(b), int(ws[0], 16)))
    return out


def segs(cs):
    """ranges of characters of the encoder of a character set"""
    for f in sorted(os.listdir(GEN)):
        if not f.startswith('Cs'):
            continue
        t = open(GEN + f).read()
        m = re.search(r'def %s_enc : CsEnc where\n  segs := \[(.*?)\]\n  codes' % cs, t, re.S)
        if m:
            return [(int(a, 16), int(b, 16)) for a, b in re.findall(r'⟨(0x[0-9a-f]+), (0x[0-9a-f]+), \.', m[1])]
    raise KeyError(cs)


def merge(rs):
    out = []
    for a, b in sorted(rs):
        if out and a <= out[-1][1]:
            out[-1][1] = max(out[-1][1], b)
        else:
            out.append([a, b])
    return out


def key(b):
    k = 1
    for x in b:
        k = 256 * k + x
    return k


FULL = 300


def full(a, b, enc):
    """split the range at runs of characters of which none is missing"""
    res = []
    while a < b:
        lo = a
        while lo < b:
            hi = lo
            while hi < b and hi in enc:
                hi += 1
            if hi - lo >= FULL:
                break
            lo = hi + 1
        if lo >= b:
            res.append((a, b))
            break
        if a < lo:
            res.append((a, lo))
        res.append((lo, hi))
        a = hi
    return res


def gen(out, mod, un, n, fn, m, w, sets, extra, irrfn=None, unf=(), per=2000, steps=6000, wper=6000, prem='', prew='', have='', h0=(), asc=True, crw=True,
        mn=None, wn=None, gn=None, fits=None, moreT=(), moreE=(), z3='', split=(), hs0=''):
    """n: function name; fn: data file; m, w: lemmas for the decoder and the encoder; sets: character sets
    used by the encoder; extra: further ranges of characters; unf: definitions to unfold for the range lemma"""
    mn, wn, gn = mn or n + '_mbtowc', wn or n + '_wctomb', gn or n + '_good'
    fits = fits or '(fun wc => W.fits (%s_wgood wc))' % n
    R = sorted([(b, c) for b, c in rows(fn)] + list(moreT))
    irr = set(rows(irrfn)) if irrfn else set()
    irr_d = irr & set(R)
    irr_e = sorted((irr | set(moreE)) - set(R))
    enc = sorted([c for b, c in R if (b, c) not in irr_d] + [c for b, c in irr_e])
    assert len(enc) == len(set(enc)), 'encoder not a function'
    width = {1: 36, 2: 44, 3: 52, 4: 60}[max(len(b) for b, c in R)]
    o = []
    o.append('import %s\nimport Verif.Codec.TableCheck\nimport %s\n' % (mod, un))
    o.append('/-! Generated by `tools/gentab.py`: the table `tests/data/%s` and checks of `%s`, `%s`\nagainst it. -/\n' % (fn, mn, wn))
    o.append('namespace Reiconv\n')
    # pieces by first byte
    by = {}
    for b, c in R:
        by.setdefault(b[0], []).append((b, c))
    pieces = []
    a0 = 0
    cur = []
    cost = 0
    for a in range(256):
        rs = by.get(a, [])
        c = 1 if rs and len(rs[0][0]) == 1 else (256 * len(set(b[:-1] for b, _ in rs)) if rs else 2)
        if cur and cost + c > steps:
            pieces.append((a0, a - a0, cur))
            a0, cur, cost = a, [], 0
        cur = cur + rs
        cost += c
    pieces.append((a0, 256 - a0, cur))
    ti = 0
    pl = []
    tabs = []
    parts = {}
    for lo, k, rs in pieces:
        ts = []
        if lo in split:
            # by the second byte
            by2 = {}
            for b, c in rs:
                by2.setdefault(b[1], []).append((b, c))
            chunks, c0, p0, sub = [], 0, ti, []
            for a in sorted(by2):
                l = by2[a]
                cs = [l[i:i + per] for i in range(0, len(l), per)]
                if a - c0 > 4 and c0:
                    sub.append([c0, 4, []])
                    c0 += 4
                sub.append([c0, a + 1 - c0, ['%s_t%d' % (n, p0 + i) for i in range(len(cs))]])
                p0 += len(cs)
                chunks += cs
                c0 = a + 1
            sub.append([c0, 256 - c0, []])
            parts[len(pl)] = (lo, sub)
        else:
            chunks = [rs[i:i + per] for i in range(0, len(rs), per)]
        for part in chunks:
            x = 0
            for j, (b, c) in enumerate(part):
                x |= ((key(b) << 24) | c) << (width * j)
            o.append('def %s_t%d : Tab := ⟨%d, %d, %s⟩\n' % (n, ti, width, len(part), hex(x)))
            ts.append('%s_t%d' % (n, ti))
            tabs.append('%s_t%d' % (n, ti))
            dup = [x for x in part if x in irr_d]
            x = 0
            for j, (b, c) in enumerate(dup):
                x |= ((key(b) << 24) | c) << (width * j)
            o.append('def %s_d%d : Tab := ⟨%d, %d, %s⟩\n' % (n, ti, width, len(dup), hex(x)))
            ti += 1
        if lo in split:
            o.append('/-- The rows with the first byte %#x by second byte. -/\ndef %s_parts%d : List (Nat × Nat × List Tab) :=\n  [%s]\n' % (
                lo, n, len(pl), ',\n    '.join('(%#x, %d, [%s])' % (a, b, ', '.join(c)) for a, b, c in sub)))
            pl.append('(%#x, 1, pieceTabs %s_parts%d)' % (lo, n, len(pl)))
        else:
            pl.append('(%#x, %d, [%s])' % (lo, k, ', '.join(ts)))
    o.append('/-- The rows of `tests/data/%s` by first byte. -/\ndef %s_pieces : List (Nat × Nat × List Tab) :=\n  [%s]\n' %
             (fn, n, ',\n    '.join(pl)))
    o.append('/-- The tables of rows, each with its rows that the encoder does not produce. -/\ndef %s_dups : List (Tab × Tab) :=\n  [%s]\n' %
             (n, ', '.join('(%s_t%d, %s_d%d)' % (n, i, n, i) for i in range(ti))))
    o.append('/-- Pairs that the encoder produces and the decoder does not. -/\ndef %s_ex : List (Nat × Nat) :=\n  [%s]\n' % (
        n, ', '.join('(%#x, %#x)' % (key(b), c) for b, c in irr_e)))
    o.append('/-- %s -/\ndef %s_irr : List (List Byte × Nat) := tableOf (%s_dups.map (·.2)) ++ irrOf %s_ex\n' % (
        'The rows of `tests/data/%s`.' % irrfn if irrfn else 'There is no file of irreversible pairs.', n, n, n))
    rng = merge([r for s in sets for r in segs(s)] + list(extra))
    pr = []
    set_enc = set(enc)
    rng = [r for a, b in rng for r in full(a, b, set_enc)]
    for a, b in rng:
        if b - a >= FULL and all(c in set_enc for c in range(a, b)):
            pr.append((a, b - a))
            continue
        while b - a > wper:
            pr.append((a, wper))
            a += wper
        pr.append((a, b - a))
    # the kernel recurses once per character of a run without encodable characters
    def longest(a, k):
        m = r = 0
        for c in range(a, a + k):
            r = 0 if c in set_enc else r + 1
            m = max(m, r)
        return m
    pr = [q for a, k in pr for q in ([(a, k)] if longest(a, k) < 1500 else
                                     [(x, min(1000, a + k - x)) for x in range(a, a + k, 1000)])]
    pr = [(a, k, bisect.bisect_left(enc, a + k) - bisect.bisect_left(enc, a)) for a, k in pr]
    assert sum(c for a, k, c in pr) == len(enc), ('ranges', n, [hex(c) for c in enc if not any(a <= c < a + k for a, k, _ in pr)][:20])
    o.append('def %s_ranges : List (Nat × Nat × Nat) :=\n  [%s]\n' % (n, ', '.join('(%#x, %d, %d)' % r for r in pr)))
    o.append('''noncomputable def %(n)s_fm : {m // %(mn)s = m} := by
  refine ⟨?m, ?h⟩
  case h => conv => lhs; unfold %(mn)s; %(prem)sfast_simp [%(m)s, cond_rec, if_true]

noncomputable def %(n)s_fw : {w // %(wn)s = w} := by
  refine ⟨?m, ?h⟩
  case h => conv => lhs; unfold %(wn)s; %(prew)sfast_simp [%(w)s, %(crw)sif_true]
''' % dict(n=n, mn=mn, wn=wn, gn=gn, fits=fits, m=m, w=w, crw='cond_rec, ' if crw else '', prem=prem, prew=prew))
    for i, p in enumerate(pl):
        if i in parts:
            a, sub = parts[i]
            for j, (b, c, ts) in enumerate(sub):
                o.append('theorem %s_walk%d_%d : chkWalk (only2 %s %#x %d) %#x 1 [%s] = true := by\n  rw [%s_fm.property]; decide +kernel\n' % (
                    n, i, j, mn, b, c, a, ', '.join(ts), n))
            o.append('theorem %s_walk%d : PieceOK %s (%#x, 1, pieceTabs %s_parts%d) :=\n  walk_parts %s (by decide) (%s)\n' % (
                n, i, mn, a, n, i, gn, conj(['%s_walk%d_%d' % (n, i, j) for j in range(len(sub))])))
            continue
        lo, k, ts = re.match(r'\((\w+), (\d+), (.*)\)$', p).groups()
        o.append('theorem %s_walk%d : chkWalk %s %s %s %s = true := by\n  rw [%s_fm.property]; decide +kernel\n' % (n, i, mn, lo, k, ts, n))
    for i, x in enumerate(tabs):
        o.append('theorem %s_rows : chkRows %s %s %s_d%d = true := by\n  rw [%s_fw.property]; decide +kernel\n' % (x, wn, x, n, i, n))
    for i, (a, k, c) in enumerate(pr):
        if k == c and k >= FULL:
            continue
        o.append('theorem %s_sweep%d : cntSweep %s %#x %d = %d := by\n  rw [%s_fw.property]; decide +kernel\n' % (n, i, wn, a, k, c, n))
    o.append('theorem %s_chkEx : chkEx %s %s %s_ex = true := by\n  rw [%s_fm.property, %s_fw.property]; decide +kernel\n' % (n, mn, wn, n, n, n))
    o.append('''theorem %(n)s_cover : coverFrom 0 %(n)s_pieces = true := by decide

theorem %(n)s_walks : ∀ p ∈ %(n)s_pieces, %(piece)s := by
  exact %(walks)s

theorem %(n)s_allRows : ∀ p ∈ %(n)s_dups, chkRows %(wn)s p.1 p.2 = true := by
  exact %(rws)s

theorem %(n)s_sweeps : ∀ r ∈ %(n)s_ranges, cntSweep %(wn)s r.1 r.2.1 ≤ r.2.2 := by
  exact %(sw)s
''' % dict(n=n, mn=mn, wn=wn, gn=gn, fits=fits, walks=conj(['%s_walk%d' % (n, i) if not split or i in parts else '(chkWalk_piece %s %s_walk%d)' % (gn, n, i) for i in range(len(pl))]),
           piece='PieceOK %s p' % mn if split else 'chkWalk %s p.1 p.2.1 p.2.2 = true' % mn, rws=conj([x + '_rows' for x in tabs]),
           sw=conj(['(cntSweep_full ..)' if k == c and k >= FULL else '(Nat.le_of_eq %s_sweep%d)' % (n, i) for i, (a, k, c) in enumerate(pr)])))
    o.append('''theorem %(n)s_outside (wc : Nat) (h : (%(wn)s wc).res ≠ none) :
    ∃ r ∈ %(n)s_ranges, r.1 ≤ wc ∧ wc < r.1 + r.2.1 := by
  apply Classical.byContradiction
  intro hc
  have hn : ∀ r ∈ %(n)s_ranges, ¬ (r.1 ≤ wc ∧ wc < r.1 + r.2.1) := fun r hr h => hc ⟨r, hr, h⟩
%(hs)s
  simp only [%(n)s_ranges, List.forall_mem_cons] at hn
%(have)s  apply h
  simp only [%(wn)s%(w0)s]
  wnone

theorem %(n)s_table : TableOK %(mn)s %(wn)s (tableOf (pieceTabs %(n)s_pieces)) %(n)s_irr :=
  table_ok%(pr)s %(gn)s %(fits)s %(n)s_cover %(n)s_walks rfl %(n)s_allRows %(n)s_chkEx (by decide)
    %(n)s_sweeps (by decide) %(n)s_outside
%(asc)s
end Reiconv
''' % dict(n=n, mn=mn, wn=wn, gn=gn, fits=fits, w=w, asc=ASCT % dict(n=n, mn=mn, wn=wn, gn=gn, fits=fits) if asc else '', have=have, w0=''.join(', ' + x for x in tuple(unf) + tuple(h0)) + ''.join(', CsEnc.zero%s %s_enc_safe h_%s' % (z3, s, s) for s in sets), pr="'" if split else '',
           hs=hs0 % dict(n=n) + '\n'.join('  have h_%s : %s_enc.encF wc = 0 := CsEnc.outside (e := %s_enc) (rs := %s_ranges) (by decide) hn' % (s, s, s, n) for s in sets)))
    t = '\n'.join(o)
    print(out, len(t), len(R), len(pl), len(pr))
    if not split:
        open(GEN + out + '.lean', 'w').write(t)
        return
    # several modules, so that the memory of one check is given back before the next
    h = t.index('theorem %s_walk0' % n)
    ths = [x.replace('\nend Reiconv\n', '') for x in re.split(r'(?=^theorem )', t[h:], flags=re.M) if x.startswith('theorem')]
    doc = re.search(r'/-!.*?-/', t, re.S)[0]
    grp = {'W1': [], 'W2': [], 'W3': [], 'W4': [], 'R': [], 'S': [], '': []}
    for x in ths:
        m1 = re.match(r'theorem %s_walk\d+(_(\d+))? ' % n, x)
        if m1:
            k = '' if 'walk_parts' in x else 'W%d' % (1 if not m1[2] or int(m1[2]) < 4 else 2 if int(m1[2]) < 6 else 3 if int(m1[2]) < 8 else 4)
        elif re.match(r'theorem %s_t\d+_rows' % n, x):
            k = 'R'
        elif re.match(r'theorem %s_sweep\d+ ' % n, x):
            k = 'S'
        else:
            k = ''
        grp[k].append(x)
    open(GEN + out + '0.lean', 'w').write(t[:h] + 'end Reiconv\n')
    for k, l in grp.items():
        imp = 'import Verif.Gen.%s0\n' % out if k else ''.join('import Verif.Gen.%s%s\n' % (out, q) for q in grp if q)
        open(GEN + out + k + '.lean', 'w').write(imp + '\n' + doc + '\n\nnamespace Reiconv\n\n' + ''.join(l) + '\nend Reiconv\n')


ASCT = '''
theorem %(n)s_chkAscii : chkAscii %(mn)s %(wn)s = true := by
  rw [%(n)s_fm.property, %(n)s_fw.property]; decide +kernel

theorem %(n)s_ascii : ∀ p ∈ asciiPairs, p ∈ tableOf (pieceTabs %(n)s_pieces) ∧ p ∉ %(n)s_irr :=
  %(n)s_table.ascii %(gn)s %(fits)s %(n)s_chkAscii
'''


def conj(l):
    t = 'all_nil'
    for x in reversed(l):
        t = 'all_cons %s (%s)' % (x if re.match(r'\w+$', x) else '(' + x + ')', t)
    return t


def nest(ll):
    ll = [conj(l) for l in ll]
    return conj(ll)


CS = lambda *l: ', '.join('CsDec.on_fast %s_dec_safe, %s_decU_eq' % (x, x) for x in l)
CE = lambda *l: ', '.join('CsEnc.on_fast %s_enc_safe, %s_encU_eq' % (x, x) for x in l)
CE3 = lambda *l: ', '.join('CsEnc.on_fast3 %s_enc_safe, %s_encU_eq, three_iluni_fast, three_three_fast' % (x, x) for x in l)
TD = lambda *l: ', '.join('%s_decP.property' % x for x in l)
TEF = lambda x: 'CsEnc.fast_fun %s_enc_safe, %s_encU_eq' % (x, x)
TE = lambda *l: ', '.join('CsEnc.fast %s_enc_safe, %s_encU_eq' % (x, x) for x in l)
ASC = [(0, 0x80)]


def J(*l):
    return ', '.join(l)


AND = 'simp only [M.andThen_fast]; '
GBKM = ['gbk_mbtowc', 'gbk_tail', CS('gb2312', 'cp936ext'), TD('gbkext1', 'gbkext2')]
GBKW = ['gbk_wctomb', 'gbk_rest', CE('gb2312', 'cp936ext', 'gbkext_inv')]
GBKS = ['gb2312', 'cp936ext', 'gbkext_inv']
GBKX = ASC + [(0xb7, 0xb8), (0x2014, 0x2015), (0x2170, 0x217a)]
J201 = [(0xa5, 0xa6), (0x203e, 0x203f), (0xff61, 0xffa0)]
USER = [(0xe000, 0xe758)]
B5P = [(0, 0x100), (0x200, 0x300), (0x400, 0x500), (0x2000, 0x2700), (0x3000, 0x3100), (0xe000, 0xf700), (0xfe00, 0x10000)]
JOBS = {
    'TabEucJp': ('Verif.Codec.Jp', 'Verif.Gen.UnJp', 'euc_jp', 'EUC-JP.TXT', J('ascii_m', 'jisx0201_m', CS('jisx0208', 'jisx0212')),
                 J('jisx0201_w', 'euc_jp_rest', CE('jisx0208', 'jisx0212')), ['jisx0208', 'jisx0212'], ASC + J201 + USER,
                 'EUC-JP.IRREVERSIBLE.TXT', ['euc_jp_rest']),
    'TabSjis': ('Verif.Codec.Jp', 'Verif.Gen.UnJp', 'sjis', 'SHIFT_JIS.TXT', J('jisx0201_m', CS('jisx0208')),
                 J('jisx0201_w', 'sjis_0208', 'sjis_user', CE('jisx0208')), ['jisx0208'], ASC + J201 + USER,
                 None, ['sjis_0208', 'sjis_user']),
    'TabCp932': ('Verif.Codec.Jp', 'Verif.Gen.UnJp', 'cp932', 'CP932.TXT', J('ascii_m', 'jisx0201_m', CS('jisx0208'), TD('cp932ext')),
                 J('ascii_w', 'jisx0201_w', 'sjis_0208', 'cp932_rest', 'cp932_rest1', 'sjis_user', CE('jisx0208', 'cp932ext')), ['jisx0208', 'cp932ext'],
                 ASC + J201 + USER + [(0xff5e, 0xff5f), (0x2225, 0x2226), (0xff0d, 0xff0e), (0xffe0, 0xffe2)],
                 'CP932.IRREVERSIBLE.TXT', ['sjis_0208', 'sjis_user', 'cp932_rest', 'cp932_rest1']),
    'TabIr165': ('Verif.Codec.Cset', 'Verif.Gen.UnCn', 'isoir165', 'ISO-IR-165.TXT',
                 J('isoir165_rest', 'isoir165_row2a', 'iso646_cn_m', 'code_ilseq_fast', CS('gb2312', 'isoir165ext'), TD('gb2312', 'isoir165ext')),
                 J('isoir165_wrest', 'iso646_cn_w', CE('gb2312'), TE('isoir165ext')), ['gb2312', 'isoir165ext'], ASC + [(0xa5, 0xa6), (0x203e, 0x203f)],
                 'ISO-IR-165.IRREVERSIBLE.TXT', ['isoir165_wrest']),
    'TabGb2312': ('Verif.Codec.Cset', 'Verif.Gen.UnCn', 'gb2312', 'GB2312', TD('gb2312'), TEF('gb2312'), ['gb2312'], []),
    'TabKsc5601': ('Verif.Codec.Cset', 'Verif.Gen.UnKr', 'ksc5601', 'KSC5601', TD('ksc5601'), TEF('ksc5601'), ['ksc5601'], []),
    'TabJisx0208': ('Verif.Codec.Cset', 'Verif.Gen.UnJp', 'jisx0208', 'JISX0208', TD('jisx0208'), TEF('jisx0208'), ['jisx0208'], []),
    'TabJisx0212': ('Verif.Codec.Cset', 'Verif.Gen.UnJp', 'jisx0212', 'JISX0212', TD('jisx0212'), TEF('jisx0212'), ['jisx0212'], []),
    'TabEucCn': ('Verif.Codec.Cn', 'Verif.Gen.UnCn', 'euc_cn', 'EUC-CN.TXT', J('ascii_m', CS('gb2312')),
                 J(CE('gb2312')), ['gb2312'], ASC),
    'TabGbk': ('Verif.Codec.Cn', 'Verif.Gen.UnCn', 'ces_gbk', 'GBK.TXT', J('ascii_m', *GBKM), J(*GBKW), GBKS, GBKX,
                 None, ['gbk_wctomb', 'gbk_rest']),
    'TabCp936': ('Verif.Codec.Cn', 'Verif.Gen.UnCn', 'cp936', 'CP936.TXT', J('ascii_m', 'ces_gbk_mbtowc', 'code_ilseq_fast', *GBKM),
                 J('cp936_rest', *GBKW), GBKS, GBKX + [(0xe000, 0xe586), (0x20ac, 0x20ad)],
                 None, ['ces_gbk_wctomb', 'W.orElse_assoc', 'gbk_wctomb', 'gbk_rest', 'cp936_rest']),
    'TabEucTw': ('Verif.Codec.Tw', 'Verif.Gen.UnTw', 'euc_tw', 'EUC-TW.TXT', J('ascii_m', 'tw_four', CS(*['cns11643_%d' % i for i in (1, 2, 3, 4, 5, 6, 7, 15)])),
                 J(CE3('cns11643_inv')), ['cns11643_inv'], ASC, 'EUC-TW.IRREVERSIBLE.TXT', ['W.on_room_iluni3']),
    'TabDecHanyu': ('Verif.Codec.Tw', 'Verif.Gen.UnTw', 'dec_hanyu', 'DEC-HANYU.TXT', J('ascii_m', 'tw_four', CS(*['cns11643_%d' % i for i in (1, 2, 3)])),
                 J(CE3('cns11643_inv')), ['cns11643_inv'], ASC, 'DEC-HANYU.IRREVERSIBLE.TXT', ['W.on_room_iluni3']),
    'TabBig5': ('Verif.Codec.Big5', 'Verif.Gen.UnBig5', 'ces_big5', 'BIG5.TXT', J('ascii_m', TD('big5')),
                 J(CE('big5')), ['big5'], ASC),
    'TabCp950': ('Verif.Codec.Big5', 'Verif.Gen.UnBig5', 'cp950', 'CP950.TXT', J('ascii_m', 'cp950_tail', 'cp950_user', 'cp950_big5', 'big5_col', 'code_ilseq_fast', CS('big5'), TD('cp950ext')),
                 J('cp950_case', 'cp950_done', 'cp950_rest', 'cp950_ext', CE('big5', 'cp950ext')), ['big5', 'cp950ext'],
                 ASC + B5P, 'CP950.IRREVERSIBLE.TXT', ['h_c', 'cp950_rest', 'cp950_ext', 'cp950_done']),
    'TabBig52003': ('Verif.Codec.Big5', 'Verif.Gen.UnBig5', 'big5_2003', 'BIG5-2003.TXT', J('ascii_m', 'big5_2003_user', 'big5_2003_c6', 'big5_2003_big5', 'big5_col', CS('big5')),
                 J('big5_2003_case', 'big5_2003_done', 'big5_2003_rest', CE('big5')), ['big5'],
                 ASC + B5P + [(0x2700, 0x2800), (0x2f00, 0x3000)], 'BIG5-2003.IRREVERSIBLE.TXT', ['h_c', 'big5_2003_rest']),
    'TabDecKanji': ('Verif.Codec.Jp', 'Verif.Gen.UnJp', 'dec_kanji', 'DEC-KANJI.TXT', J('ascii_m', CS('jisx0208')),
                 J(CE('jisx0208')), ['jisx0208'], ASC),
    'TabEucKr': ('Verif.Codec.Kr', 'Verif.Gen.UnKr', 'euc_kr', 'EUC-KR.TXT', J('ascii_m', CS('ksc5601')),
                 J(CE('ksc5601')), ['ksc5601'], ASC),
    'TabCp949': ('Verif.Codec.Kr', 'Verif.Gen.UnKr', 'cp949', 'CP949.TXT', J('ascii_m', CS('ksc5601'), TD('uhc_1', 'uhc_2')),
                 J(CE('ksc5601'), 'cp949_rest', TE('uhc_1', 'uhc_2')), ['ksc5601', 'uhc_1', 'uhc_2'],
                 ASC + [(0xe000, 0xe0bc)], None, ['cp949_rest']),
    'TabJohab': ('Verif.Codec.Kr', 'Verif.Gen.UnKr', 'johab', 'JOHAB.TXT', J(CS('ksc5601'), 'johab_hangul_mbtowc'),
                 J(CE('ksc5601'), 'johab_hangul_wctomb'), ['ksc5601'], ASC + [(0x20a9, 0x20aa), (0x3131, 0x3164), (0xac00, 0xd7a4)]),
}
HJ = '  have h_j : jisx0201_w wc = .iluni := by\n    unfold jisx0201_w; simp only [if_neg (show ¬ (wc < 0x0080 ∧ ¬ (wc = 0x005c ∨ wc = 0x007e)) by omega)]\n    repeat rw [if_neg (by omega)]\n'
HI = '  have h_i : iso646_cn_w wc = .iluni := by\n    unfold iso646_cn_w; rw [if_neg (by omega), if_neg (by omega), if_neg (by omega)]\n'
HA = '  have h_a : ascii_w wc = .iluni := by\n    unfold ascii_w; rw [if_neg (by omega)]\n'
HC = '  have h_c : ∀ done rest, %s_case wc done rest = rest := by\n    intro done rest\n    unfold %s_case\n    repeat rw [if_neg (by omega)]\n'
OPT = {
    'TabIr165': dict(prem=AND, asc=False, have=HI, h0=['h_i']),
    'TabGb2312': dict(asc=False),
    'TabKsc5601': dict(asc=False),
    'TabJisx0208': dict(asc=False),
    'TabJisx0212': dict(asc=False),
    'TabEucTw': dict(z3='3', split=(0x8e,)),
    'TabDecHanyu': dict(z3='3'),
    'TabCp950': dict(prem=AND, have=HC % ('cp950', 'cp950')),
    'TabBig52003': dict(have=HC % ('big5_2003', 'big5_2003')),
    'TabGbk': dict(prew='simp only [gbk_on_fast]; '),
    'TabCp936': dict(prem=AND, prew='simp only [ces_gbk_wctomb, W.orElse_assoc, gbk_on_fast, ascii_w_orElse]; simp only [W.orElse_fast]; '),
    'TabSjis': dict(asc=False, have=HJ, h0=['h_j']),
    'TabEucJp': dict(have=HJ, h0=['h_j']),
    'TabCp932': dict(have=HJ + HA, h0=['h_j', 'h_a']),
    'TabJohab': dict(asc=False, crw=False, prew='simp only [johab_on_fast]; ',
                     have='  have h_j : johab_hangul_wctomb wc = .room 2 .iluni := by\n    unfold johab_hangul_wctomb; rw [if_neg (by omega), if_neg (by omega)]\n',
                     h0=['h_j']),
}


for y in (1999, 2001, 2004, 2008):
    sets = ['hkscs%d' % z for z in (1999, 2001, 2004, 2008) if z <= y]
    # each imports the one before so that they are not checked side by side: that needs too much memory
    prev = {2001: 1999, 2004: 2001, 2008: 2004}.get(y)
    JOBS['TabHk%d' % y] = ('Verif.Codec.Hkscs', 'Verif.Gen.UnBig5' + ('\nimport Verif.Gen.TabHk%d' % prev if prev else ''), 'hk%d' % y, 'BIG5-HKSCS-%d.TXT' % y,
                           J('ascii_m', 'code_ilseq_fast', CS('big5'), TD(*sets)),
                           J(CE('big5', *sets)), ['big5'] + sets, ASC, 'BIG5-HKSCS-%d.IRREVERSIBLE.TXT' % y,
                           ['hk_wctomb', 'hk%d_e' % y, 'hkMoreW'])
    OPT['TabHk%d' % y] = dict(prem='simp only [hk_mbtowc, hk%d_d, hkExt]; ' % y + AND,
                              prew='simp only [hk_wctomb, hk%d_e, hkMoreW]; ' % y)


def jxranges():
    t = open(GEN + 'JxTables.lean').read()
    m = re.search(r'def jxBlocks[^=]*:=\s*\[(.*?)\]', t, re.S)
    out = []
    for a, b in re.findall(r'\((\w+), (\w+)\)', m[1]):
        a, b = 64 * int(a, 0), 64 * int(b, 0)
        if out and a - out[-1][1] <= 1024:
            out[-1] = (out[-1][0], b)
        else:
            out.append((a, b))
    return out


if os.path.exists(GEN + 'JxTables.lean'):
    HX = '  have h_x : jx_fromF wc = 0 := jx_outside (rs := %(n)s_ranges) (by decide +kernel) hn\n'
    WX = ['jxFromW_zero h_x', 'ne_eq', 'not_true_eq_false', 'if_false']
    KAT = [(0xff61, 0xffa0)]
    JOBS['TabEucJx'] = ('Verif.Codec.Jisx0213', 'Verif.Gen.UnJp', 'euc_jx', 'EUC-JISX0213.TXT', J('jxToM_fast', 'jxRes', 'JxRes.toRet'),
                        J('jxFromW_fast'), [], ASC + KAT + jxranges(), None, WX)
    JOBS['TabSjx'] = ('Verif.Codec.Jisx0213', 'Verif.Gen.UnJp', 'sjx', 'SHIFT_JISX0213.TXT', J('jxToM_fast', 'jxRes', 'JxRes.toRet', 'sjxIn1_fast', 'sjxIn2_fast'),
                      J('jxFromW_fast', 'sjx_s1_fast', 'sjx_s2_fast'), [], ASC + KAT + [(0xa5, 0xa6), (0x203e, 0x203f)] + jxranges(), None, WX)
    OPT['TabEucJx'] = dict(prem='simp only [jxSingle, euc_jx]; ' + AND, hs0=HX, gn='euc_jx_single_good')
    OPT['TabSjx'] = dict(prem='simp only [jxSingle, sjx]; ' + AND, hs0=HX, gn='sjx_single_good', asc=False)


def tab(n, k, width, vals):
    x = 0
    for j, v in enumerate(vals):
        x |= v << (width * j)
    return 'def %s_%s : Tab := ⟨%d, %d, %s⟩\n' % (n, k, width, len(vals), hex(x))


def num(b):
    return ((b[0] - 0x81) * 10 + b[1] - 0x30) * 1260 + (b[2] - 0x81) * 10 + b[3] - 0x30


def gengb(out, v, fn, irrfn, more, pua, per=2000, steps=6000):
    """GB18030: the two-byte codes as in `gen`, the four-byte codes of the BMP as tables of characters by number"""
    n, ext, idx = 'gb18030_' + v, 'gb18030_%s_ext' % v, 'gb%s_idx' % v
    m, w, mf, wf = '(gbTwo %s_mbtowc)' % ext, n + '_wbmp', n + '_mbtowc', n + '_wctomb'
    R = sorted(rows(fn))
    irr = set(rows(irrfn)) if irrfn else set()
    irr_d = irr & set(R)
    E = sorted(more)
    irr_e = sorted(irr - set(R)) + E
    R2 = [r for r in R if len(r[0]) <= 2]
    R4 = [r for r in R if len(r[0]) == 4]
    assert [num(b) for b, _ in R4] == list(range(39420))
    o = ['import Verif.Codec.GbCheck\nimport Verif.Gen.UnCn\n',
         '/-! Generated by `tools/gentab.py`: the table `tests/data/%s` and checks of `%s`, `%s`\nagainst it. -/\n' % (fn, mf, wf),
         'namespace Reiconv\n']
    by = {}
    for b, c in R2:
        by.setdefault(b[0], []).append((b, c))
    pieces, a0, cur, cost = [], 0, [], 0
    for a in range(256):
        rs = by.get(a, [])
        c = 1 if rs and len(rs[0][0]) == 1 else 256 if rs else 2
        if cur and cost + c > steps:
            pieces.append((a0, a - a0, cur))
            a0, cur, cost = a, [], 0
        cur = cur + rs
        cost += c
    pieces.append((a0, 256 - a0, cur))
    ti, pl = 0, []
    enc = lambda r: (key(r[0]) << 24) | r[1]
    for lo, k, rs in pieces:
        ts = []
        for i in range(0, len(rs), per):
            part = rs[i:i + per]
            o.append(tab(n, 't%d' % ti, 44, list(map(enc, part))))
            o.append(tab(n, 'd%d' % ti, 44, [enc(r) for r in part if r in irr_d]))
            ts.append('%s_t%d' % (n, ti))
            ti += 1
        pl.append((lo, k, '[%s]' % ', '.join(ts)))
    lin, cur = [], []
    for r in R4:
        bad = r in irr_d
        if cur and (cur[0][1] != bad or len(cur) >= 1000):
            lin.append(cur)
            cur = []
        cur.append((r[1], bad))
    lin.append(cur)
    off, offs = 0, []
    for i, l in enumerate(lin):
        o.append(tab(n, 'l%d' % i, 16, [c for c, _ in l]))
        offs.append(off)
        off += len(l)
    bl = lambda x: 'true' if x else 'false'
    o.append('/-- The rows of `tests/data/%s` with one or two bytes, by first byte. -/\ndef %s_pieces : List (Nat × Nat × List Tab) :=\n  [%s]\n' %
             (fn, n, ',\n    '.join('(%#x, %d, %s)' % p for p in pl)))
    o.append('/-- The tables of rows, each with its rows that the encoder does not produce. -/\ndef %s_dups : List (Tab × Tab) :=\n  [%s]\n' %
             (n, ', '.join('(%s_t%d, %s_d%d)' % (n, i, n, i) for i in range(ti))))
    o.append('/-- The characters of the rows with four bytes, in the order of the codes, and whether the encoder does\nnot produce them. -/\ndef %s_lin : List (Tab × Bool) :=\n  [%s]\n' %
             (n, ', '.join('(%s_l%d, %s)' % (n, i, bl(l[0][1])) for i, l in enumerate(lin))))
    pairs = lambda l: ', '.join('(%#x, %#x)' % (key(b), c) for b, c in l)
    o.append('/-- Pairs that the encoder produces and the decoder does not. -/\ndef %s_ex1 : List (Nat × Nat) :=\n  [%s]\n' % (n, pairs(irr_e[:len(irr_e) - len(E)])))
    o.append('/-- Characters outside the BMP that the encoder finds among those of the BMP. -/\ndef %s_ex2 : List (Nat × Nat) :=\n  [%s]\n' % (n, pairs(E)))
    o.append('def %s_more : List Nat := [%s]\n' % (n, ', '.join('%#x' % c for _, c in E)))
    o.append('/-- %s -/\ndef %s_irr : List (List Byte × Nat) :=\n  tableOf (%s_dups.map (·.2)) ++ (linPart true 0 %s_lin ++ irrOf %s_ex1)\n' % (
        'The rows of `tests/data/%s`.' % irrfn if irrfn else 'There is no file of irreversible pairs.', n, n, n, n))
    o.append('/-- The rows of `tests/data/%s` and of the characters outside the BMP. -/\ndef %s_rows : List (List Byte × Nat) :=\n  (tableOf (pieceTabs %s_pieces) ++ linRows 0 %s_lin) ++ gbSup\n' % (fn, n, n, n))
    rs = [(0, 0x10000, 0)] + [(c, 1, 1) for _, c in E]
    o.append('def %s_ranges : List (Nat × Nat × Nat) :=\n  [%s]\n' % (n, ', '.join('(%#x, %d, %d)' % r for r in rs)))
    D = dict(n=n, v=v, ext=ext, idx=idx, m=m, w=w, gm=J('ascii_m', 'code_ilseq_fast', 'gb_user', TD(ext), 'gbk_mbtowc', *GBKM),
             gw=J('gb_wuser', pua, TE('gb18030ext'), *GBKW), gbkm=J(*GBKM), mf=mf, wf=wf,
             fit='gb18030_2005_wbmp_fit' if v == '2005' else '(fun wc => (gb18030_2022_wbmp_good wc).fit)')
    o.append("""noncomputable def %(n)s_fg : {m // gbk_mbtowc = m} := by
  refine ⟨?m, ?h⟩
  case h => conv => lhs; unfold gbk_mbtowc; fast_simp [%(gbkm)s, cond_rec, if_true]

noncomputable def %(n)s_fm : {m // gbTwo %(ext)s_mbtowc = m} := by
  refine ⟨?m, ?h⟩
  case h => conv => lhs; unfold gbTwo M.first; simp only [M.andThen_fast]; fast_simp [%(gm)s, cond_rec, if_true]

noncomputable def %(n)s_fu : {w // gb18030_%(v)s_uni_wctomb = w} := by
  refine ⟨?m, ?h⟩
  case h => conv => lhs; unfold gb18030_%(v)s_uni_wctomb; fast_simp [gb_wuni_fast, gbPut, cond_rec, if_true]

noncomputable def %(n)s_fi : {f // %(idx)s = f} := by
  refine ⟨?m, ?h⟩
  case h => conv => lhs; unfold %(idx)s; fast_simp [gb_uni_fast, cond_rec, if_true]

noncomputable def %(n)s_fw : {w // %(w)s = w} := by
  refine ⟨?m, ?h⟩
  case h =>
    conv =>
      lhs; unfold %(w)s; simp only [ascii_w_orElse, %(n)s_fu.property]; simp only [W.orElse_fast]
      fast_simp [%(gw)s, cond_rec, if_true]
""" % D)
    for i, (lo, k, ts) in enumerate(pl):
        o.append('theorem %s_walk%d : chkWalk %s %#x %s %s = true := by\n  rw [%s_fm.property]; decide +kernel\n' % (n, i, m, lo, k, ts, n))
    for i in range(ti):
        o.append('theorem %s_t%d_rows : chkRows %s %s_t%d %s_d%d = true := by\n  rw [%s_fw.property]; decide +kernel\n' % (n, i, w, n, i, n, i, n))
    for i, l in enumerate(lin):
        o.append('theorem %s_lin%d : chkLin %s %s %d %s_l%d %s = true := by\n  rw [%s_fi.property, %s_fw.property]; decide +kernel\n' % (
            n, i, idx, w, offs[i], n, i, bl(l[0][1]), n, n))
    for i in range(4):
        o.append('theorem %s_sweep%d : cntSweep %s %#x 512 = 0 := by\n  rw [%s_fw.property]; decide +kernel\n' % (n, i, w, 0xd800 + 512 * i, n))
    for nm, mm, a, k in (('g', 'gbk_mbtowc', 0x81, 4), ('g', 'gbk_mbtowc', 0x90, 84), ('x', ext + '_mbtowc', 0x81, 4), ('x', ext + '_mbtowc', 0x90, 84)):
        o.append('theorem %s_none%s%d : chkNone %s %#x %d = true := by\n  %s; decide +kernel\n' % (
            n, nm, k, mm, a, k, 'rw [%s_fg.property]' % n if nm == 'g' else 'simp only [%s_decP.property]' % ext))
    o.append('theorem %s_chkEx : chkEx %s %s (%s_ex1 ++ %s_ex2) = true := by\n  rw [%s_fm.property, %s_fw.property]; decide +kernel\n' % (n, m, w, n, n, n, n))
    D['walks'] = conj(['%s_walk%d' % (n, i) for i in range(len(pl))])
    D['rws'] = conj(['%s_t%d_rows' % (n, i) for i in range(ti)])
    lk = 'trivial'
    for i in reversed(range(len(lin))):
        lk = '⟨%s_lin%d, %s⟩' % (n, i, lk)
    D['lin'] = lk
    D['hs'] = '\n'.join('  have h_%s : %s_enc.encF wc = 0 := CsEnc.outside (e := %s_enc) (rs := %s_ranges) (by decide) hn' % (s, s, s, n) for s in GBKS + ['gb18030ext'])
    D['w0'] = ''.join(', CsEnc.zero %s_enc_safe h_%s' % (s, s) for s in GBKS + ['gb18030ext'])
    o.append("""theorem %(n)s_cover : coverFrom 0 %(n)s_pieces = true := by decide

theorem %(n)s_walks : ∀ p ∈ %(n)s_pieces, chkWalk %(m)s p.1 p.2.1 p.2.2 = true := by
  exact %(walks)s

theorem %(n)s_allRows : ∀ p ∈ %(n)s_dups, chkRows %(w)s p.1 p.2 = true := by
  exact %(rws)s

theorem %(n)s_linOK : LinOK %(idx)s %(w)s 0 %(n)s_lin := by
  exact %(lin)s

theorem %(n)s_outside (wc : Nat) (h : (%(w)s wc).res ≠ none) :
    ∃ r ∈ %(n)s_ranges, r.1 ≤ wc ∧ wc < r.1 + r.2.1 := by
  apply Classical.byContradiction
  intro hc
  have hn : ∀ r ∈ %(n)s_ranges, ¬ (r.1 ≤ wc ∧ wc < r.1 + r.2.1) := fun r hr h => hc ⟨r, hr, h⟩
%(hs)s
  simp only [%(n)s_ranges, List.forall_mem_cons] at hn
  have h_u : ∀ a b : W, (if wc ≥ 0xe000 ∧ wc ≤ 0xe864 then a else b) = b := fun a b => if_neg (by omega)
  have h_v : ∀ a b : W, (if wc ≥ 0x0080 ∧ wc ≤ 0xffff then a else b) = b := fun a b => if_neg (by omega)
  apply h
  simp only [%(w)s, gbk_wctomb, gbk_rest, gb18030_%(v)s_uni_wctomb, h_u, h_v%(w0)s]
  wnone

theorem %(n)s_idx (i : Nat) (h : 39420 ≤ i) : %(idx)s i = .ret (.ilseq 0) := by
  unfold %(idx)s
  rw [if_neg (by omega)]

theorem %(n)s_bmp_all : TableOK (gbBmp %(ext)s_mbtowc (gb4 0x81 0x84 %(idx)s)) %(w)s
    (tableOf (pieceTabs %(n)s_pieces) ++ linRows 0 %(n)s_lin)
    (tableOf (%(n)s_dups.map (·.2)) ++ (linPart true 0 %(n)s_lin ++ irrOf (%(n)s_ex1 ++ %(n)s_ex2))) ∧
      ∀ wc ∈ gbScalars %(n)s_more, (%(w)s wc).res ≠ none :=
  gb_table (CsDec.good' %(ext)s_dec_safe) gb%(v)s_uni_good (fun wc => (%(fit)s wc).fits) %(n)s_noneg4 %(n)s_nonex4
    %(n)s_cover %(n)s_walks rfl %(n)s_allRows %(n)s_linOK rfl %(n)s_idx (by decide) %(n)s_chkEx (by decide) (by decide)
    (more := %(n)s_more) (by decide)
    (gb_scalars %(n)s_outside (by decide) %(n)s_sweep0 %(n)s_sweep1 %(n)s_sweep2 %(n)s_sweep3)
""" % D)
    o.append("""theorem %(n)s_table : TableOK %(mf)s %(wf)s %(n)s_rows %(n)s_irr :=
  gb_final (more := %(n)s_more) %(n)s_bmp_all.1 %(fit)s (CsDec.good' %(ext)s_dec_safe) gb%(v)s_uni_good
    (%(n)s_bmp_eq ▸ %(n)s_bmp_good) %(n)s_noneg84 %(n)s_nonex84 rfl %(n)s_allRows %(n)s_outside (by decide) (by decide)
    (by decide) (by decide +kernel)

theorem %(n)s_chkAscii : chkAscii %(mf)s %(wf)s = true := by decide +kernel

theorem %(n)s_ascii : ∀ p ∈ asciiPairs, p ∈ %(n)s_rows ∧ p ∉ %(n)s_irr :=
  %(n)s_table.ascii %(n)s_good (fun wc => (W.Fit.orElse (%(fit)s wc) (gb_wsup_good wc).fit).fits) %(n)s_chkAscii
""" % D)
    o.append('end Reiconv\n')
    t = '\n'.join(o)
    open(GEN + out + '.lean', 'w').write(t)
    print(out, len(t), len(R2), len(lin), len(irr_d), len(irr_e))


GBJOBS = {
    'TabGb2022': ('2022', 'GB18030-2022-BMP.TXT', None, [], 'gb_pua2022_fast'),
    'TabGb2005': ('2005', 'GB18030-2005-BMP.TXT', 'GB18030-2005.IRREVERSIBLE.TXT',
                  [(bytes.fromhex(b), c) for b, c in (('95329031', 0x20087), ('95329033', 0x20089), ('95329730', 0x200cc),
                   ('9536b937', 0x215d7), ('9630ba35', 0x2298f), ('9635b630', 0x241fe))], 'gb_pua2005_fast'),
}

if __name__ == '__main__':
    for j in sys.argv[1:] or list(JOBS) + list(GBJOBS):
        if j in GBJOBS:
            gengb(j, *GBJOBS[j])
            continue
        gen(j, *JOBS[j], **OPT.get(j, {}))
