"""Generate lean/Verif/Gen/Sb*.lean (model) and lean/Verif/Gen/SbData*.lean (tests/data)."""
import os, re, sys
sys.path.insert(0, os.path.dirname(__file__))
import cparse, sb, enc
from sbnames import names
OUT = '/verif/lean/Verif/Gen/'
DATA = '/repo/tests/data/'
TB = {}
for n in names:
    for k, v in cparse.tables(n).items():
        TB[k] = (n,) + v
index = {e[0]: i for i, e in enumerate(enc.encs)}
byfun = {}
for i, e in enumerate(enc.encs):
    m = e[3][0]
    byfun.setdefault(m[:-len('_mbtowc')], []).append(i)


def pack(vals, w):
    x = 0
    for i, v in enumerate(vals):
        assert 0 <= v < 1 << w
        x |= v << (w * i)
    return hex(x)


def canon(s):
    return re.sub(r'[^A-Z0-9]', '', s.upper())


files = {canon(f[:-4]): f for f in os.listdir(DATA) if f.endswith('.TXT') and 'IRREV' not in f}


def datafile(n):
    for nm in [n] + enc.encs[byfun[n][0]][2]:
        if canon(nm) in files:
            return files[canon(nm)]
    raise KeyError(n)


def width(ct):
    return {'unsigned short': 16, 'unsigned char': 8}[ct]


def size(t):
    _, ct, vals, a, b, decl = TB[t]
    return eval(decl)


done = set()


def table(t):
    f, ct, vals, a, b, decl = TB[t]
    return ('/-- `%s` (`lib/converters/%s.h:%d-%d`). -/\ndef %s : Tab := ⟨%d, %d, %s⟩\n' %
            (t, f, a, b, t, width(ct), size(t), pack(vals, width(ct))))


def model(n):
    out = []
    d, a, b = sb.decoder(n)
    e, a2, b2 = sb.encoder(n)
    for lo, hi, r in d + e:
        if r[0] == 'tab' and r[1] not in done:
            done.add(r[1])
            out.append(table(r[1]))
    out.append('/-- Branches of `%s_mbtowc` (`lib/converters/%s.h:%d-%d`). -/' % (n, n, a, b))
    ds = []
    for lo, hi, r in d:
        if r[0] == 'add':
            ds.append('⟨%#x, %#x, .add %#x⟩' % (lo, hi, lo + r[1]))
        else:
            ds.append('⟨%#x, %#x, .tab %s %#x .%s⟩' % (lo, hi, r[1], r[2],
                      {'hole': 'ilseq', 'ident': 'ident', 'all': 'all'}[r[3]]))
    out.append('def %s_d : List DRule :=\n  [%s]\n' % (n, ',\n    '.join(ds)))
    out.append('/-- Branches of `%s_wctomb` (`lib/converters/%s.h:%d-%d`). -/' % (n, n, a2, b2))
    es = []
    for lo, hi, r in e:
        if r[0] == 'add':
            es.append('⟨%#x, %#x, .add %#x⟩' % (lo, hi, lo + r[1]))
        else:
            assert r[3] in ('nz', 'zero', 'holes')
            es.append('⟨%#x, %#x, .tab %s %#x .%s⟩' % (lo, hi, r[1], r[2], r[3]))
    out.append('def %s_e : List ERule :=\n  [%s]\n' % (n, ',\n    '.join(es)))
    assert len(byfun[n]) == 1
    out.append('/-- `%s` in `lib/encodings.h.snippet`. -/' % n)
    out.append('def %s_sb : SB := ⟨%d, %s_d, %s_e⟩\n' % (n, byfun[n][0], n, n))
    return '\n'.join(out)


def load(f):
    r = []
    for l in open(DATA + f):
        l = l.split()
        if l:
            assert len(l) == 2 and len(l[0]) == 4
            r.append((int(l[0], 16), int(l[1], 16)))
    return r


def plist(ps):
    s = ['(%#x, %#x)' % p for p in ps]
    lines = [', '.join(s[i:i + 8]) for i in range(0, len(s), 8)]
    return '[' + ',\n    '.join(lines) + ']'


def data(n):
    f = datafile(n)
    T = load(f)
    out = ['/-- `tests/data/%s`. -/\ndef %s_from : List (Nat × Nat) :=\n  %s\n' % (f, n, plist(T))]
    g = f[:-4] + '.IRREVERSIBLE.TXT'
    if os.path.exists(DATA + g):
        out.append('/-- `tests/data/%s`. -/\ndef %s_irr : List (Nat × Nat) :=\n  %s\n' % (g, n, plist(load(g))))
    else:
        out.append('/-- There is no file of irreversible mappings in `tests/data`. -/\n'
                   'def %s_irr : List (Nat × Nat) := []\n' % n)
    return '\n'.join(out)


def main():
    os.makedirs(OUT, exist_ok=True)
    # converters whose tables are borrowed come first
    order = sorted(names, key=lambda n: (n.startswith('ebcdic'), n))
    users = {}
    K = 6
    step = (len(order) + K - 1) // K
    groups = [order[i:i + step] for i in range(0, len(order), step)]
    # where is each table first used
    allm = open(OUT + 'SbTables.lean', 'w')
    allm.write('import Verif.SingleByte\n\n/-!\n# Single-byte converters: tables and branches\n\n'
               'Generated by `tools/gensb.py` from `lib/converters/*.h`.\n-/\n\nnamespace Reiconv\n\n')
    for n in order:
        allm.write(model(n) + '\n')
    allm.write('end Reiconv\n')
    allm.close()
    for k, g in enumerate(groups):
        with open(OUT + 'SbData%d.lean' % k, 'w') as o:
            o.write('import Verif.SingleByte\n\n/-!\n# Reference tables of single-byte encodings\n\nGenerated by `tools/gensb.py` '
                    'from `tests/data/*.TXT`, without looking at the converters.\nPairs are (byte, character).\n-/\n\nnamespace Reiconv\n\n')
            for n in g:
                o.write(data(n) + '\n')
            o.write('end Reiconv\n')
        with open(OUT + 'SbCheck%d.lean' % k, 'w') as o:
            o.write('import Verif.Gen.SbTables\nimport Verif.Gen.SbData%d\n\n/-!\n# Checks of single-byte encodings against the reference '
                    'tables\n\nGenerated by `tools/gensb.py`. Every byte and every character covered by a branch is\nevaluated by the kernel.\n-/\n\nnamespace Reiconv\n\n' % k)
            for n in g:
                o.write('theorem %s_safe : %s_sb.safe = true := by decide +kernel\n' % (n, n))
                o.write('theorem %s_chkDec : chkDec %s_sb %s_from = true := by decide +kernel\n' % (n, n, n))
                o.write('theorem %s_chkInv : chkInv %s_sb %s_irr = true := by decide +kernel\n\n' % (n, n, n))
            o.write('/-- The encodings of this file with their reference tables. -/\n')
            o.write('def sbGroup%d : List (SB × List (Nat × Nat) × List (Nat × Nat)) :=\n  [%s]\n\n' % (
                k, ',\n    '.join('(%s_sb, %s_from, %s_irr)' % (n, n, n) for n in g)))
            o.write('theorem sbGroup%d_ok : ∀ t ∈ sbGroup%d, t.1.safe = true ∧ chkDec t.1 t.2.1 = true ∧ chkInv t.1 t.2.2 = true := by\n' % (k, k))
            o.write('  unfold sbGroup%d\n  simp only [List.forall_mem_cons]\n  exact ⟨%s, by simp⟩\n\n' % (
                k, ',\n    '.join('⟨%s_safe, %s_chkDec, %s_chkInv⟩' % (n, n, n) for n in g)))
            o.write('end Reiconv\n')
    with open(OUT + 'SbEntries.lean', 'w') as o:
        o.write('import Verif.Entry\n' + ''.join('import Verif.Gen.SbCheck%d\n' % k for k in range(len(groups))))
        o.write('\n/-!\n# Registry entries of the single-byte encodings\n\nGenerated by `tools/gensb.py`.\n-/\n\nnamespace Reiconv\n\n')
        for n in order:
            o.write('def %s_entry : Entry := sbEntry %s_sb %s_safe (by decide)\n' % (n, n, n))
        o.write('\n/-- All single-byte encodings that are made of tables. -/\ndef sbEntries : List Entry :=\n  [%s]\n\n'
                % ',\n    '.join(', '.join('%s_entry' % n for n in order[i:i + 4]) for i in range(0, len(order), 4)))
        o.write('/-- The single-byte encodings with their reference tables. -/\ndef sbRows : List SbRow :=\n  [%s]\n\n'
                % ',\n    '.join('⟨"%s", %s_entry, %s_from, %s_irr⟩' % (datafile(n)[:-4], n, n, n) for n in order))
        o.write('theorem sbRows_ok : ∀ r ∈ sbRows, r.Checked := by\n  unfold sbRows\n  simp only [List.forall_mem_cons]\n'
                '  exact ⟨%s, by simp⟩\n\nend Reiconv\n'
                % ',\n    '.join('⟨_, _, _, rfl, %s_chkDec, %s_chkInv⟩' % (n, n) for n in order))


main()
