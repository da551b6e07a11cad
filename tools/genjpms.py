"""Generate lean/Verif/Gen/JpmsTables.lean: the two extension tables of CP50221."""
import os, sys
sys.path.insert(0, os.path.dirname(__file__))
import cparse, sb
TB = {}
NAMES = ['cp50221_0208_ext', 'cp50221_0212_ext']
for n in NAMES:
    for k, v in cparse.tables(n).items():
        TB[k] = (n,) + v


def pack(vals, w):
    x = 0
    for i, v in enumerate(vals):
        assert 0 <= v < 1 << w
        x |= v << (w * i)
    return hex(x)


def width(ct):
    return {'unsigned short': 16, 'unsigned char': 8}[ct]


def table(t):
    f, ct, vals, a, b, decl = TB[t]
    return ('/-- `%s` (`lib/converters/%s.h:%d-%d`). -/\ndef %s : Tab := ⟨%d, %d, %s⟩\n' %
            (t, f, a, b, t, width(ct), eval(decl), pack(vals, width(ct))))


def model(n):
    out = []
    d, a, b = sb.decoder(n)
    e, a2, b2 = sb.encoder(n)
    for lo, hi, r in d + e:
        if r[0] == 'tab':
            out.append(table(r[1]))
    rule = lambda lo, hi, r: ('⟨%#x, %#x, .add %#x⟩' % (lo, hi, lo + r[1]) if r[0] == 'add' else
                              '⟨%#x, %#x, .tab %s %#x .%s⟩' % (lo, hi, r[1], r[2], {'hole': 'ilseq'}.get(r[3], r[3])))
    out.append('/-- Branches of `%s_mbtowc` (`lib/converters/%s.h:%d-%d`). -/' % (n, n, a, b))
    out.append('def %s_d : List DRule :=\n  [%s]\n' % (n, ',\n    '.join(rule(*x) for x in d)))
    out.append('/-- Branches of `%s_wctomb` (`lib/converters/%s.h:%d-%d`). -/' % (n, n, a2, b2))
    out.append('def %s_e : List ERule :=\n  [%s]\n' % (n, ',\n    '.join(rule(*x) for x in e)))
    return '\n'.join(out)


with open('/verif/lean/Verif/Gen/JpmsTables.lean', 'w') as o:
    o.write('import Verif.SingleByte\n\n/-!\n# Tables of CP50221\n\nGenerated by `tools/genjpms.py` from `lib/converters/*.h`.\n-/\n\nnamespace Reiconv\n\n')
    for n in NAMES:
        o.write(model(n) + '\n')
    o.write('end Reiconv\n')
