"""Generate lean/Verif/Gen/CompData.lean: tests/data tables of CP1255, CP1258 and TCVN."""
import os
OUT = os.path.join(os.path.dirname(os.path.abspath(__file__)), '../lean/Verif/Gen/CompData.lean')
o = ['import Verif.Basic', '', '/-!', '# Reference tables of CP1255, CP1258 and TCVN', '',
     'Generated by `tools/gencompdata.py` from `tests/data/*.TXT`: pairs (bytes, character).', '-/', '', 'namespace Reiconv', '']
for n, f in [('cp1255', 'CP1255'), ('cp1258', 'CP1258'), ('tcvn', 'TCVN')]:
    for suf, ext in [('from', '.TXT'), ('irr', '.IRREVERSIBLE.TXT')]:
        r = []
        for l in open('/repo/tests/data/' + f + ext):
            l = l.split()
            if l:
                b = bytes.fromhex(l[0][2:])
                r.append('([%s], %#x)' % (', '.join('%#x' % x for x in b), int(l[1], 16)))
        o.append('/-- `tests/data/%s%s`. -/\ndef %s_%s : List (List Byte × Nat) :=\n  [%s]\n'
                 % (f, ext, n, suf, ',\n    '.join(', '.join(r[i:i + 5]) for i in range(0, len(r), 5))))
o.append('end Reiconv')
open(OUT, 'w').write('\n'.join(o) + '\n')
