"""Tables of lib/converters/jisx0213.h and the composition tables of the converters that use it:
lean/Verif/Gen/JxTables.lean"""
import re

CONV = '/repo/lib/converters/'
GEN = '/verif/lean/Verif/Gen/'
PER = 4096


def ints(fn, name):
    t = open(CONV + fn).read()
    m = re.search(name + r'\[[^=]*=\s*\{(.*?)\n\};', t, re.S)
    b = re.sub(r'/\*.*?\*/', '', m.group(1), flags=re.S)
    b = re.sub(r'^#.*$', '', b, flags=re.M)
    return [int(x, 0) for x in re.findall(r'-?0x[0-9a-fA-F]+|-?\d+', b)], t[:m.start()].count('\n') + 1


def tab(w, vals):
    x = 0
    for j, v in enumerate(vals):
        assert 0 <= v < 1 << w
        x |= v << (w * j)
    return '⟨%d, %d, %s⟩' % (w, len(vals), hex(x))


o = ['import Verif.SingleByte\n\n/-! Generated by `tools/genjx.py` from `lib/converters/jisx0213.h`, `euc_jisx0213.h`, `shift_jisx0213.h`,\n'
     '`iso2022_jp3.h` and `tests/data`. -/\n\nnamespace Reiconv\n']
v, l = ints('jisx0213.h', 'jisx0213_to_ucs_combining')
o.append('/-- `jisx0213_to_ucs_combining` (`lib/converters/jisx0213.h:%d`). -/\ndef jxComb : List (Nat × Nat) :=\n  [%s]\n' % (
    l, ', '.join('(%#x, %#x)' % (v[i], v[i + 1]) for i in range(0, len(v), 2))))
for name, lean in (('jisx0213_to_ucs_main', 'jxMain'), ('jisx0213_from_ucs_level2_data', 'jxData')):
    v, l = ints('jisx0213.h', name)
    ps = [v[i:i + PER] for i in range(0, len(v), PER)]
    for i, p in enumerate(ps):
        o.append('def %s%d : Tab := %s\n' % (lean, i, tab(16, p)))
    o.append('/-- `%s` (`lib/converters/jisx0213.h:%d`), in pieces of %d entries. -/\ndef %s : List Tab := [%s]\n' % (
        name, l, PER, lean, ', '.join('%s%d' % (lean, i) for i in range(len(ps)))))
v, l = ints('jisx0213.h', 'jisx0213_to_ucs_pagestart')
o.append('/-- `jisx0213_to_ucs_pagestart` (`lib/converters/jisx0213.h:%d`). -/\ndef jxPage : Tab := %s\n' % (l, tab(20, v)))
v, l = ints('jisx0213.h', 'jisx0213_from_ucs_level1')
o.append('/-- `jisx0213_from_ucs_level1` (`lib/converters/jisx0213.h:%d`) as 16 bit numbers; 65535 is -1. -/\ndef jxLevel1 : Tab := %s\n' % (
    l, tab(16, [x & 0xffff for x in v])))
lev = v
blocks = []
for j, x in enumerate(lev):
    if x >= 0:
        if blocks and blocks[-1][1] == j:
            blocks[-1][1] = j + 1
        else:
            blocks.append([j, j + 1])
o.append('/-- The runs of entries of `jxLevel1` that are not -1. -/\ndef jxBlocks : List (Nat × Nat) :=\n  [%s]\n' % ', '.join('(%d, %d)' % tuple(b) for b in blocks))
v, l = ints('jisx0213.h', 'jisx0213_from_ucs_level2_2indx')
o.append('/-- `jisx0213_from_ucs_level2_2indx` (`lib/converters/jisx0213.h:%d`), each entry as `indx + 65536 * used`. -/\ndef jxIndx : Tab := %s\n' % (
    l, tab(32, [v[i] + 65536 * v[i + 1] for i in range(0, len(v), 2)])))
for fn, name, lean in (('euc_jisx0213.h', 'euc_jisx0213_comp_table_data', 'eucJxComp'), ('shift_jisx0213.h', 'shift_jisx0213_comp_table_data', 'sjxComp'),
                       ('iso2022_jp3.h', 'iso2022_jp3_comp_table_data', 'jp3Comp')):
    v, l = ints(fn, name)
    o.append('/-- `%s` (`lib/converters/%s:%d`): (base, composed). -/\ndef %s : List (Nat × Nat) :=\n  [%s]\n' % (
        name, fn, l, lean, ', '.join('(%#x, %#x)' % (v[i], v[i + 1]) for i in range(0, len(v), 2))))
for fn, lean in (('EUC-JISX0213.TXT', 'eucJxPairs'), ('SHIFT_JISX0213.TXT', 'sjxPairs')):
    rows = []
    for line in open('/repo/tests/data/' + fn):
        f = line.split('#')[0].split()
        if len(f) == 3:
            b = bytes.fromhex(f[0][2:])
            rows.append('([%s], %#x, %#x)' % (', '.join('0x%02x' % x for x in b), int(f[1], 16), int(f[2], 16)))
    o.append('/-- The rows of `tests/data/%s` with two characters. -/\ndef %s : List (List Byte × Nat × Nat) :=\n  [%s]\n' % (fn, lean, ',\n    '.join(rows)))
o.append('end Reiconv\n')
open(GEN + 'JxTables.lean', 'w').write('\n'.join(o))
print(len(blocks), [len(x) for x in o])
