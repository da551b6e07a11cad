"""Generate lean/Verif/Gen/CompTables.lean: tables of the converters that combine characters
(cp1255, cp1258, tcvn), from lib/converters/*.h."""
import re, os, sys
sys.path.insert(0, os.path.dirname(os.path.abspath(__file__)))
SRC = '/repo/lib/converters/'
OUT = os.path.join(os.path.dirname(os.path.abspath(__file__)), '../lean/Verif/Gen/CompTables.lean')


def strip(t):
    return re.sub(r'/\*.*?\*/', lambda m: re.sub(r'[^\n]', ' ', m.group(0)), t, flags=re.S)


def array(f, name):
    t = strip(open(SRC + f).read())
    m = re.search(r'\b%s\s*\[([^\]]*)\]\s*=\s*\{(.*?)\n\};' % name, t, re.S)
    a = t[:m.start()].count('\n') + 1
    b = t[:m.end()].count('\n') + 1
    return m.group(2), a, b, m.group(1)


def nums(body):
    return [int(x, 0) for x in re.findall(r'0x[0-9a-fA-F]+|-?\d+', re.sub(r'#.*', '', body))]


def pack(vals, w):
    return hex(sum(v << (w * i) for i, v in enumerate(vals)))


out = ['import Verif.SingleByte', '', '/-!', '# Tables of the converters that combine characters', '',
       'Generated by `tools/gencomp.py` from `lib/converters/*.h`.', '-/', '', 'namespace Reiconv', '']


def tab(f, name, w):
    body, a, b, decl = array(f, name)
    v = nums(body)
    if decl.strip():
        assert eval(decl) == len(v), (name, decl, len(v))
    out.append('/-- `%s` (`lib/converters/%s:%d-%d`). -/\ndef %s : Tab := ⟨%d, %d, %s⟩\n' % (name, f, a, b, name, w, len(v), pack(v, w)))


def rows(f, name, k, doc):
    body, a, b, _ = array(f, name)
    v = [nums(x) for x in re.findall(r'\{([^{}]*)\}', re.sub(r'#.*', '', body))]
    assert all(len(x) == k for x in v), (name, v)
    s = ['(%#x, %#x' % (x[0], x[1]) + (', [%s]' % ', '.join(str(y) for y in x[2:] if y >= 0) if k > 2 else '') + ')'
         for x in v]
    ty = 'Nat × Nat' + (' × List Nat' if k > 2 else '')
    lines = ',\n    '.join(', '.join(s[i:i + 6]) for i in range(0, len(s), 6))
    out.append('/-- `%s` (`lib/converters/%s:%d-%d`): %s. -/\ndef %s : List (%s) :=\n  [%s]\n' % (name, f, a, b, doc, name, ty, lines))


def spans(f, name, data):
    t = strip(open(SRC + f).read())
    lens = [(m.group(1), int(m.group(2))) for m in re.finditer(r'#define (\w+)_len (\d+)', t)]
    body, a, b, _ = array(f, name)
    order = re.findall(r'\{\s*(\w+)_len\s*,\s*(\w+)_idx\s*\}', body)
    assert [x for x, _ in order] == [x for x, _ in lens] and all(x == y for x, y in order)
    idx, r = 0, []
    for _, l in lens:
        r.append((l, idx))
        idx += l
    out.append('/-- `%s` (`lib/converters/%s:%d-%d`): number of rows and first row for each combining\ncharacter. -/\ndef %s : List (Nat × Nat) :=\n  [%s]\n'
               % (name, f, a, b, name, ', '.join('(%d, %d)' % x for x in r)))


tab('cp1255.h', 'cp1255_2uni', 16)
rows('cp1255.h', 'cp1255_comp_table_data', 2, 'base, composed')
spans('cp1255.h', 'cp1255_comp_table', 'cp1255_comp_table_data')
rows('cp1255.h', 'cp1255_decomp_table', 4, 'composed, base, and comb1, comb2\nwithout negative values')
tab('cp1255.h', 'cp1255_comb_table', 8)
for p in ['00', '02', '05', '20']:
    tab('cp1255.h', 'cp1255_page' + p, 8)
rows('vietcomb.h', 'viet_comp_table_data', 2, 'base, composed')
spans('vietcomb.h', 'viet_comp_table', 'viet_comp_table_data')
rows('vietcomb.h', 'viet_decomp_table', 3, 'composed, base, comb1')
tab('cp1258.h', 'cp1258_comb_table', 8)
tab('cp1258.h', 'cp1258_comp_bases', 32)
tab('cp1258.h', 'cp1258_2uni', 16)
for p in ['00', '01', '02', '03', '20']:
    tab('cp1258.h', 'cp1258_page' + p, 8)
tab('tcvn.h', 'tcvn_comb_table', 8)
tab('tcvn.h', 'tcvn_comp_bases', 32)
tab('tcvn.h', 'tcvn_2uni_1', 16)
tab('tcvn.h', 'tcvn_2uni_2', 16)
for p in ['00', '03', '1e']:
    tab('tcvn.h', 'tcvn_page' + p, 8)
out.append('end Reiconv')
open(OUT, 'w').write('\n'.join(out) + '\n')
