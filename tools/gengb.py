"""Generate lean/Verif/Gen/CsGb.lean: the tables of lib/converters/gb18030uni.h, gb18030_2005.h and gb18030_2022.h
that do not have the form of a character set."""
import os, re
HERE = os.path.dirname(os.path.abspath(__file__))
SRC = '/repo/lib/converters/'
out = ['import Verif.Codec.TreeTac\n', '/-! Generated by `tools/gengb.py`. -/\n', 'namespace Reiconv\n']


def emit(name, width, vals, cite, what=''):
    x = sum(v << (width * i) for i, v in enumerate(vals))
    out.append('/-- %s (`lib/converters/%s`). -/\ndef %s : Tab := ⟨%d, %d, %s⟩\n' % (what or '`%s`' % name, cite, name, width, len(vals), hex(x)))


def body(f, name):
    t = open(SRC + f).read()
    m = re.search(r'static const [^=]*?\b%s\[([^]]*)\]\s*=\s*\{(.*?)\n\};' % name, t, re.S)
    a = t[:m.start()].count('\n') + 1
    b = t[:m.end()].count('\n') + 1
    s = re.sub(r'/\*.*?\*/', '', m[2], flags=re.S)
    return [int(x, 0) for x in re.findall(r'0x[0-9a-f]+|\b\d+', s)], '%s:%d-%d' % (f, a, b), eval(m[1])


for n, w in (('gb18030uni_charset2uni_ranges', 16), ('gb18030uni_uni2charset_ranges', 16), ('gb18030uni_ranges', 16),
             ('gb18030_2022_charset2uni_pua1', 16), ('gb18030_2022_charset2uni_pua2', 16),
             ('gb18030_2022_uni2charset_pua1', 8), ('gb18030_2022_uni2charset_pua2', 8)):
    v, c, k = body('gb18030uni.h', n)
    assert len(v) == k
    emit(n, w, v, c)
v, c, k = body('gb18030_2005.h', 'gb18030_2005_pua2charset')
assert len(v) == 3 * k
for i, n in enumerate(('lo', 'hi', 'charset')):
    emit('gb18030_2005_pua_' + n, 32, v[i::3], c, 'The members `%s` of `gb18030_2005_pua2charset`' % ('uni[0]', 'uni[1]', 'charset')[i])
v, c, k = body('gb18030_2022.h', 'gb18030_2022_pua2charset')
assert len(v) == k
emit('gb18030_2022_pua2charset', 16, v, c)
out.append('end Reiconv')
open(os.path.join(HERE, '../lean/Verif/Gen/CsGb.lean'), 'w').write('\n'.join(out) + '\n')
