"""Generate lean/Verif/Gen/Index.lean: the enum of lib/encoding_indexes.h."""
import re
src = open('/repo/lib/encodings.h.snippet').read()
src = re.sub(r'/\*.*?\*/', lambda m: '\n' * m[0].count('\n'), src, flags=re.S)
out = ['''/-!
# Encoding numbers

The `enum` of `lib/encoding_indexes.h:32-36`: one number per `DEFENCODING` of
`lib/encodings.h.snippet`, in order. Generated by `tools/genei.py`.
-/

namespace Reiconv
''']
n = 0
for m in re.finditer(r'DEFENCODING\(\((.*?)\)\s*,\s*(\w+)\s*,', src, re.S):
    out.append('/-- `lib/encodings.h.snippet:%d`. -/\nabbrev ei_%s : Nat := %d' % (src.count('\n', 0, m.start()) + 1, m[2], n))
    n += 1
out.append('/-- The number of encodings. -/\nabbrev ei_end : Nat := %d\n\nend Reiconv\n' % n)
open('/verif/lean/Verif/Gen/Index.lean', 'w').write('\n'.join(out))
