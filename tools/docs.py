"""Insert doc comments with citations where definitions of the model lack them."""
import re, glob, os
R = '/repo/lib/'
enc = {}
L = open(R + 'encodings.h.snippet').read().split('\n')
i = 0
while i < len(L):
    if L[i].startswith('DEFENCODING(('):
        j = i
        while not L[j].rstrip().endswith('})'):
            j += 1
        m = re.search(r'\)\s*,\s*(?:/\*.*?\*/\s*)?(\w+)\s*,\s*\w+\s*,\s*\{', ' '.join(re.sub(r'//.*', '', x) for x in L[i:j + 1]))
        if not m:
            raise SystemExit(' '.join(L[i:j + 1]))
        enc[m.group(1)] = 'lib/encodings.h.snippet:%d-%d' % (i + 1, j + 1)
        i = j
    i += 1
fun = {}
for f in sorted(glob.glob(R + 'converters/*.h')):
    T = open(f, errors='replace').read().split('\n')
    for k, l in enumerate(T):
        m = re.match(r'(?:static\s+int\s+)?(\w+_(?:mbtowc|wctomb|reset|flushwc))\s*\(', l)
        if m and not l.rstrip().endswith(';'):
            e = k
            while e < len(T) and T[e].rstrip() != '}':
                e += 1
            fun.setdefault(m.group(1), 'lib/converters/%s:%d-%d' % (os.path.basename(f), k + 1, e + 1))
DEF = re.compile(r'(?:@\[[^\]]*\]\s*)?(?:private |noncomputable |protected )*(?:def|abbrev)\s+(\S+)(.*)')
left = []
F = {f: v for f, v in fun.items()}
BY = {
 'Seg.eval': 'The value of a row of a decoding table at the index `i` (data of `lib/converters/*.h`, read by `tools/gencs.py`).',
 'Codes.get': 'Entry `i` of a table of codes.',
 'csegFind': 'The first row of an encoding table that covers a character.',
 'Outcome.inW': 'Run a computation that gives no bytes inside an encoder program.',
 'DRule.eval': 'The value of a row of a decoding function for the byte `c`.',
 'ERule.eval': 'The value of a row of an encoding function for the character `wc`.',
 'SB.dec': 'The decoder of a single-byte encoding (`lib/converters/*.h`, one byte each).',
 'SB.enc': 'The encoder of a single-byte encoding.',
 'SB.decode': 'The character of a byte, without the surrounding program.',
 'SB.encode': 'The byte of a character, without the surrounding program.',
 'SB.safe': 'No row reads outside its table.',
 'ofCode': 'Options as numbers: 0 is none.',
 'CompDec.dec': 'The decoder with the flush function of `lib/converters/flushwc.h:30-43`.',
 'CompEnc.enc': 'The encoder; it has no reset function.',
 'vietMarks': 'The combining marks of Vietnamese (`lib/converters/vietcomb.h`).',
 'jp3Last': 'The buffered bytes, low part of `lasttwo` (`lib/converters/iso2022_jp3.h:266-267`).',
 'jp3Prev': 'The previous designation, high part (`lib/converters/iso2022_jp3.h:266-267`).',
 'hkMoreW': '`hkMore` as a program without state.',
 'u7_isdirect': '`isdirect` (`lib/converters/utf7.h:42`).',
 'u7_isxdirect': '`isxdirect` (`lib/converters/utf7.h:52`).',
 'u7_isxbase64': '`isxbase64` (`lib/converters/utf7.h:61`).',
 'euc_jx_mbtowc': 'Single characters of `euc_jisx0213_mbtowc` (`%s`).' % fun.get('euc_jisx0213_mbtowc'),
 'sjx_mbtowc': 'Single characters of `shift_jisx0213_mbtowc` (`%s`).' % fun.get('shift_jisx0213_mbtowc'),
 'Op.step': 'One call of a session.',
 'Regs.set': 'Designate a character set to a register.',
}
for y in ('1999', '2001', '2004', '2008'):
    BY['hk%s_d' % y] = 'The character sets that `big5hkscs%s_mbtowc` tries (`%s`).' % (y, fun.get('big5hkscs%s_mbtowc' % y))
    BY['hk%s_e' % y] = 'The character sets that `big5hkscs%s_wctomb` tries after HKSCS-1999 (`%s`).' % (y, fun.get('big5hkscs%s_wctomb' % y))
    BY['hk%s_mbtowc' % y] = 'Single characters of `big5hkscs%s_mbtowc` (`%s`).' % (y, fun.get('big5hkscs%s_mbtowc' % y))
    BY['hk%s_wctomb' % y] = 'Single characters of `big5hkscs%s_wctomb` (`%s`).' % (y, fun.get('big5hkscs%s_wctomb' % y))
for x in ('hzI', 'krI', 'cnI', 'jpI', 'jp1I', 'cxI', 'jpmsI', 'jp2DI', 'jp2EI', 'jp3EI'):
    BY[x] = 'The values of the state that occur.'


def doc(name, rest):
    if name in BY:
        return BY[name]
    if re.match(r'(run|need|res|toOK)$', name):
        return None
    if name.endswith('_entry') and name[:-6] in enc:
        return 'The registered encoding `%s` (`%s`).' % (name[:-6], enc[name[:-6]])
    if name in fun:
        return '`%s` (`%s`).' % (name, fun[name])
    m = re.match(r'(.*?)_(dec|enc|decoder|encoder)$', name)
    if m and re.match(r'\s*:\s*(Encoder|Decoder)\b', rest):
        x = m.group(1)
        g = [f for f in ((x + '_mbtowc', x + '_flushwc') if 'dec' in m.group(2) else (x + '_wctomb', x + '_reset')) if f in fun]
        if g:
            return 'The functions %s.' % ', '.join('`%s` (`%s`)' % (f, fun[f]) for f in g)
    m = re.match(r'\s*:\s*(StDec|StEnc|DecOK|EncOK|SimpleDec|SimpleEnc|PairGood|Sim)\b\s*(\S*)', rest)
    if m:
        return 'Proof that `%s` satisfies the contract `%s`.' % (m.group(2) or name, m.group(1))
    return None


for f in sorted(glob.glob('/verif/lean/Verif/**/*.lean', recursive=True)):
    if re.search(r'/Gen/(Tab|Un)', f):
        continue
    T = open(f).read().split('\n')
    out = []
    ch = False
    for k, l in enumerate(T):
        m = DEF.match(l)
        if m:
            j = len(out) - 1
            if not (out and out[j].rstrip().endswith('-/')) and not l.startswith('@['):
                d = doc(m.group(1), m.group(2))
                if d:
                    s = '/-- ' + d + ' -/'
                    if len(s) > 118:
                        c = s.rfind(' ', 0, 116)
                        s = s[:c] + '\n' + s[c + 1:]
                    if out and out[-1].strip():
                        pass
                    out.append(s)
                    ch = True
                else:
                    left.append((os.path.basename(f), m.group(1), m.group(2)[:60]))
        out.append(l)
    if ch:
        open(f, 'w').write('\n'.join(out))
for x in left:
    print(*x)
print(len(left))
