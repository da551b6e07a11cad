"""Generate lean/Verif/Gen/B5Case.lean: the tables of lib/converters/cp950.h and big5_2003.h and the `switch`
of their `wctomb` functions, translated statement by statement."""
import os, re
HERE = os.path.dirname(os.path.abspath(__file__))
SRC = '/repo/lib/converters/'
out = ['import Verif.Codec.TreeTac\n', '/-! Generated by `tools/genbig5.py`. -/\n', 'namespace Reiconv\n']


def table(f, name, width):
    t = open(SRC + f).read()
    m = re.search(r'static const [^=]*?\b%s\[([^]]*)\]\s*=\s*\{(.*?)\n\};' % name, t, re.S)
    a, b = t[:m.start()].count('\n') + 1, t[:m.end()].count('\n') + 1
    v = [int(x, 0) for x in re.findall(r'0x[0-9a-f]+|\b\d+', re.sub(r'/\*.*?\*/', '', m[2], flags=re.S))]
    assert len(v) == eval(m[1])
    out.append('/-- `%s` (`lib/converters/%s:%d-%d`). -/\ndef %s : Tab := ⟨%d, %d, %s⟩\n' % (
        name, f, a, b, name, width, len(v), hex(sum(x << (width * i) for i, x in enumerate(v)))))


class P:
    def __init__(s, t):
        s.k = re.findall(r'0x[0-9a-f]+|\d+|\w+|==|>=|<=|&&|\|\||[-+*/%<>=(){};:?,\[\]!]', t)
        s.i = 0

    def peek(s, n=0):
        return s.k[s.i + n] if s.i + n < len(s.k) else None

    def eat(s, x):
        assert s.k[s.i] == x, (x, s.k[s.i:s.i + 10])
        s.i += 1

    def until(s, close):
        d, r = 0, []
        while not (d == 0 and s.k[s.i] == close):
            d += s.k[s.i] in '([' or 0
            d -= s.k[s.i] in ')]' or 0
            r.append(s.k[s.i])
            s.i += 1
        s.i += 1
        return r


def cond(ts):
    return ' '.join({'==': '=', '>=': '≥', '<=': '≤', '&&': '∧', '||': '∨'}.get(x, x) for x in ts)


def expr(ts):
    s = ' '.join(ts)
    s = re.sub(r'\( (.*?) \? (.*?) : (.*?) \)', lambda m: '(if %s then %s else %s)' % (cond(m[1].split()), m[2], re.sub(r'(.*) \? (.*) : (.*)', r'if \1 then \2 else \3', m[3])), s)
    return s


def block(p, env):
    """statements up to `break` or the end of a block; gives lean text"""
    # returns text of a program with the continuation `rest`
    txt = ''
    while True:
        x = p.peek()
        if x == 'if':
            p.eat('if'); p.eat('(')
            c = cond(p.until(')'))
            if p.peek() == 'return':
                p.eat('return'); p.eat('RET_ILUNI'); p.eat(';')
                txt += 'if %s then .iluni else ' % c
            else:
                p.eat('{')
                a = block(p, dict(env))
                p.eat('}')
                if p.peek() == 'else':
                    p.eat('else'); p.eat('{')
                    b = block(p, dict(env))
                    p.eat('}')
                    p.eat('ret'); p.eat('='); p.eat('2'); p.eat(';'); p.eat('break'); p.eat(';')
                    return txt + '(if %s then %s else %s)' % (c, a, b)
                txt += 'if %s then %s else ' % (c, a)
        elif x == 'buf':
            p.eat('buf'); p.eat('['); i = p.peek(); p.eat(i); p.eat(']'); p.eat('=')
            env['buf' + i] = expr(p.until(';'))
            if p.peek() == '}':
                return txt + 'done (%s) (%s)' % (env['buf0'], env['buf1'])
        elif x == 'ret':
            p.eat('ret'); p.eat('='); p.eat('2'); p.eat(';'); p.eat('break'); p.eat(';')
            return txt + 'done (%s) (%s)' % (env['buf0'], env['buf1'])
        elif x == 'unsigned':
            p.eat('unsigned'); p.eat('int')
            v = p.peek(); p.eat(v); p.eat('=')
            txt += 'let %s := %s; ' % (v, ' '.join(p.until(';')))
        elif x == 'return':
            p.eat('return'); p.eat('RET_ILUNI'); p.eat(';')
            return txt + '.iluni'
        elif x == '{':
            p.eat('{')
            txt += block(p, env)
            p.eat('}'); p.eat('break'); p.eat(';')
            return txt
        elif x == 'break':
            p.eat('break'); p.eat(';')
            return txt + 'rest'
        elif x == '}':
            return txt + 'rest'
        else:
            raise Exception(p.k[p.i:p.i + 10])


def switch(f, n):
    t = open(SRC + f).read()
    a = t.index('switch (wc >> 8)', t.index('static int %s_wctomb' % n))
    b = t.index('if (ret == RET_ILUNI)', a)
    la, lb = t[:a].count('\n') + 1, t[:b].count('\n')
    p = P(re.sub(r'/\*.*?\*/', '', t[a:b], flags=re.S))
    p.eat('switch'); p.eat('('); p.until(')'); p.eat('{')
    cases = []
    while p.peek() != '}':
        labels = []
        while p.peek() == 'case':
            p.eat('case'); labels.append(p.peek()); p.i += 1; p.eat(':')
        cases.append((labels, block(p, {})))
    s = '/-- The `switch` of `%s_wctomb` (`lib/converters/%s:%d-%d`): the program goes on with `done` when the two\nbytes of `buf` are set and with `rest` when they are not. -/\ndef %s_case (wc : Nat) (done : Nat → Nat → W) (rest : W) : W :=\n' % (n, f, la, lb, n)
    for ls, body in cases:
        body = re.sub(r'%s_2charset_page25 \[ (wc - 0x2550) \]' % n, r'v', body)
        body = re.sub(r'done \((\w+)\) \(v\)', r'%s_2charset_page25.rdW (wc - 0x2550) fun v => done \1 v' % n, body)
        c = 'wc / 256 = %s' % ls[0] if len(ls) == 1 else 'wc / 256 ≥ %s ∧ wc / 256 ≤ %s' % (ls[0], ls[-1])
        body = re.sub(r'else (?=rest)|else (?=if wc)', 'else\n      ', body)
        s += '  if %s then\n      %s\n  else\n' % (c, body)
    out.append(s + '  rest\n')


table('cp950.h', 'cp950_2uni_pagea1', 16)
for n, w in (('big5_2003_2uni_pagea1', 16), ('big5_2003_2uni_pagec6', 16), ('big5_2003_2uni_pagef9', 16), ('big5_2003_2charset_page25', 8)):
    table('big5_2003.h', n, w)
switch('cp950.h', 'cp950')
switch('big5_2003.h', 'big5_2003')
out.append('end Reiconv')
open(os.path.join(HERE, '../lean/Verif/Gen/B5Case.lean'), 'w').write('\n'.join(out) + '\n')
