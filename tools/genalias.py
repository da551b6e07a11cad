# Writes lean/Verif/Gen/Aliases.lean and lean/Verif/Gen/Names.lean from the headers in /repo.
import os, re, sys
sys.path.insert(0, os.path.dirname(os.path.abspath(__file__)))
from enc import encs, body
from gp import pool, table, asso
OUT = os.path.join(os.path.dirname(os.path.abspath(__file__)), '../lean/Verif/Gen/')
eid = {e[0]: i for i, e in enumerate(encs)}
assert len(encs) == 198

def wrap(items, ind='    ', width=100):
    lines, cur = [], ''
    for k, it in enumerate(items):
        t = it + (',' if k + 1 < len(items) else '')
        if cur and len(cur) + 1 + len(t) > width - len(ind):
            lines.append(ind + cur); cur = t
        else:
            cur = (cur + ' ' + t) if cur else t
    if cur: lines.append(ind + cur)
    return '\n'.join(lines)

aliases_src = open('/repo/lib/generated/aliases.h').read()
o = '''/-!
# The gperf tables of `lib/generated/aliases.h`

Generated by `tools/genalias.py`.
-/

namespace Reiconv

/-- `asso_values` (`lib/generated/aliases.h:52-68`). -/
def assoValues : List Nat :=
  [
%s]

''' % wrap([str(x) for x in asso])
rows = [(k, pool[t[0]], eid[t[1]]) for k, t in enumerate(table) if t]
# the stringpool member used by a row carries the position as its number; use the string it names
CH = 120
chunks = [rows[i:i+CH] for i in range(0, len(rows), CH)]
for n, c in enumerate(chunks):
    o += '''/-- Part of `aliases` and `stringpool` (`lib/generated/aliases.h:107-4208`). -/
def aliasRows%d : List (Nat × String × Nat) :=
  [
%s]

''' % (n, wrap(['(%d, "%s", %d)' % r for r in c]))
o += '''/-- The array `aliases` (`lib/generated/aliases.h`): the elements other than `{-1}`, with their position,
their name in `stringpool` and their `encoding_index`. Simplification: the array has %d elements, those
not listed are `{-1}`. -/
def aliasRows : List (Nat × String × Nat) :=
  %s

end Reiconv
''' % (len(table), ' ++ '.join('aliasRows%d' % n for n in range(len(chunks))))
open(OUT + 'Aliases.lean', 'w').write(o)

o = '''/-!
# Names, code pages and public constants

`lib/encodings.h.snippet`, `lib/generated/indexes.h.shippet`, `lib/generated/indexes.hpp.shippet`,
`lib/localecharset/windows_getcp.h`, `lib/localecharset/locale_table.h`. Generated by
`tools/genalias.py`.
-/

namespace Reiconv

/-- The names declared for each encoding, in the order of the encoding numbers
(`lib/encodings.h.snippet`, first argument of `DEFENCODING`): every string literal is one name. -/
def declaredNames : List (List String) :=
  [
%s]

''' % ',\n'.join('    [' + wrap(['"%s"' % n for n in e[2]], '     ').strip() + ']' for e in encs)
o += '''/-- The index names of the encodings, in the order of the encoding numbers (`lib/encodings.h.snippet`,
third argument of `DEFENCODING`). -/
def indexNames : List String :=
  [
%s]

''' % wrap(['"%s"' % e[1] for e in encs])
cps = [(int(a), eid[b]) for a, b in re.findall(r'DEFCODEPAGE\(\s*(\d+)\s*,\s*(\w+)\s*\)', body)]
assert len(cps) == 156, len(cps)
assert len(set(a for a, _ in cps)) == len(cps)
o += '''/-- `DEFCODEPAGE(codepage, xxx)` (`lib/encodings.h.snippet`): code page and encoding number. -/
def codepages : List (Nat × Nat) :=
  [
%s]

''' % wrap(['(%d, %d)' % c for c in cps])
dix = re.findall(r'DEFINDEX\(\s*(\w+)\s*,\s*(\w+)\s*\)', body)
o += '''/-- `DEFINDEX(alias, index)` (`lib/encodings.h.snippet`). -/
def indexAliases : List (String × String) :=
  [
%s]

''' % wrap(['("%s", "%s")' % c for c in dix])
for fn, name, pre in (('indexes.h.shippet', 'publicC', 'ENCODING_'), ('indexes.hpp.shippet', 'publicCpp', '')):
    src = open('/repo/lib/generated/' + fn).read()
    al = re.findall(r'^\s*' + pre + r'(\w+) = ' + '(\\w+),', src, re.M)
    num = [(a, int(b)) for a, b in al if b.isdigit()]
    ali = [(a, b[len(pre):]) for a, b in al if not b.isdigit()]
    o += '''/-- The constants of `lib/generated/%s` given by a number. -/
def %s : List (String × Nat) :=
  [
%s]

/-- The constants of `lib/generated/%s` given by another constant. -/
def %sAliases : List (String × String) :=
  [
%s]

''' % (fn, name, wrap(['("%s", %d)' % c for c in num]), fn, name, wrap(['("%s", "%s")' % c for c in ali]))
w = open('/repo/lib/localecharset/windows_getcp.h').read()
w = re.sub(r'//.*', '', w)
win = [(int(a), b) for a, b in re.findall(r'case (\d+):\s*return "([^"]*)";', w)]
assert len(win) == w.count('case '), (len(win), w.count('case '))
o += '''/-- The `switch` of `windows_getcp` (`lib/localecharset/windows_getcp.h:44-343`). -/
def winNames : List (Nat × String) :=
  [
%s]

''' % wrap(['(%d, "%s")' % c for c in win])
lt = open('/repo/lib/localecharset/locale_table.h').read()
lt = lt[lt.index('#if __has_freebsd__'):lt.index('#else')]
loc = re.findall(r'\{"([^"]*)", "([^"]*)"\}', lt)
o += '''/-- `locale_table` on FreeBSD (`lib/localecharset/locale_table.h:34-108`). -/
def localeTable : List (String × String) :=
  [
%s]

end Reiconv
''' % wrap(['("%s", "%s")' % c for c in loc])
open(OUT + 'Names.lean', 'w').write(o)
pos = {(n, i): k for k, n, i in rows}
o = '''import Verif.Lookup

/-!
# Where the declared names are in the hash table

Generated by `tools/genalias.py`.
-/

namespace Reiconv

/-- For every declared name its position in `aliases`, 0 if it is not there. -/
def declaredPos : List (List Nat) :=
  [
%s]

end Reiconv
''' % ',\n'.join('    [' + wrap([str(pos.get((n, i), 0)) for n in e[2]], '     ').strip() + ']' for i, e in enumerate(encs))
open(OUT + 'NamePos.lean', 'w').write(o)
print(len(rows), len(cps), len(dix), len(win), len(loc))
