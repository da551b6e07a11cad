import sys; sys.path.insert(0,'/verif/tools')
from enc import encs
import re
g=open('/repo/lib/generated/aliases.h').read()
pool=dict((int(a),b) for a,b in re.findall(r'char stringpool_str(\d+)\[sizeof\("([^"]*)"\)\]',g))
seg=g[g.index('static const struct alias aliases[] =') if 'static const struct alias aliases[] =' in g else g.index('aliases[]'):]
tok=re.findall(r'\{-1\}|stringpool_str(\d+), ei_(\w+)\}',seg)
allt=re.findall(r'(\{-1\})|\{\(int\)\(size_t\)&\(\(struct stringpool_t \*\)0\)->stringpool_str(\d+), ei_(\w+)\}',seg)
table=[]
for a,b,c in allt: table.append(None if a else (int(b),c))
asso=[int(x) for x in re.findall(r'\d+',g[g.index('asso_values[] ='):g.index('register unsigned int hval')].split('{')[1].split('}')[0])]
def h(s):
    n=len(s); v=n
    offs=[0,2,0,0,0,4,0,0,0,0]
    for i in range(min(n,10)): v+=asso[ord(s[i])+offs[i]]
    return v+asso[ord(s[-1])]
if __name__=='__main__':
    print(len(pool),len(table),len(asso))
    for k,t in enumerate(table):
        if t and t[0]!=k: print('pos',k,t)
    for k,t in enumerate(table):
        if t and h(pool[t[0]])!=k: print('hash',k,t,pool[t[0]],h(pool[t[0]]))
    d={}
    for i,(id,ix,names,_,_) in enumerate(encs):
        for n in names: d.setdefault(n,[]).append(id)
    gk={pool[t[0]]:t[1] for t in table if t}
    for n in d:
        if n not in gk: print('not in gperf',n,d[n])
        elif gk[n]!=d[n][0]: print('mismatch',n,gk[n],d[n])
    for n in gk:
        if n not in d: print('only gperf',n,gk[n])
    for n in d:
        c=n.upper().replace('-','').replace('_','')
        if c!=n: print('noncanon',n,d[n])
