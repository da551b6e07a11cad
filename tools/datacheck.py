from sbcheck import *
import os
DATA='/repo/tests/data/'
files={f for f in os.listdir(DATA) if f.endswith('.TXT')}
def load(f):
    r=[]
    for l in open(DATA+f):
        l=l.split()
        if l: r.append((l[0],l[1:]))
    return r
def find(n):
    e=idx[n][0]
    for nm in [n.upper(), n.upper().replace('_','-'), n]+e[2]:
        for v in (nm, nm.replace('MAC_','Mac'), ):
            if v+'.TXT' in files: return v
    lc={f.lower().replace('_','').replace('-',''):f for f in files}
    k=n.replace('_','')+'.txt'
    if k in lc: return lc[k][:-4]
    k=n.replace('ebcdic','ibm-')
    for f in files:
        if f.lower()==k+'.txt': return f[:-4]
    print('nodata',n,e[2])
if __name__=='__main__':
  for n in names:
    f=find(n)
    if not f: continue
    T={}
    for a,b in load(f+'.TXT'):
        assert len(b)==1,(f,a,b)
        T[int(a,16)]=int(b[0],16)
        if not len(a)==4: print(f,a)
    d=sb.decoder(n)[0]; e=sb.encoder(n)[0]
    D={b:dec(d,b) for b in range(256)}; D={b:v for b,v in D.items() if v is not None}
    E=encd(e)
    I=set()
    if f+'.IRREVERSIBLE.TXT' in files: I={(int(a,16),int(b[0],16)) for a,b in load(f+'.IRREVERSIBLE.TXT')}
    if T!=D: print(n,f,'DEC differs',[(k,T.get(k),D.get(k)) for k in set(T)|set(D) if T.get(k)!=D.get(k)][:5])
    S=set(T.items())^I
    EE={(b,w) for w,b in E.items()}
    if S!=EE: print(n,f,'ENC differs',(S^EE))
