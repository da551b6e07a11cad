"""Explore: do the single-byte rules invert each other, and do they agree with tests/data?"""
import cparse, sb, enc, os, re, glob
from sbnames import names
TB={}
for f in glob.glob(cparse.CONV+'*.h'):
    try: TB.update(cparse.tables(os.path.basename(f)[:-2]))
    except Exception: pass
def dec(d,b):
    for lo,hi,r in d:
        if lo<=b<hi:
            if r[0]=='add': return b+r[1]
            t=TB[r[1]][1]; i=b-r[2]
            v=t[i] if i<len(t) else ('OOB' if r[1]!='georgian_ps_2uni_2' else 0)
            if v==0xfffd and r[3]=='hole': return None
            if v==0xfffd and r[3]=='ident': return b
            return v
def encd(e):
    m={}
    for lo,hi,r in e:
        for w in range(lo,hi):
            if r[0]=='add': m[w]=w+r[1]; continue
            t=TB[r[1]][1]; v=t[w-r[2]]
            if r[3]=='holes':
                if v==0xfffd: m[w]=w
            elif v!=0 or r[3]=='zero': m[w]=v
            elif r[3]=='all': print('ALL0',w)
    return m
idx={}
for e in enc.encs:
    idx.setdefault(e[3][0].replace('_mbtowc',''),[]).append(e)
if __name__=='__main__':
  tot=0
  for n in names:
    d=sb.decoder(n)[0]; e=sb.encoder(n)[0]
    D={b:dec(d,b) for b in range(256)}; D={b:v for b,v in D.items() if v is not None}
    E=encd(e); tot+=sum(hi-lo for lo,hi,_ in e)
    a=[(b,hex(v)) for b,v in D.items() if E.get(v)!=b]
    z=[(hex(w),b) for w,b in E.items() if D.get(b)!=w]
    if 'OOB' in D.values(): print(n,'OOB')
    if any(not(0<=b<256) for b in E.values()): print(n,'E range')
    if 0xfffd in D.values(): print(n,'decodes to fffd')
    if a or z: print(n,a[:6],len(a),z[:6],len(z))
    if n not in idx: print('no enc',n)
  print(tot)
