import re
src=open('/repo/lib/encodings.h.snippet').read()
body=re.sub(r'/\*.*?\*/','',src,flags=re.S); body=re.sub(r'//.*','',body)
encs=[]
for m in re.finditer(r'DEFENCODING\(\((.*?)\)\s*,\s*(\w+)\s*,\s*(\w+)\s*,\s*\{(.*?)\}\s*,\s*\{(.*?)\}\s*\)',body,re.S):
    names=re.findall(r'"([^"]*)"',m[1]); encs.append((m[2],m[3],names,[x.strip() for x in m[4].split(',')],[x.strip() for x in m[5].split(',')]))
if __name__=='__main__':
    print(len(encs)); print(body.count('DEFENCODING'))
    for e in encs: print(e[0],e[1],len(e[2]),e[3],e[4])
    print(sum(len(e[2]) for e in encs))
    print(re.findall(r'DEFINDEX\((.*?)\)',body))
