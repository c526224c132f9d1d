#!/usr/bin/env python3
"""Check that each citation `osl_f` (source/x.c:a-b) in the Lean files spans the definition of osl_f."""
import re,glob,functools
@functools.lru_cache(None)
def defs(path):
    """name -> list of (first,last) lines of the definition"""
    L=open('/repo/'+path).read().split('\n'); d={}
    i=0
    while i<len(L):
        m=re.match(r'^(?:static )?(?:const )?[A-Za-z_].*?[\s\*](osl_\w+|str\w+|\w+)\s*\(',L[i])
        m2=re.match(r'^\s*(osl_\w+)\(',L[i]) if not m else None
        mm=m or m2
        if mm and not L[i].rstrip().endswith(';') and not L[i].startswith((' ','#')):
            j=i
            while j<len(L) and not L[j].rstrip().endswith(('{',';')): j+=1
            if j<len(L) and L[j].rstrip().endswith('{'):
                k=j
                while k<len(L) and not L[k].startswith('}'): k+=1
                d.setdefault(mm.group(1),[]).append((i+1,k+1))
                i=k
        i+=1
    return d
bad=0
fixes=[]
import sys
for f in sorted(glob.glob('/verif/lean/Verif/*.lean')):
    t=open(f).read()
    for m in re.finditer(r'`(osl_\w+)`\s*\((source/[\w/]+\.c):(\d+)-(\d+)\)',t):
        n,p,a,b=m.group(1),m.group(2),int(m.group(3)),int(m.group(4))
        ds=defs(p).get(n)
        if not ds: print(f.split('/')[-1],n,p,'not defined there'); bad+=1; continue
        d0=ds[0]
        if not any(x<=a and b<=y for x,y in ds) or (abs(a-d0[0])<=2 and abs(b-d0[1])<=4 and (a,b)!=d0):
            print(f.split('/')[-1],n,p,(a,b),'is',ds); bad+=1
            fixes.append((f,m.group(0),m.group(0).replace(f'{a}-{b}',f'{d0[0]}-{d0[1]}')))
    for m in re.finditer(r'((?:source|include/osl)/[\w/]+\.(?:h\.in|[ch])):(\d+)(?:-(\d+))?',t):
        n=len(open('/repo/'+m.group(1)).read().split('\n'))
        if int(m.group(3) or m.group(2))>n: print(f,m.group(0),'out of file'); bad+=1
print('bad',bad)
if '--fix' in sys.argv:
    for f,a,b in fixes:
        t=open(f).read(); open(f,'w').write(t.replace(a,b))
