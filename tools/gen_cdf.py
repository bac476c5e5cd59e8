#!/usr/bin/env python3
"""Generate lean/Verif/Model/DefaultCdf*.lean from /repo/src/cdf.rs and /repo/src/constants.rs.

Usage: python3 tools/gen_cdf.py   (run in /verif; writes the Lean files, which are committed)
The script only transcribes the numbers; all checks are done by Lean.
"""
import re,sys,json
src=open('/repo/src/cdf.rs').read()
con=open('/repo/src/constants.rs').read()
env={}
for m in re.finditer(r'const (\w+)\s*: *\w+ *= *([^;]+);',con):
    try: env[m.group(1)]=eval(m.group(2).replace('as usize',''),{},env)
    except Exception: pass
env['RESTORE_SWITCHABLE']=3
src=re.sub(r'//.*','',src); src=re.sub(r'/\*.*?\*/','',src,flags=re.S)
i=src.index('pub const default_cdf: CDF = CDF {')+len('pub const default_cdf: CDF = CDF {')
body=src[i:]
class P:
    def __init__(s,t): s.t=t; s.p=0
    def ws(s):
        while s.p<len(s.t) and s.t[s.p].isspace(): s.p+=1
    def val(s):
        s.ws()
        if s.t[s.p]=='[':
            s.p+=1; out=[]
            while True:
                s.ws()
                if s.t[s.p]==']': s.p+=1; return out
                v=s.val(); s.ws()
                c=s.t[s.p]
                if c==';':
                    s.p+=1; m=re.match(r'[^\]]+',s.t[s.p:]); n=eval(m.group(0).strip(),{},env); s.p+=m.end(); assert s.t[s.p]==']'; s.p+=1
                    return [v]*n
                out.append(v)
                if c==',': s.p+=1
        m=re.match(r'[^,\]\[;]+',s.t[s.p:]); s.p+=m.end()
        return eval(m.group(0).strip(),{},env)
p=P(body); tabs={}
while True:
    p.ws()
    if body[p.p]=='}': break
    m=re.match(r'(\w+)\s*:',body[p.p:]); p.p+=m.end()
    tabs[m.group(1)]=p.val(); p.ws()
    if body[p.p]==',': p.p+=1
# declared dims
decl={}
st=src[src.index('pub struct CDF {'):src.index('pub const default_cdf')]
for m in re.finditer(r'pub (\w+): ([^\n]+),\n',st):
    t=m.group(2); dims=[]
    while t.startswith('['):
        k=t.rindex(';'); dims.append(eval(t[k+1:-1].replace('as usize',''),{},env)); t=t[1:k]
    decl[m.group(1)]=dims

def leaves(v):
    if isinstance(v[0],int): yield v
    else:
        for x in v: yield from leaves(x)

lines={}
raw=open('/repo/src/cdf.rs').read().split('\n')
start=next(i for i,l in enumerate(raw) if 'pub const default_cdf' in l)
for k in tabs:
    lines[k]=next(i for i in range(start,len(raw)) if re.match(r'\s*%s\s*:'%k,raw[i]))+1

fams=[k for k in decl if k in tabs]
assert len(fams)==len(tabs)==len(decl)
# split in files of bounded size
files=[[]]; n=0
for k in fams:
    sz=sum(len(l) for l in leaves(tabs[k]))
    if n+sz>9000 and files[-1]: files.append([]); n=0
    files[-1].append(k); n+=sz
for i,f in enumerate(files):
    out=['import Verif.Spec.Family','','/-! Generated by tools/gen_cdf.py from src/cdf.rs: default probability tables, part %d. -/'%(i+1),'','namespace Av1.Default','']
    for k in f:
        ls=list(leaves(tabs[k])); C=200
        chunks=[ls[j:j+C] for j in range(0,len(ls),C)]
        if len(chunks)>1:
            for j,ch in enumerate(chunks):
                out.append('def %s_%d : List (List Nat) := ['%(k,j))
                out.append(',\n'.join('    [%s]'%','.join(map(str,l)) for l in ch)+']')
                out.append('')
        out.append('/-- cdf.rs %d (values), `struct CDF` (declared dimensions). -/'%lines[k])
        out.append('def %s : Family :='%k)
        if len(chunks)>1:
            out.append('  { name := "%s", dims := %s, tables := %s }'%(k,decl[k],' ++ '.join('%s_%d'%(k,j) for j in range(len(chunks)))))
            out.append('')
            continue
        out.append('  { name := "%s", dims := %s, tables := ['%(k,decl[k]))
        out.append(',\n'.join('    [%s]'%','.join(map(str,l)) for l in ls)+'] }')
        out.append('')
    out.append('def part%d : List Family := ['%(i+1)+', '.join(f)+']')
    out+=['','end Av1.Default','']
    open('lean/Verif/Model/DefaultCdf%d.lean'%(i+1),'w').write('\n'.join(out))
out=['import Verif.Model.DefaultCdf%d'%(i+1) for i in range(len(files))]
out+=['','/-! Generated by tools/gen_cdf.py: all default tables (`default_cdf`, cdf.rs 108–4371). -/','','namespace Av1.Default','',
 'def families : List Family := '+' ++ '.join('part%d'%(i+1) for i in range(len(files))),'','end Av1.Default','']
open('lean/Verif/Model/DefaultCdf.lean','w').write('\n'.join(out))
