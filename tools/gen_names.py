#!/usr/bin/env python3
"""Generate lean/Verif/Model/Names.lean from /repo/src/constants.rs.

Usage: python3 tools/gen_names.py   (run in /verif; the generated file is committed)
Lists every scalar constant and every enumerator of the file with its value, in the order of the file, and the two tables of
enumerators that are private to the file and unused.
"""
import re
raw=open('/repo/src/constants.rs').read()
def blank(m): return re.sub(r'[^\n]',' ',m.group(0))
src=re.sub(r'/\*.*?\*/',blank,re.sub(r'//[^\n]*',blank,raw),flags=re.S)
line=lambda pos: src.count('\n',0,pos)+1
env={}; groups=[]
items=[]
for m in re.finditer(r'enum (\w+) \{(.*?)\n\}',src,flags=re.S):
    k=-1; vals=[]
    for it in m.group(2).split(','):
        it=it.strip()
        if not it: continue
        if '=' in it:
            a,b=it.split('='); k=int(b); it=a.strip()
        else: k+=1
        vals.append((it,k))
    items.append((m.start(),m.end(),'enum '+m.group(1),vals))
sc=[]
for m in re.finditer(r'const (\w+)\s*: *(?:usize|isize) *= *([^;]+);',src):
    env[m.group(1)]=eval(m.group(2),{},env)
    sc.append((m.start(),m.end(),m.group(1),env[m.group(1)]))
# runs of scalar constants between enums
runs=[]; last=None
for s,e,n,v in sc:
    key=sum(1 for it in items if it[0]<s)
    if last!=key: runs.append((s,e,'constants',[])); last=key
    st,_,t,vs=runs[-1]; vs.append((n,v)); runs[-1]=(st,e,t,vs)
items=sorted(items+runs)
out=['/-! Generated by tools/gen_names.py from src/constants.rs: the scalar constants and the enumerators with their values,',
     'in the order of the file. -/','','namespace Av1.K','']
names=[]
for s,e,t,vs in items:
    nm='named'+str(len(names)+1); names.append(nm)
    what='`%s`'%t if t.startswith('enum') else 'Scalar constants'
    out.append('/-- %s, constants.rs %d–%d -/'%(what,line(s),line(e)))
    out.append('def %s : List (String × Int) := ['%nm)
    cur='  '
    ls=[]
    for i,(a,b) in enumerate(vs):
        x='("%s", %d)'%(a,b)+(', ' if i+1<len(vs) else ']')
        if len(cur)+len(x)>120: ls.append(cur.rstrip()); cur='  '
        cur+=x
    ls.append(cur); out+=ls; out.append('')
out.append('/-- All named values of constants.rs. -/')
out.append('def named : List (String × Int) :=\n  '+' ++ '.join(names))
out+=['','end Av1.K','']
t='\n'.join(out)
# wrap the last definition
head,tail=t.rsplit('def named : List (String × Int) :=\n  ',1)
expr,rest=tail.split('\n',1)
parts=expr.split(' ++ '); lines=[]; cur='  '
for i,p in enumerate(parts):
    x=p+(' ++ ' if i+1<len(parts) else '')
    if len(cur)+len(x)>110: lines.append(cur.rstrip()); cur='    '
    cur+=x
lines.append(cur)
vals={n:v for _,_,t,vs in items for n,v in vs}
m=re.search(r'const cfl_alpha_signs: \[\(SignUV, SignUV\); 8\] = \[(.*?)\];',src,flags=re.S)
signs=[tuple(vals[x] for x in p) for p in re.findall(r'SignUV::(\w+), SignUV::(\w+)',m.group(1))]
k=re.search(r'const tx_mode_to_biggest_tx_size: \[TxSize; TX_MODES\] = \[(.*?)\];',src,flags=re.S)
big=[vals[x] for x in re.findall(r'TxSize::(\w+)',k.group(1))]
tables=['','/-- `cfl_alpha_signs`, constants.rs %d–%d -/'%(line(m.start()),line(m.end())),
    'def cfl_alpha_signs : List (Nat × Nat) := [%s]'%', '.join('(%d, %d)'%x for x in signs),'',
    '/-- `tx_mode_to_biggest_tx_size`, constants.rs %d–%d -/'%(line(k.start()),line(k.end())),
    'def tx_mode_to_biggest_tx_size : List Nat := %s'%big,'']
rest=rest.replace('\nend Av1.K','\n'.join(tables)+'\nend Av1.K')
open('lean/Verif/Model/Names.lean','w').write(head+'def named : List (String × Int) :=\n'+'\n'.join(lines)+'\n'+rest)
