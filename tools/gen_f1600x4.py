#!/usr/bin/env python3
"""Translate pqclean/crypto_sign/dilithium2/avx2/f1600x4.S into lean/Verif/Avx2/F1600Asm.lean, instruction by instruction."""
import re
SRC='/repo/pqcrypto/pqclean/crypto_sign/dilithium2/avx2/f1600x4.S'
lines=open(SRC).read().split('\n')
start=next(i for i,l in enumerate(lines) if l.startswith('looptop:'))
end=next(i for i,l in enumerate(lines) if l.startswith('addq'))
def reg(s):
    m=re.fullmatch(r'%ymm(\d+)',s); return m and m.group(1)
def mem(s):
    m=re.fullmatch(r'(\d+)\(%rdi\)',s); return m and m.group(1)
chunks=[]
cur=None
for n in range(start+1,end):
    l=lines[n].strip()
    if not l or l.startswith('#'): continue
    op,args=l.split(None,1)
    a=[x.strip() for x in args.split(',')]
    if op=='vmovdqa' and a[0]=='0(%rdi)':
        cur=(n+1,[]); chunks.append(cur)
    if op=='vmovdqa':
        if mem(a[0]): t=f'.load {mem(a[0])} {reg(a[1])}'
        else: t=f'.store {reg(a[0])} {mem(a[1])}'
    elif op=='vpxor' and mem(a[0]): t=f'.xorm {mem(a[0])} {reg(a[1])} {reg(a[2])}'
    elif op in('vpxor','vpor','vpandn'):
        t=f'.{ {"vpxor":"xor","vpor":"or","vpandn":"andn"}[op]} {reg(a[0])} {reg(a[1])} {reg(a[2])}'
    elif op in('vpsllq','vpsrlq'):
        assert a[0][0]=='$'
        t=f'.{op[2:5]} {a[0][1:]} {reg(a[1])} {reg(a[2])}'
    elif op=='vpbroadcastq':
        m=re.fullmatch(r'(\d+)\(%rsi\)',a[0]); t=f'.bcast {m.group(1)} {reg(a[1])}'
    elif op=='vpshufb':
        if a[0]=='rho56(%rip)': t=f'.shufm {reg(a[1])} {reg(a[2])}'
        else: t=f'.shuf {reg(a[0])} {reg(a[1])} {reg(a[2])}'
    else: raise SystemExit('unknown '+l)
    assert 'None' not in t, l
    cur[1].append(t)
assert len(chunks)==4
assert lines[start-2:start]==['vmovdqa\t\trho8(%rip), %ymm0','movq\t\t$6, %rax']
assert [x.split() for x in lines[end:end+4]]==[['addq','$32,','%rsi'],['subq','$1,','%rax'],['jnz','looptop'],['ret']]
tab={}
for i,l in enumerate(lines):
    if l in('rho8:','rho56:'): tab[l[:-1]]=(i+2,[int(x) for x in lines[i+1].split(None,1)[1].split(',')])
o=["import Verif.Avx2.F1600","","/-! # The instructions of f1600x4.S (generated by tools/gen_f1600x4.py) -/","","namespace Verif.Avx2.F1600",""]
for k in('rho8','rho56'):
    o.append(f'/-- `{k}` (f1600x4.S:{tab[k][0]-1}-{tab[k][0]}). -/')
    o.append(f'def {k}Bytes : List (BitVec 8) := {tab[k][1]}'); o.append('')
for c,(ln,ins) in enumerate(chunks):
    o.append(f'/-- Round {c} of the loop body (from f1600x4.S:{ln}). -/')
    o.append(f'def round{c} : List Ins := [')
    for i in range(0,len(ins),5): o.append('  '+', '.join(ins[i:i+5])+(']' if i+5>=len(ins) else ','))
    o.append('')
o.append('end Verif.Avx2.F1600')
open('/verif/lean/Verif/Avx2/F1600Asm.lean','w').write('\n'.join(o)+'\n')
print([len(c[1]) for c in chunks])
