#!/usr/bin/env python3
"""Translate the two versions of the two-way Keccak permutation of dilithium2/aarch64 (macro `round` of feat.S; the loop body of
KeccakF1600_StatePermutex2 in fips202x2.c) into lean/Verif/Neon/F1600Code.lean, instruction by instruction."""
import re
D='/repo/pqcrypto/pqclean/crypto_sign/dilithium2/aarch64/'
A=open(D+'feat.S').read().split('\n')
i0=next(i for i,l in enumerate(A) if l.strip()=='.macro round'); i1=next(i for i,l in enumerate(A) if l.strip()=='.endm')
asm=[]
for n in range(i0+1,i1):
    l=A[n].split(';')[0].strip()
    if not l: continue
    op,args=l.split(None,1)
    if op=='ld1r':
        assert re.fullmatch(r'\{v25.2d\}, \[x1\], #8',args),l
        asm.append('.rc 25 0'); continue
    a=[x.strip() for x in args.split(',')]
    r=[x[1:] if x[0]=='v' else x for x in a]
    name,suf=op.split('.')
    assert suf==('2d' if name in('rax1','xar') else '16b')
    assert len(r)=={'eor3':4,'rax1':3,'eor':3,'mov':2,'xar':4,'bcax':4}[name]
    asm.append('.'+name+' '+' '.join(r))
rest=[l.split(';')[0].strip() for l in A[i1+1:]]
rest=[l for l in rest if l]
body=' | '.join(rest)
ld=['%s.2d {%s}, [x0]%s'%('LD',', '.join('v%d'%j for j in range(k,min(k+4,25))),', #64' if k<24 else '') for k in range(0,25,4)]
norm=[re.sub(r'\s+',' ',l) for l in rest]
exp=['mov x2, x0','mov x3, #24']+[x.replace('LD','ld1') for x in ld]+['loop:','round','subs x3, x3, #1','cbnz x3, loop','mov x0, x2']+[x.replace('LD','st1') for x in ld]
k=norm.index('mov x2, x0'); assert norm[k:k+len(exp)]==exp,(norm[k:k+len(exp)],exp)
C=open(D+'fips202x2.c').read().split('\n')
c0=next(i for i,l in enumerate(C) if 'for (int round = 0; round < NROUNDS; round += 2)' in l)
c1=next(i for i,l in enumerate(C) if 'copyToState' in l or 'state[0] = Aba;' in l)
reg={}
for s,base in(('A',0),('E',25)):
    for y,yy in enumerate('bgkms'):
        for x,xx in enumerate('aeiou'): reg[s+yy+xx]=base+5*y+x
for x,xx in enumerate('aeiou'): reg['BC'+xx]=50+x; reg['D'+xx]=55+x
halves=[[],[]]; h=-1; marks=0
for n in range(c0+1,c1):
    l=C[n].strip()
    if l.startswith('//'):
        if 'prepareTheta' in l and 'thetaRho' not in l: h+=1
        continue
    if l in('','}'): continue
    m=re.fullmatch(r'(\w+)\((.*)\);',l); assert m,l
    op,a=m.group(1),[x.strip() for x in m.group(2).split(',')]
    m=re.fullmatch(r'vxor\((\w+), (\w+), vdupq_n_u64\(neon_KeccakF_RoundConstants\[round( \+ 1)?\]\)\);',l)
    out=halves[h]
    R=lambda x: str(reg[x])
    if m:
        out.append('.rc 60 %d'%(1 if m.group(3) else 0)); out.append(f'.eor {R(m.group(1))} {R(m.group(2))} 60')
    elif op=='vxor': out.append(f'.eor {R(a[0])} {R(a[1])} {R(a[2])}')
    elif op=='vXOR4':
        o=R(a[0]); out.append(f'.eor {o} {R(a[1])} {R(a[2])}')
        for z in a[3:]: out.append(f'.eor {o} {o} {R(z)}')
    elif op=='vROL':
        k=int(a[2]); out.append(f'.shl {R(a[0])} {R(a[1])} {k}'); out.append(f'.sri {R(a[0])} {R(a[1])} {64-k}')
    elif op=='vXNA':
        o=R(a[0]); out.append(f'.bic {o} {R(a[3])} {R(a[2])}'); out.append(f'.eor {o} {o} {R(a[1])}')
    else: raise SystemExit(l)
assert h==1
for base,txt in((0,'%s = state[%d];'),(1,None)):
    for v in range(25):
        nm=[k for k,x in reg.items() if x==v][0]
        assert any(l.strip()==(f'{nm} = state[{v}];' if base==0 else f'state[{v}] = {nm};') for l in C),nm
def lst(name,doc,x):
    s=f'/-- {doc} -/\ndef {name} : List Ins := [\n'
    rows=['  '+', '.join(x[i:i+8]) for i in range(0,len(x),8)]
    return s+',\n'.join(rows)+']\n'
o='import Verif.Neon.F1600\n\n/-! # The rounds of the two-way permutation (generated by tools/gen_f1600x2.py from feat.S and fips202x2.c of dilithium2/aarch64) -/\n\nnamespace Verif.Neon.F1600\n\n'
o+=lst('roundAsm',f'The macro `round` (feat.S:{i0+1}-{i1+1}).',asm)+'\n'
o+=lst('roundA',f'The first round of the loop body of `KeccakF1600_StatePermutex2` (fips202x2.c, from line {c0+2}): variables `A..` are registers 0 to 24, `E..` 25 to 49,\n`BC.` 50 to 54, `D.` 55 to 59; the macros `vROL`, `vXOR4`, `vXNA` (fips202x2.c:47-63) are expanded.',halves[0])+'\n'
o+=lst('roundE',f'The second round of the loop body (up to fips202x2.c:{c1}).',halves[1])+'\nend Verif.Neon.F1600\n'
open('/verif/lean/Verif/Neon/F1600Code.lean','w').write(o)
print(len(asm),len(halves[0]),len(halves[1]))
