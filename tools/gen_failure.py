#!/usr/bin/env python3
"""Writes lean/Verif/Saber/FailureData.lean: the SHAKE128 streams and the products of the failing LightSaber exchange of C103, as numbers.
The values are only hints: Verif/Saber/Failure.lean checks every one of them in the kernel."""
import hashlib
zero=bytes(32)
r=(44673).to_bytes(4,'little')+bytes(28)
def stream(m,n): return int.from_bytes(hashlib.shake_128(m).digest(n),'little')
XA=stream(zero,1680); XS=stream(zero,672); XT=stream(r,672)
def a(i,j): return [(XA>>(13*(256*(2*i+j)+k)))%8192 for k in range(256)]
def sec(X,kk):
    o=[]
    for k in range(256):
        p=10*(256*kk+k); o.append(bin((X>>p)%32).count('1')-bin((X>>(p+5))%32).count('1'))
    return o
def neg(a,b):
    c=[0]*512
    for i,x in enumerate(a):
        for j,y in enumerate(b): c[i+j]+=x*y
    return [c[i]-c[i+256] for i in range(256)]
def inner(u,v): return [x+y for x,y in zip(neg(u[0],v[0]),neg(u[1],v[1]))]
s=[sec(XS,0),sec(XS,1)]; t=[sec(XT,0),sec(XT,1)]
A=[[a(i,j) for j in range(2)] for i in range(2)]
AS=[inner(A[i],s) for i in range(2)]
AT=[inner([A[0][i],A[1][i]],t) for i in range(2)]
rnd=lambda x:((x+4)//8)%1024
err=lambda x:4-(x+4)%8
b=[[rnd(x) for x in AS[i]] for i in range(2)]
bp=[[rnd(x) for x in AT[i]] for i in range(2)]
VV=inner(b,t); WW=inner(bp,s)
E1=inner([[err(x) for x in AS[i]] for i in range(2)],t)
E2=inner([[err(x) for x in AT[i]] for i in range(2)],s)
pack=lambda l:sum((x+2**31)<<(32*i) for i,x in enumerate(l))
noise=[x-y for x,y in zip(E1,E2)]
i=117
print('v',VV[i]%1024,'w',WW[i]%1024,'noise',noise[i],'max',max(abs(x) for x in noise), [ (k,noise[k]) for k in range(256) if k%8==5 and abs(noise[k])>512])
with open('/verif/lean/Verif/Saber/FailureData.lean','w') as f:
    f.write('/-! Generated by tools/gen_failure.py: numbers checked in `Verif/Saber/Failure.lean`. -/\n\nnamespace Verif.Saber.Failure\n\n')
    for name,doc,v in [('XA','The first 1680 bytes of SHAKE128 of 32 zero bytes, least significant first.',XA),
      ('XS','The first 672 bytes of SHAKE128 of 32 zero bytes.',XS),('XT','The first 672 bytes of SHAKE128 of the bytes 0x81, 0xAE and 30 zeros.',XT),
      ('AS0','`(A s)_0`, digits in base `2^32` with offset `2^31`.',pack(AS[0])),('AS1','`(A s)_1`.',pack(AS[1])),
      ('AT0','`(Aᵀ t)_0`.',pack(AT[0])),('AT1','`(Aᵀ t)_1`.',pack(AT[1])),('VV','`⟨b, t⟩`.',pack(VV)),('WW',"`⟨b', s⟩`.",pack(WW)),
      ('E1','Rounding errors of `A s` times `t`.',pack(E1)),('E2','Rounding errors of `Aᵀ t` times `s`.',pack(E2))]:
        f.write('/-- %s -/\ndef %s : Nat :=\n  0x%x\n\n'%(doc,name,v))
    f.write('end Verif.Saber.Failure\n')
