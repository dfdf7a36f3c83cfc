import hashlib
q=8380417
def shake128(n,b): return hashlib.shake_128(b).digest(n)
def shake256(n,b): return hashlib.shake_256(b).digest(n)
def brv(n): return int('{:08b}'.format(n)[::-1],2)
roots=[pow(1753,2*brv(n)+1,q) for n in range(256)]
def ntt(a):
    # fast: values at roots in bit-reversed order
    a=[x%q for x in a]
    zet=[pow(1753,brv(k),q) for k in range(256)]
    k=0;l=128
    while l:
        s=0
        while s<256:
            k+=1;z=zet[k]
            for j in range(s,s+l):
                t=z*a[j+l]%q
                a[j+l]=(a[j]-t)%q;a[j]=(a[j]+t)%q
            s+=2*l
        l//=2
    return a
def intt(a):
    a=a[:]
    zet=[pow(1753,brv(k),q) for k in range(256)]
    l=1;k=256
    while l<256:
        s=0
        while s<256:
            k-=1;z=(-zet[k])%q
            for j in range(s,s+l):
                t=a[j]
                a[j]=(t+a[j+l])%q
                a[j+l]=z*(t-a[j+l])%q
            s+=2*l
        l*=2
    f=pow(256,-1,q)
    return [x*f%q for x in a]
import random
_t=[random.randrange(q) for _ in range(256)]
assert ntt(_t)==[sum(c*pow(r,i,q) for i,c in enumerate(_t))%q for r in roots] and intt(ntt(_t))==_t
def uniform(rho,n):
    b=shake128(840,rho+bytes([n&255,n>>8])); r=[]
    for i in range(0,840,3):
        t=(b[i]|b[i+1]<<8|b[i+2]<<16)&0x7fffff
        if t<q and len(r)<256: r.append(t)
    assert len(r)==256
    return r
def eta(s,n):
    b=shake256(272,s+bytes([n&255,n>>8])); r=[]
    for x in b:
        for t in (x&15,x>>4):
            if t<15 and len(r)<256: r.append(2-t%5)
    assert len(r)==256
    return r
def gamma1(s,n):
    b=shake256(576,s+bytes([n&255,n>>8])); v=int.from_bytes(b,'little')
    return [(1<<17)-((v>>(18*i))&0x3ffff) for i in range(256)]
def modpm(r,m):
    r%=m
    return r-m if r>m//2 else r
def p2r(r):
    r0=modpm(r,8192); return (r-r0)//8192,r0
def decomp(r):
    r0=modpm(r,190464)
    if r-r0==q-1: return 0,r0-1
    return (r-r0)//190464,r0
def cen(x): 
    x%=q
    return x-q if x>q//2 else x
def mul(ah,bh): return [x*y%q for x,y in zip(ah,bh)]
def pack(l,b):
    v=0
    for i,x in enumerate(l): v|=x<<(b*i)
    return v.to_bytes(b*len(l)//8,'little')
class Key: pass
def keygen(coins):
    K=Key()
    sb=shake256(128,coins); K.rho=sb[:32];K.rhop=sb[32:96];K.key=sb[96:]
    K.mat=[[uniform(K.rho,i*256+j) for j in range(4)] for i in range(4)]
    K.s1=[eta(K.rhop,i) for i in range(4)];K.s2=[eta(K.rhop,4+i) for i in range(4)]
    K.s1h=[ntt(p) for p in K.s1]
    K.as1=[intt([sum(K.mat[k][j][n]*K.s1h[j][n] for j in range(4))%q for n in range(256)]) for k in range(4)]
    K.t=[[(K.as1[k][i]+K.s2[k][i])%q for i in range(256)] for k in range(4)]
    K.t1=[[p2r(x)[0] for x in p] for p in K.t];K.t0=[[p2r(x)[1] for x in p] for p in K.t]
    K.pk=K.rho+b''.join(pack(p,10) for p in K.t1)
    K.tr=shake256(64,K.pk)
    return K
def challenge(seed):
    st=shake256(136*3,seed); signs=int.from_bytes(st[:8],'little'); pos=8;c=[0]*256
    for i in range(217,256):
        while True:
            b=st[pos];pos+=1
            if b<=i: break
        c[i]=c[b];c[b]=1-2*(signs&1);signs>>=1
    return c,pos
def sign(K,m,nonce=0):
    S=Key();S.m=m
    S.mu=shake256(64,K.tr+m);S.rp=shake256(64,K.key+bytes(32)+S.mu)
    S.y=[gamma1(S.rp,4*nonce+i) for i in range(4)]
    S.yh=[ntt(p) for p in S.y]
    S.w=[intt([sum(K.mat[k][j][n]*S.yh[j][n] for j in range(4))%q for n in range(256)]) for k in range(4)]
    S.w1=[[decomp(x)[0] for x in p] for p in S.w];S.w0=[[decomp(x)[1] for x in p] for p in S.w]
    S.c=shake256(32,S.mu+b''.join(pack(p,6) for p in S.w1))
    S.cp,S.pos=challenge(S.c);S.ch=ntt(S.cp)
    f=lambda v:[[cen(x) for x in intt(mul(S.ch,ntt(p)))] for p in v]
    S.cs1=f(K.s1)
    S.z=[[a+b for a,b in zip(x,y)] for x,y in zip(S.y,S.cs1)]
    if max(abs(x) for p in S.z for x in p)>=(1<<17)-78: return None
    S.cs2=f(K.s2)
    if max(abs(decomp((a-b)%q)[1]) for x,y in zip(S.w,S.cs2) for a,b in zip(x,y))>=95232-78: return None
    S.ct0=f(K.t0)
    if max(abs(x) for p in S.ct0 for x in p)>=95232: return None
    S.h=[]
    for k in range(4):
        r=[]
        for i in range(256):
            a=(S.w[k][i]-S.cs2[k][i])%q
            r.append(int(decomp((a+S.ct0[k][i])%q)[0]!=decomp(a)[0]))
        S.h.append(r)
    if sum(map(sum,S.h))>80: return None
    hb=[];off=[]
    for k in range(4):
        hb+=[i for i in range(256) if S.h[k][i]]; off.append(len(hb))
    S.sig=S.c+b''.join(pack([(1<<17)-x for x in p],18) for p in S.z)+bytes(hb+[0]*(80-len(hb))+off)
    assert len(S.sig)==2420
    return S
