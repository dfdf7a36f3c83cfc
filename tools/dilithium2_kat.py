from dilithium2 import *
import hashlib
# AES-256 ECB (pure)
sb=[];p=q_=1
S=[0]*256
def xt(a): return ((a<<1)^0x1b)&255 if a&128 else a<<1
p=1;qq=1
while True:
    p=p^xt(p)
    qq^=qq<<1;qq^=qq<<2;qq^=qq<<4;qq&=255
    if qq&0x80: qq^=0x09
    rl=lambda x,n:((x<<n)|(x>>(8-n)))&255
    S[p]=qq^rl(qq,1)^rl(qq,2)^rl(qq,3)^rl(qq,4)^0x63
    if p==1: break
S[0]=0x63
def aes256(key,blk):
    w=[list(key[4*i:4*i+4]) for i in range(8)];rc=1
    for i in range(8,60):
        t=w[i-1][:]
        if i%8==0: t=[S[x] for x in t[1:]+t[:1]];t[0]^=rc;rc=xt(rc)
        elif i%8==4: t=[S[x] for x in t]
        w.append([a^b for a,b in zip(w[i-8],t)])
    rk=[sum(w[4*r:4*r+4],[]) for r in range(15)]
    s=[a^b for a,b in zip(blk,rk[0])]
    for r in range(1,15):
        s=[S[x] for x in s]
        s=[s[(i+4*(i%4))%16] for i in range(16)]
        if r<14:
            n=[]
            for c in range(4):
                a=s[4*c:4*c+4];t=a[0]^a[1]^a[2]^a[3]
                n+=[a[i]^t^xt(a[i]^a[(i+1)%4]) for i in range(4)]
            s=n
        s=[a^b for a,b in zip(s,rk[r])]
    return bytes(s)
assert aes256(bytes(range(32)),bytes.fromhex('00112233445566778899aabbccddeeff')).hex()=='8ea2b7ca516745bfeafc49904b496089'
class DRBG:
    def __init__(s,ent):
        s.K=bytes(32);s.V=0;s.upd(ent)
    def inc(s): s.V=(s.V+1)%(1<<128);return aes256(s.K,s.V.to_bytes(16,'big'))
    def upd(s,d):
        t=s.inc()+s.inc()+s.inc()
        if d: t=bytes(a^b for a,b in zip(t,d))
        s.K=t[:32];s.V=int.from_bytes(t[32:],'big')
    def rand(s,n):
        o=b''
        while len(o)<n:o+=s.inc()
        s.upd(None);return o[:n]
def kat0():
    d=DRBG(bytes(range(48)))
    seed=d.rand(48); msg=d.rand(33)
    d2=DRBG(seed)
    coins=d2.rand(32)
    return seed,msg,coins
if __name__=='__main__':
    seed,msg,coins=kat0()
    print(seed.hex()[:20])
    K=keygen(coins)
    sk=K.rho+K.key+K.tr+b''.join(pack([2-x for x in p],3) for p in K.s1+K.s2)+b''.join(pack([4096-x for x in p],13) for p in K.t0)
    n=0
    while True:
        R=sign(K,msg,n)
        if R: break
        n+=1
    print('attempts',n+1)
    sm=R.sig+msg
    H=lambda b:b.hex().upper()
    txt="count = 0\nseed = %s\nmlen = 33\nmsg = %s\npk = %s\nsk = %s\nsmlen = %d\nsm = %s\n"%(H(seed),H(msg),H(K.pk),H(sk),len(sm),H(sm))
    for t in (txt,txt+"\n","# Dilithium2\n\n"+txt+"\n"):
        print(hashlib.sha256(t.encode()).hexdigest())
