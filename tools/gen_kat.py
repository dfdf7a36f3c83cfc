#!/usr/bin/env python3
"""Writes lean/Verif/Dilithium/Kat/*.lean: a key pair and five signatures of Dilithium2 with all intermediate values, and the equations between them, each
proved by evaluation in the kernel.  The key and the first signature are those of the first known-answer test; the others are the four signatures of a run
of SIGMA-R.  The values are computed by dilithium2.py; nothing about them is trusted: the kernel checks every equation."""
import sys,os,glob
sys.path.insert(0,os.path.dirname(os.path.abspath(__file__)))
from dilithium2 import *
from dilithium2_kat import kat0
OUT=os.path.join(os.path.dirname(os.path.abspath(__file__)),'..','lean','Verif','Dilithium','Kat')
for f in glob.glob(OUT+'/*.lean'): os.remove(f)
_,msg,coins=kat0()
K=keygen(coins)
sk=K.rho+K.key+K.tr+b''.join(pack([2-x for x in p],3) for p in K.s1+K.s2)+b''.join(pack([4096-x for x in p],13) for p in K.t0)
def first(mk):
    """the first signer input, by a counter byte, for which the first attempt succeeds with a challenge from one block"""
    for n in range(256):
        x,m=mk(n)
        S=sign(K,m)
        if S and S.pos<=136: return x,m,S
ident=lambda name:(lambda n:(name+bytes(31-len(name))+bytes([n]),name+bytes(31-len(name))+bytes([n])+K.pk))
S0=sign(K,msg)
idI,m1,S1=first(ident(b'alice')); idR,m2,S2=first(ident(b'bob'))
ssid=bytes(range(32))
nB,m3,S3=first(lambda n:(bytes([n])*32,b'\x00'+bytes([n])*32+ssid+bytes(672+736)+idI+K.pk+S1.sig))
nA,m4,S4=first(lambda n:(bytes([n])*32,b'\x01'+bytes([n])*32+ssid+bytes(736+672)+idR+K.pk+S2.sig))
enc=lambda l: sum((x+8388608)<<(24*i) for i,x in enumerate(l))
def P(n,l): return '/-- Data. -/\ndef %sN : Nat := 0x%x\n/-- Data. -/\ndef %s : List Int := unp 256 %sN\n'%(n,enc(l),n,n)
def N(n,l): return '/-- Data. -/\ndef %s : List Nat := rsd (unp 256 0x%x)\n'%(n,enc(l))
def B(n,b): return '/-- Data. -/\ndef %s : Bytes := unb %d 0x%x\n'%(n,len(b),int.from_bytes(b,'little'))
HEAD='''%s
/-!
# A key pair and signatures of Dilithium2: %s

Generated by tools/gen_kat.py.
-/

namespace Verif.Dilithium.%s
open Verif.Dilithium Verif.Dilithium.Eval
open Verif.Props (someOob fipsShake)

set_option maxRecDepth 100000
set_option Elab.async false

'''
def write(name,imports,what,body,ns='Kat'):
    with open(os.path.join(OUT,name+'.lean'),'w') as f:
        f.write(HEAD%(''.join('import Verif.Dilithium.%s\n'%i for i in imports),what,ns)+body+'\nend Verif.Dilithium.%s\n'%ns)
R4=range(4)
vec=lambda n,s='':'![%s]'%', '.join('%s%d%s'%(n,i,s) for i in R4)
dk=' := by decide +kernel\n'
dk1=' := by rw [shake128_eval]; decide +kernel\n'
dk2=' := by rw [shake256_eval]; decide +kernel\n'
def M(n,f,arg='k'): return '  %s %s := by match k with %s\n'%(n,arg,' '.join('| %d => exact %s'%(i,f%i) for i in R4))
L='by match k with | 0 | 1 | 2 | 3 => exact unp_len _ _\n'
VL='fun k => by match k with | 0 | 1 | 2 | 3 => rfl'
# key
d=B('coins',coins)+B('rho',K.rho)+B('rhop',K.rhop)+B('key',K.key)+B('tr',K.tr)+B('pk',K.pk)+B('sk',sk)
for i in R4:
    for j in R4: d+=P('m%d%d'%(i,j),K.mat[i][j])
for i in R4: d+=P('s1%d'%i,K.s1[i])+P('s2%d'%i,K.s2[i])+N('s1h%d'%i,K.s1h[i])+N('s2h%d'%i,ntt(K.s2[i]))+N('t0h%d'%i,ntt(K.t0[i]))+P('t%d'%i,K.t[i])+P('t1%d'%i,K.t1[i])+P('t0%d'%i,K.t0[i])
d+='''/-- The intermediate values of key generation. -/
def K : KeyData where
  rho := rho
  rhop := rhop
  key := key
  tr := tr
  pk := pk
  mat := ![%s]
'''%', '.join('![%s]'%', '.join('m%d%d'%(i,j) for j in R4) for i in R4)
for n in 's1 s2 s1h t t1 t0'.split(): d+='  %s := %s\n'%(n,vec(n))
write('Data',['EvalSign'],'the values of key generation',d)
d=B('msg',msg)+B('idI',idI)+B('idR',idR)+B('ssid',ssid)+B('nA',nA)+B('nB',nB)
for i,S in enumerate((S0,S1,S2,S3,S4)): d+=B('sig%d'%i,S.sig)
d+='''/-- The message of the test. -/
def msg0 : Bytes := msg
/-- The certificate of the initiator. -/
def msg1 : Bytes := idI ++ pk
/-- The certificate of the responder. -/
def msg2 : Bytes := idR ++ pk
/-- What the initiator signs. -/
def msg3 : Bytes := [0x00] ++ nB ++ ssid ++ List.replicate 672 0 ++ List.replicate 736 0 ++ (idI ++ pk ++ sig1)
/-- What the responder signs. -/
def msg4 : Bytes := [0x01] ++ nA ++ ssid ++ List.replicate 736 0 ++ List.replicate 672 0 ++ (idR ++ pk ++ sig2)
'''
write('Msgs',['Kat.Data'],'messages and signatures',d)
for i in R4:
    b=''
    for j in R4:
        b+='theorem mat%d%d : (Keccak.shake128 someOob 840 (rho ++ nonceBytes %d)).map (rejUniform 256) = some m%d%d%s'%(i,j,256*i+j,i,j,dk1)
    write('Mat%d'%i,['Kat.Data'],'row %d of the matrix'%i,b)
b='theorem seed : Keccak.shake256 someOob 128 coins = some (rho ++ rhop ++ key)'+dk2
for i in R4:
    for s,o in (('s1',0),('s2',4)):
        b+='theorem %s%d_eq : (Keccak.shake256 someOob 272 (rhop ++ nonceBytes %d)).map Eval.etaOf = some %s%d%s'%(s,i,o+i,s,i,dk2)
write('Sec',['Kat.Data'],'seeds and secret vectors',b)
b=''
for i in R4:
    for n in ('s1','s2','t0'): b+='theorem %sh%d_eq : nt8 %s%d = %sh%d%s'%(n,i,n,i,n,i,dk)
for i in R4:
    b+='theorem t%d_eq : nt8 t%d = ad (dot (K.mat %d) K.s1h) (nt8 s2%d)%s'%(i,i,i,i,dk)
    b+='theorem rt%d : ∀ x ∈ t%d, 0 ≤ x ∧ x < 8380417%s'%(i,i,dk)
    b+='theorem t1%d_eq : (t%d).map (fun x => (Spec.power2Round x).1) = t1%d%s'%(i,i,i,dk)
    b+='theorem t0%d_eq : (t%d).map (fun x => (Spec.power2Round x).2) = t0%d%s'%(i,i,i,dk)
b+='theorem pk_eq : packPk rho (dv %s) = pk%s'%(vec('t1','N'),dk)
b+='theorem tr_eq : Keccak.shake256 someOob 64 pk = some tr'+dk2
b+='theorem sk_eq : packSk wrapSem { rho := rho, tr := tr, key := key, t0 := dv %s, s1 := dv %s, s2 := dv %s } = sk%s'%(vec('t0','N'),vec('s1','N'),vec('s2','N'),dk)
b+='theorem sk_fields : packSk wrapSem K.sk = sk := by\n  rw [← sk_eq]\n  unfold KeyData.sk\n  rw [vl_unp K.t0 %s %s, vl_unp K.s1 %s %s, vl_unp K.s2 %s %s]\n  rfl\n'%(vec('t0','N'),'('+VL+')',vec('s1','N'),'('+VL+')',vec('s2','N'),'('+VL+')')
write('Key',['Kat.Data'],'the key pair',b)
b='''theorem K_ok : K.Ok coins where
  lc := unb_len _ _
  seed := digest256 someOob _ _ _ seed
  lrho := unb_len _ _
  lrhop := unb_len _ _
  lkey := unb_len _ _
  lmat i j := by match i with | 0 | 1 | 2 | 3 => (match j with | 0 | 1 | 2 | 3 => exact unp_len _ _)
  mat i j := by
    match i with
'''
for i in R4:
    b+='    | %d =>\n      match j with\n'%i
    for j in R4: b+='      | %d => exact uniform_of someOob rho %d m%d%d mat%d%d (unp_len _ _)\n'%(j,256*i+j,i,j,i,j)
for n,o in (('s1',0),('s2',4)):
    b+='  %s i := by\n    match i with\n'%n
    for i in R4: b+='    | %d => exact eta_of someOob rhop %d %s%d %s%d_eq (unp_len _ _)\n'%(i,o+i,n,i,n,i)
for n in ('ls1','ls2','lt'): b+='  %s k := %s'%(n,L)
b+=M('s1h','s1h%d_eq')+M('rt','rt%d')+M('t','t%d_eq')+M('t1','t1%d_eq')+M('t0','t0%d_eq')
b+='  pk := by rw [vl_unp K.t1 %s %s]; exact pk_eq\n  tr := digest256 someOob _ _ _ tr_eq\n\n'%(vec('t1','N'),'('+VL+')')
b+='''/-- Key generation on the coins of the test. -/
theorem kat_keypair : keypairDet wrapSem fipsShake coins = some (pk, sk) := by
  rw [keypair_of K_ok, sk_fields]
  rfl
'''
write('Pair',['Kat.'+x for x in 'Mat0 Mat1 Mat2 Mat3 Sec Key'.split()],'key generation',b)
for num,(S,what) in enumerate(((S0,'the known-answer test'),(S1,'the certificate of the initiator'),(S2,'the certificate of the responder'),(S3,'the signature of the initiator'),(S4,'the signature of the responder'))):
    r=[[(a-b)%q for a,b in zip(x,y)] for x,y in zip(S.w,S.cs2)]
    b='open Verif.Dilithium.Kat\n\n'+B('mu',S.mu)+B('rp',S.rp)+B('c',S.c)+P('cp',S.cp)+N('ch',S.ch)
    for i in R4: b+=P('y%d'%i,S.y[i])+N('yh%d'%i,S.yh[i])+P('w%d'%i,S.w[i])+P('wh%d'%i,S.w1[i])+P('cs1%d'%i,S.cs1[i])+P('cs2%d'%i,S.cs2[i])+P('ct0%d'%i,S.ct0[i])+P('z%d'%i,S.z[i])+P('r%d'%i,r[i])+P('h%d'%i,S.h[i])
    b+='''/-- The intermediate values of signing. -/
def S : SignData where
  mu := mu
  rp := rp
  c := c
  cp := cp
  ch := ch
  w1 := %s
'''%vec('wh')
    for n in 'y yh w cs1 cs2 ct0 z r h'.split(): b+='  %s := %s\n'%(n,vec(n))
    b+='theorem mu_eq : Keccak.shake256 someOob 64 (tr ++ msg%d) = some mu%s'%(num,dk2)
    b+='theorem rp_eq : Keccak.shake256 someOob 64 (key ++ List.replicate 32 0 ++ mu) = some rp'+dk2
    for i in R4:
        b+='theorem y%d_eq : (Keccak.shake256 someOob 680 (rp ++ nonceBytes %d)).map (List.take 576) = some (polyzPack wrapSem (dp y%dN))%s'%(i,i,i,dk2)
        b+='theorem ry%d : ∀ i, -131072 < dp y%dN i ∧ dp y%dN i ≤ 131072%s'%(i,i,i,dk)
    for i in R4: b+='theorem yh%d_eq : nt8 y%d = yh%d%s'%(i,i,i,dk)
    for i in R4:
        b+='theorem w%d_eq : nt8 w%d = dot (K.mat %d) S.yh%s'%(i,i,i,dk)
        b+='theorem rw%d : ∀ x ∈ w%d, 0 ≤ x ∧ x < 8380417%s'%(i,i,dk)
        b+='theorem wh%d_eq : (w%d).map Spec.highBits = wh%d%s'%(i,i,i,dk)
    b+='theorem c_eq : Keccak.shake256 someOob 32 (mu ++ vecPackW1 (dv %s)) = some c%s'%(vec('wh','N'),dk2)
    b+='theorem cp_eq : (Keccak.shake256 someOob 136 c).bind (fun b => ball b 39 217 8 (List.replicate 256 0)) = some cp'+dk2
    b+='theorem ch_eq : nt8 cp = ch'+dk
    for i in R4:
        b+='theorem cs1%d_eq : nt8 cs1%d = pw ch s1h%d%s'%(i,i,i,dk)
        b+='theorem cs2%d_eq : nt8 cs2%d = pw ch s2h%d%s'%(i,i,i,dk)
        b+='theorem ct0%d_eq : nt8 ct0%d = pw ch t0h%d%s'%(i,i,i,dk)
        for n in ('cs1','cs2'): b+='theorem r%s%d : ∀ x ∈ %s%d, -4190208 ≤ x ∧ x ≤ 4190208%s'%(n,i,n,i,dk)
        b+='theorem rct0%d : ∀ x ∈ ct0%d, -95232 < x ∧ x < 95232%s'%(i,i,dk)
        b+='theorem z%d_eq : List.zipWith (fun a b => a + b) y%d cs1%d = z%d%s'%(i,i,i,i,dk)
        b+='theorem rz%d : ∀ x ∈ z%d, -130994 < x ∧ x < 130994%s'%(i,i,dk)
        b+='theorem r%d_eq : List.zipWith (fun a b => (a - b) %% 8380417) w%d cs2%d = r%d%s'%(i,i,i,i,dk)
        b+='theorem rr%d : ∀ x ∈ r%d, -95154 < Spec.lowBits x ∧ Spec.lowBits x < 95154%s'%(i,i,dk)
        b+='theorem h%d_eq : List.zipWith (fun a b => Spec.makeHint (-b) ((a + b) %% 8380417)) r%d ct0%d = h%d%s'%(i,i,i,i,dk)
    b+='theorem wt_le : Dilithium.wt (dv %s) ≤ 80%s'%(vec('h','N'),dk)
    b+='theorem sig_eq : packSig wrapSem c (dv %s) (dv %s) = sig%d%s\n'%(vec('z','N'),vec('h','N'),num,dk)
    b+='theorem S_ok : S.Ok K msg%d where\n  mu := digest256 someOob _ _ _ mu_eq\n  rp := digest256 someOob _ _ _ rp_eq\n'%num
    b+='  y k := by\n    match k with\n'
    for i in R4: b+='    | %d => exact gamma_of someOob rp %d y%dN y%d_eq ry%d\n'%(i,i,i,i,i)
    for n in ('ly','lw','l1','l2','l0'): b+='  %s k := %s'%(n,L)
    b+='  lcp := unp_len _ _\n'
    b+=M('yh','yh%d_eq')+M('rw_','rw%d')+M('w','w%d_eq')+M('w1','wh%d_eq')
    b+='  c := by rw [vl_unp S.w1 %s (%s)]; exact digest256 someOob _ _ _ c_eq\n  cp := challenge_of someOob _ _ (unb_len _ _) cp_eq\n  ch := ch_eq\n'%(vec('wh','N'),VL)
    b+='  cs2 k := by match k with %s\n'%' '.join('| %d => exact cs2%d_eq.trans (congrArg _ s2h%d_eq.symm)'%(i,i,i) for i in R4)
    b+='  ct0 k := by match k with %s\n'%' '.join('| %d => exact ct0%d_eq.trans (congrArg _ t0h%d_eq.symm)'%(i,i,i) for i in R4)
    for n,m in (('r1','rcs1%d'),('r2','rcs2%d'),('r0','rct0%d'),('cs1','cs1%d_eq'),('z','z%d_eq'),('rz','rz%d'),('r','r%d_eq'),('rr','rr%d'),('h','h%d_eq')): b+=M(n,m)
    b+='  wt := by rw [vl_unp S.h %s (%s)]; exact wt_le\n\n'%(vec('h','N'),VL)
    b+='''theorem signs (coins : Bytes) (hK : K.Ok coins) : signature wrapSem fipsShake msg%d sk = some sig%d := by
  have := signature_of hK S_ok
  rw [sk_fields, vl_unp S.z %s (%s), vl_unp S.h %s (%s)] at this
  rw [this]
  exact congrArg some sig_eq
'''%(num,num,vec('z','N'),VL,vec('h','N'),VL)
    write('S%d'%num,['Kat.Msgs','Kat.Key'],what,b,'Kat.S%d'%num)
b='/-- The signatures. -/\ntheorem signatures :\n    '+' ∧\n    '.join('signature wrapSem fipsShake msg%d sk = some sig%d'%(i,i) for i in range(5))+' :=\n  ⟨'+', '.join('S%d.signs coins K_ok'%i for i in range(5))+'⟩\n'
write('All',['Kat.Pair']+['Kat.S%d'%i for i in range(5)],'the results',b)
print('idI',idI.hex(),'idR',idR.hex(),'nA',nA[0],'nB',nB[0],[len(m) for m in (m1,m2,m3,m4)])
